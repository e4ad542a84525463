/-
Partition tables and the rest of /repo/epcpy/utils/common.py.
-/
import Verif.Refine.Lazy
import Verif.Lemmas.Verify

namespace Epc.Src
open Epc.Spec

/-! ### Partition tables -/

/-- A row of a partition table, as a dictionary. -/
def rowVal (r : Row) : Val :=
  .dict [(.str (py "P"), .int r.P), (.str (py "M"), .int r.M), (.str (py "L"), .int r.L), (.str (py "N"), .int r.N), (.str (py "K"), .int r.K)]

/-- `PARTITION_TABLE_L` -/
def tableL (t : List Row) : Val := .dict (t.map (fun r => (.int r.L, rowVal r)))
/-- `PARTITION_TABLE_P` -/
def tableP (t : List Row) : Val := .dict (t.map (fun r => (.int r.P, rowVal r)))

@[src] theorem row_P (r : Row) : getItem (rowVal r) (.str (py "P")) = .ok (.int r.P) := rfl
@[src] theorem row_M (r : Row) : getItem (rowVal r) (.str (py "M")) = .ok (.int r.M) := rfl
@[src] theorem row_L (r : Row) : getItem (rowVal r) (.str (py "L")) = .ok (.int r.L) := rfl
@[src] theorem row_N (r : Row) : getItem (rowVal r) (.str (py "N")) = .ok (.int r.N) := rfl
@[src] theorem row_K (r : Row) : getItem (rowVal r) (.str (py "K")) = .ok (.int r.K) := rfl

@[src] theorem item_tableL (t : List Row) (k : Nat) : getItem (tableL t) (.int k) = (lift (rowByL t k)).map rowVal := by
  unfold tableL rowByL
  rw [item_dict]
  induction t with
  | nil => rfl
  | cons r t ih =>
    rw [List.map_cons, dictGet, List.find?_cons]
    by_cases h : r.L = k
    · have h1 : (Val.int (k : Int)).beq (Val.int (r.L : Int)) = true := by rw [beq_int]; simp [h]
      have h2 : (r.L == k) = true := by simp [h]
      rw [if_pos h1, h2]
      rfl
    · have h1 : (Val.int (k : Int)).beq (Val.int (r.L : Int)) = false := by rw [beq_int]; simp; omega
      have h2 : (r.L == k) = false := by simp [h]
      rw [if_neg (by rw [h1]; decide), h2]
      exact ih

@[src] theorem item_tableP (t : List Row) (k : Int) : getItem (tableP t) (.int k) = (lift (rowByP t k)).map rowVal := by
  unfold tableP rowByP
  rw [item_dict]
  induction t with
  | nil => rfl
  | cons r t ih =>
    rw [List.map_cons, dictGet, List.find?_cons]
    by_cases h : (r.P : Int) = k
    · have h1 : (Val.int k).beq (Val.int (r.P : Int)) = true := by rw [beq_int]; simp [h]
      have h2 : ((r.P : Int) == k) = true := by simp [h]
      rw [if_pos h1, h2]
      rfl
    · have h1 : (Val.int k).beq (Val.int (r.P : Int)) = false := by rw [beq_int]; simp; omega
      have h2 : ((r.P : Int) == k) = false := by simp; omega
      rw [if_neg (by rw [h1]; decide), h2]
      exact ih

@[src] theorem const_bool (n : Nat) (m : Mod) (env : Env) (b : Bool) : (level (n + 1)).const m env (.bool b) = .ok (.bool b) := by
  rw [const_eval, eval_bool]

/-- The keyword arguments that select the treatment of the reference when encoding. -/
def encKw : PartMode → List (Nm × Val)
  | .string => [(.string_partition, .bool true)]
  | .sixBit => [(.six_bit_variable_partition, .bool true)]
  | _ => []

@[src] theorem item_list0 (v : Val) (l : List Val) : getItem (.list (v :: l)) (.int ((0 : Nat) : Int)) = .ok v := rfl
@[src] theorem item_list1 (v w : Val) (l : List Val) : getItem (.list (v :: w :: l)) (.int ((1 : Nat) : Int)) = .ok w := rfl

theorem ne_zero_iff (k : Nat) : ((!((k : Int) == ((0 : Nat) : Int))) = true) = (k ≠ 0) := by
  by_cases h : k = 0
  · subst h; decide
  · simp [h]

theorem encodeRef_string (D : Str) (row : Row) : encodeRef D row .string = encodeString D row.N := rfl
theorem encodeRef_six (D : Str) (row : Row) : encodeRef D row .sixBit = encodeStringSixBits D := rfl
theorem encodeRef_plain (D : Str) (row : Row) : encodeRef D row .plain = if row.K ≠ 0 then strToBinary D row.N else .ok (List.replicate row.N '0') := rfl
theorem encodeRef_unpadded (D : Str) (row : Row) : encodeRef D row .unpadded = if row.K ≠ 0 then strToBinary D row.N else .ok (List.replicate row.N '0') := rfl

theorem sem_encode_partition_table (n : Nat) (C D : Str) (t : List Row) (mode : PartMode) :
    (level (n + 4)).app (.func common.encode_partition_table) [.list [.str C, .str D], tableL t] (encKw mode) =
      (lift (encodePartitionTable C D t mode)).map .str := by
  rw [app_func]
  cases mode <;> go [common.encode_partition_table, encKw, encodePartitionTable, del, sem_int_to_binary, sem_str_to_binary, encodeRef_string, encodeRef_six,
    encodeRef_plain, encodeRef_unpadded, ne_zero_iff, sem_encode_string, sem_encode_string_six_bits, repeat_char]
@[src high] theorem add_nat (a b : Nat) : binOp .add (.int a) (.int b) = .ok (.int ((a + b : Nat) : Int)) := by
  rw [add_int, Int.natCast_add]

/-- The keyword arguments that select the treatment of the reference when decoding. -/
def decKw : PartMode → List (Nm × Val)
  | .plain => []
  | .unpadded => [(.unpadded_partition, .bool true)]
  | .string => [(.string_partition, .bool true)]
  | .sixBit => [(.six_bit_variable_partition, .bool true)]

theorem decodeRef_string (D : Str) (row : Row) : decodeRef D row .string = decodeString D := rfl
theorem decodeRef_six (D : Str) (row : Row) : decodeRef D row .sixBit = decodeStringSixBits D row.K := rfl
theorem decodeRef_plain (D : Str) (row : Row) : decodeRef D row .plain = if row.K ≠ 0 then (binaryToInt D >>= fun i => .ok (intStr i)) else .ok [] := rfl
theorem decodeRef_unpadded (D : Str) (row : Row) : decodeRef D row .unpadded = if row.K ≠ 0 then (binaryToInt D >>= fun i => .ok (intStr i)) else .ok [] := rfl

theorem ge_nat (a b : Nat) : decide ((a : Int) ≥ (b : Int)) = decide (a ≥ b) := by
  by_cases h : a ≥ b
  · rw [decide_eq_true h, decide_eq_true (by omega)]
  · rw [decide_eq_false h, decide_eq_false (by omega)]

theorem pow_natCast (a k : Nat) : ((a : Nat) : Int) ^ k = ((a ^ k : Nat) : Int) := by simp

theorem mul_natCast (a b : Nat) : ((a : Nat) : Int) * (b : Int) = ((a * b : Nat) : Int) := by simp

theorem try_key (x : M Flow) : (match x with
    | .error e => if e = .err .key then (.error (.err .convert) : M Flow) else .error e
    | r => r) = x.mapError (fun e => if e = .err .key then .err .convert else e) := by
  cases x with
  | ok a => rfl
  | error e =>
    show (if e = _ then _ else _) = Except.error (if e = _ then _ else _)
    split <;> rfl

theorem binaryToInt_ne_key (s : Str) : binaryToInt s ≠ .error .key := by
  intro h
  cases pyInt_error h

theorem refTooLarge_false (D : Str) (row : Row) : refTooLarge D row false = .ok false := by
  unfold refTooLarge
  simp

theorem refTooLarge_true (D : Str) (row : Row) : lift (refTooLarge D row true) =
    if (!D == []) = true then lift (pyInt 10 D) >>= fun d => .ok (decide (¬ d < ((10 ^ row.K : Nat) : Int))) else .ok false := by
  unfold refTooLarge
  cases D with
  | nil => rfl
  | cons c D =>
    rw [if_pos ⟨by simp, rfl⟩, if_pos (show (!(c :: D == ([] : Str))) = true from rfl)]
    cases pyInt 10 (c :: D) <;> rfl

theorem same_twice {α : Type} (c : Prop) [Decidable c] (a b : α) : (if c then a else if c then b else a) = a := by
  split <;> rfl

theorem not_decide_iff (p : Prop) [Decidable p] : ((!decide p) = true) = ¬ p := by simp

theorem mode_unpadded : (PartMode.unpadded == PartMode.plain) = false := rfl
theorem mode_string : (PartMode.string == PartMode.plain) = false := rfl
theorem mode_sixBit : (PartMode.sixBit == PartMode.plain) = false := rfl
theorem mode_plain : (PartMode.plain == PartMode.plain) = true := rfl

theorem sem_decode_partition_table (n : Nat) (b : Str) (t : List Row) (mode : PartMode) :
    (level (n + 4)).app (.func common.decode_partition_table) [.str b, tableP t] (decKw mode) =
      (lift (decodePartitionTable b t mode)).map .str := by
  rw [app_func]
  cases hp : binaryToInt (b.take 3) with
  | error e =>
    have he : (Exn.err e = Exn.err Err.key) = False := by
      refine eq_false fun h => ?_
      cases h
      exact binaryToInt_ne_key _ hp
    cases mode <;> go [common.decode_partition_table, decKw, decodePartitionTable, del, sem_binary_to_int, hp, he]
  | ok p =>
    cases hr : rowByP t p with
    | error e =>
      have he : e = .key := by
        unfold rowByP at hr
        split at hr <;> cases hr
        rfl
      subst he
      cases mode <;> go [common.decode_partition_table, decKw, decodePartitionTable, del, sem_binary_to_int, hp, hr, keyToConvert]
    | ok row =>
      cases mode <;> go [common.decode_partition_table, decKw, decodePartitionTable, del, sem_binary_to_int, hp, hr, keyToConvert, decodeRef_string, decodeRef_six,
        decodeRef_plain, decodeRef_unpadded, ne_zero_iff, sem_decode_string, sem_decode_string_six_bits, refTooLarge_false, refTooLarge_true,
        pow_natCast, same_twice, mode_unpadded, mode_string, mode_sixBit, mode_plain, not_decide_iff, decide_eq_true_eq]
      all_goals
        rename_i h
        rw [if_neg h]

theorem sem_encode_numeric_string (n : Nat) (s : Str) (w : Nat) :
    (level (n + 3)).app (.func common.encode_numeric_string) [.str s, .int w] [] = (lift (encodeNumericString s w)).map .str := by
  rw [app_func]
  go [common.encode_numeric_string, encodeNumericString, sem_str_to_binary, pow_natCast, mul_natCast, ge_nat, decide_eq_true_eq]


theorem sem_decode_numeric_string (n : Nat) (s : Str) :
    (level (n + 2)).app (.func common.decode_numeric_string) [.str s] [] = (lift (decodeNumericString s)).map .str := by
  rw [app_func]
  go [common.decode_numeric_string, decodeNumericString]
  rename_i i _
  by_cases h : (intStr i).length ≤ 1
  · have h' : ((intStr i).length : Int) ≤ ((1 : Nat) : Int) := by omega
    go [h, h', decide_true, true_or]
  · have h' : ¬ ((intStr i).length : Int) ≤ ((1 : Nat) : Int) := by omega
    cases hs : intStr i with
    | nil => rw [hs] at h; exact absurd (Nat.zero_le _) h
    | cons c t =>
      rw [hs] at h h'
      by_cases hc : c = '1'
      · subst hc
        go [h, h', decide_false, getIdx_zero, List.head?_cons, ne_eq, not_true, or_self, BEq.rfl]
      · have hc' : ([c] == ['1']) = false := by simpa using hc
        go [h, h', decide_false, getIdx_zero, List.head?_cons, ne_eq, hc, hc', Option.some.injEq, not_false_iff, or_true]

theorem log10Pow2_nat (w : Nat) : log10Pow2 (w : Int) = (fixedDigits w : Int) := by
  unfold log10Pow2 fixedDigits
  rw [Int.toNat_natCast]

theorem sem_encode_fixed_width_integer (n : Nat) (s : Str) (w : Nat) :
    (level (n + 3)).app (.func common.encode_fixed_width_integer) [.str s, .int w] [] = (lift (encodeFixedWidthInteger s w)).map .str := by
  rw [app_func]
  go [common.encode_fixed_width_integer, encodeFixedWidthInteger, log10Pow2_nat, pow_natCast, decide_eq_true_eq, sem_str_to_binary]
  refine same_if_iff (by omega) (fun _ => rfl) (fun _ => ?_)
  go []

theorem sem_decode_fixed_width_integer (n : Nat) (s : Str) :
    (level (n + 2)).app (.func common.decode_fixed_width_integer) [.str s] [] = (lift (decodeFixedWidthInteger s)).map .str := by
  rw [app_func]
  cases h : pyInt 2 s with
  | error e => go [common.decode_fixed_width_integer, decodeFixedWidthInteger, log10Pow2_nat, pow_natCast, decide_eq_true_eq, h]
  | ok i =>
    go [common.decode_fixed_width_integer, decodeFixedWidthInteger, log10Pow2_nat, pow_natCast, decide_eq_true_eq, h]
    refine same_if_iff (by omega) (fun _ => rfl) (fun _ => ?_)
    go []

theorem elt_decode_cage (n : Nat) (env : Env) (h1 : get .chr env = .none) (h2 : get .int env = .none) (g : Str) :
    runElt (level n) .common env .g common.decode_cage_code.elt1 (.str g) =
      (lift (if g = [] then .ok [] else do
        let i ← pyInt 2 g
        let c ← chr i
        return [c])).map .str := by
  unfold runElt common.decode_cage_code.elt1
  cases g with
  | nil => go [get_set_self, BEq.rfl]
  | cons c t =>
    have hc : ((c :: t) == []) = false := rfl
    go [get_set_self, get_set_ne, h1, h2, ne_eq, not_false_iff, hc]

theorem sem_decode_cage_code (n : Nat) (s : Str) :
    (level (n + 1)).app (.func common.decode_cage_code) [.str s] [] = (lift (decodeCageCode s)).map .str := by
  rw [app_func]
  have := elt_decode_cage n [(.binary, .str s)] rfl rfl
  go [common.decode_cage_code, decodeCageCode, reSplit_eight, map_texts this]

theorem elt_encode_cage (n : Nat) (env : Env) (h1 : get .ord env = .none) (c : Char) :
    runElt (level n) .common env .char common.encode_cage_code.elt1 (.str [c]) = (lift (.ok (padLeft '0' 8 (Nat.toDigits 2 c.toNat)))).map .str := by
  unfold runElt common.encode_cage_code.elt1
  go [get_set_self, get_set_ne, h1, ne_eq, not_false_iff]

theorem mapM_ok {α β : Type} (f : α → β) (l : List α) : l.mapM (fun x => (.ok (f x) : Except Err β)) = .ok (l.map f) := by
  induction l with
  | nil => rfl
  | cons a l ih => rw [List.mapM_cons, ih]; rfl

theorem sem_encode_cage_code (n : Nat) (s : Str) :
    (level (n + 1)).app (.func common.encode_cage_code) [.str s] [] = .ok (.str (encodeCageCode s)) := by
  rw [app_func]
  have := elt_encode_cage n [(.chars, .str s)] rfl
  go [common.encode_cage_code, encodeCageCode, map_chars this, mapM_ok]

theorem sem_decode_cage_code_six_bits (n : Nat) (s : Str) :
    (level (n + 3)).app (.func common.decode_cage_code_six_bits) [.str s] [] = (lift (decodeCageCodeSixBits s)).map .str := by
  rw [app_func]
  by_cases h : startsWith s (py "100000") = true
  · go [common.decode_cage_code_six_bits, decodeCageCodeSixBits, sem_decode_string_six_bits, h]
  · go [common.decode_cage_code_six_bits, decodeCageCodeSixBits, sem_decode_string_six_bits, h]

theorem sem_encode_cage_code_six_bits (n : Nat) (s : Str) :
    (level (n + 4)).app (.func common.encode_cage_code_six_bits) [.str s] [] = (lift (encodeCageCodeSixBits s)).map .str := by
  rw [app_func]
  go [common.encode_cage_code_six_bits, encodeCageCodeSixBits, sem_encode_string_six_bits, apply_ite Except.ok, apply_ite Val.str]
  refine same_if_iff ?_ (fun _ => rfl) (fun _ => rfl)
  rw [beq_iff_eq]
  exact Int.ofNat_inj

/-! ### verify_gs3a3_component -/

theorem body_verify (n : Nat) (s : Str) :
    Appends .g .res [(.gs3a3_component, .str s), (.res, .str [])] verifyPiece
      (runBody (level n) .common [] common.verify_gs3a3_component.loop1) := by
  intro g r env hs hr
  have hs' : ∀ z, z ≠ .g → z ≠ .res → get z env = get z [(.gs3a3_component, .str s), (.res, .str [])] := hs
  unfold runBody common.verify_gs3a3_component.loop1
  cases g with
  | nil =>
    right
    refine ⟨rfl, ?_⟩
    go [get_set_self, len_zero_nil, get_set_ne, hs', ne_eq, not_false_iff]
  | cons c t =>
    left
    go [get_set_self, get_set_ne, hr, hs', ne_eq, not_false_iff, len_zero_cons, getIdx_zero, not_percent, verifyPiece, List.drop_succ_cons, List.drop_zero]

theorem sem_verify_gs3a3_component (n : Nat) (s : Str) :
    (level (n + 3)).app (.func common.verify_gs3a3_component) [.str s] [] = (lift (verifyGs3a3 s)).map (fun _ => .none) := by
  rw [app_func]
  run [common.verify_gs3a3_component, reSplit_percent, verifyGs3a3]
  have := loop_appends (by decide) (body_verify (n + 2) s) (splitCap percentDigitsLen s) [] _ (fun z _ _ => rfl) rfl
  cases hm : (splitCap percentDigitsLen s).mapM verifyPiece with
  | error e =>
    rw [this.1 e hm]
    rfl
  | ok ts =>
    obtain ⟨env, hs, hr, hl⟩ := this.2 ts hm
    have hs' : ∀ z, z ≠ .g → z ≠ .res → get z env = get z [(.gs3a3_component, .str s), (.res, .str [])] := hs
    rw [hl]
    go [hr, hs', ne_eq, not_false_iff, const_eval, common.VERIFY_GS3A3_CHARS_REGEX, List.nil_append]
    cases verifyGs3a3Re.fullmatch ts.flatten <;> rfl

/-- A comprehension that turns the characters of a text into numbers. -/
theorem map_ints {f : Val → M Val} {piece : Char → Except Err Nat} (h : ∀ c, f (.str [c]) = (lift (piece c)).map (fun k => .int (k : Int)))
    (l : Str) : (l.map (fun c => Val.str [c])).mapM f = (lift (l.mapM piece)).map (fun ts => ts.map (fun k => .int (k : Int))) := by
  induction l with
  | nil => rfl
  | cons a l ih =>
    rw [List.map_cons, List.mapM_cons, List.mapM_cons, ih, h]
    cases piece a with
    | error e => rfl
    | ok t => cases l.mapM piece <;> rfl

theorem elt_checksum (n : Nat) (env : Env) (h1 : get .int env = .none) (c : Char) :
    runElt (level n) .common env .d common.calculate_checksum.elt1 (.str [c]) = (lift (digitInt c)).map (fun k => .int (k : Int)) := by
  unfold runElt common.calculate_checksum.elt1
  go [get_set_self, get_set_ne, h1, ne_eq, not_false_iff, pyInt_single, Int.ofNat_eq_natCast]

theorem everySecond_map {α β : Type} (f : α → β) : ∀ l : List α, everySecond (l.map f) = (evens l).map f
  | [] => rfl
  | [_] => rfl
  | _ :: _ :: t => by
    show _ :: everySecond (t.map f) = _ :: (evens t).map f
    rw [everySecond_map f t]

theorem sumInts_map : ∀ l : List Nat, sumInts (l.map (fun k : Nat => Val.int (k : Int))) = .ok ((l.sum : Nat) : Int)
  | [] => rfl
  | a :: t => by
    rw [List.map_cons, sumInts, sumInts_map t, List.sum_cons, Int.natCast_add]

theorem getSlice_second (l : List Val) (k : Nat) : getSlice (.list l) (.int k) .none (.int (2 : Nat)) = .ok (.list (everySecond (l.drop k))) := by
  show Except.ok (Val.list (everySecond (l.drop (clampIdx l.length k)))) = _
  have : l.drop (clampIdx l.length k) = l.drop k := by
    unfold clampIdx
    rw [if_neg (by omega)]
    by_cases h : k ≤ l.length
    · congr 1; omega
    · rw [List.drop_eq_nil_of_le (by omega), List.drop_eq_nil_of_le (by omega)]
  rw [this]

theorem mod_two (a : Nat) : binOp .mod (.int a) (.int (2 : Nat)) = .ok (.int ((a % 2 : Nat) : Int)) := by
  show (if ((2 : Nat) : Int) = 0 then Except.error Exn.unsupported else Except.ok (Val.int ((a : Int).fmod (2 : Nat)))) = _
  rw [if_neg (by omega), Int.fmod_eq_emod_of_nonneg _ (by omega), Int.natCast_emod]

theorem mod_ten (a : Nat) : binOp .mod (.int a) (.int (10 : Nat)) = .ok (.int ((a % 10 : Nat) : Int)) := by
  show (if ((10 : Nat) : Int) = 0 then Except.error Exn.unsupported else Except.ok (Val.int ((a : Int).fmod (10 : Nat)))) = _
  rw [if_neg (by omega), Int.fmod_eq_emod_of_nonneg _ (by omega), Int.natCast_emod]

theorem mul_nat (a b : Nat) : binOp .mul (.int a) (.int b) = .ok (.int ((a * b : Nat) : Int)) := by
  rw [Int.natCast_mul]; rfl

theorem ten_sub_mod (a : Nat) : binOp .sub (.int (10 : Nat)) (.int ((a % 10 : Nat) : Int)) = .ok (.int ((10 - a % 10 : Nat) : Int)) := by
  show Except.ok (Val.int _) = _
  congr 2
  omega

theorem drop_one_map {α β : Type} (f : α → β) (l : List α) : (l.map f).drop 1 = l.tail.map f := by
  cases l <;> rfl

theorem sem_calculate_checksum (n : Nat) (s : Str) :
    (level (n + 2)).app (.func common.calculate_checksum) [.str s] [] = (lift (calculateChecksum s)).map (fun k => .int (k : Int)) := by
  rw [app_func]
  have := elt_checksum (n + 1) [(.digits, .str s)] rfl
  by_cases hl : s.length % 2 = 0
  all_goals
    go [common.calculate_checksum, calculateChecksum, map_ints this, getSlice_second, mod_two, mod_ten, mul_nat, ten_sub_mod, drop_one_map,
      List.drop_zero, everySecond_map, sumInts_map, hl, odds]
  · rfl
  · rw [if_neg (by rw [beq_iff_eq]; omega)]

/-! ### parse_header_and_truncate_binary -/

theorem dictGet_headers {κ : Type} (toV : κ → Val) (b : Str) : ∀ headers : List (Str × κ),
    dictGet (.str b) (headers.map (fun p => (.str p.1, toV p.2))) = (headers.lookup b).map toV
  | [] => rfl
  | (h, k) :: t => by
    rw [List.map_cons, dictGet, List.lookup_cons, dictGet_headers toV b t]
    show (if (b == h) = true then _ else _) = _
    cases b == h <;> rfl

theorem sem_parse_header {κ : Type} (n : Nat) (toV : κ → Val) (value : κ → Str) (hv : ∀ k, ∃ o e m nm, toV k = .member o e m nm (value k))
    (headers : List (Str × κ)) (b : Str) :
    (level (n + 2)).app (.func common.parse_header_and_truncate_binary) [.str b, .dict (headers.map (fun p => (.str p.1, toV p.2)))] [] =
      (lift (parseHeader headers value b)).map (fun r => .list [toV r.1, .str r.2]) := by
  rw [app_func]
  unfold parseHeader
  have hd : getItem (.dict (headers.map (fun p => (Val.str p.1, toV p.2)))) (.str (b.take 8)) =
      match headers.lookup (b.take 8) with | some k => .ok (toV k) | none => .error (.err .key) := by
    show (match dictGet _ _ with | some v => _ | none => _) = _
    rw [dictGet_headers]
    cases headers.lookup (b.take 8) <;> rfl
  cases hk : headers.lookup (b.take 8) with
  | none =>
    rw [hk] at hd
    go [common.parse_header_and_truncate_binary, hd, Exn.err.injEq]
  | some k =>
    rw [hk] at hd
    obtain ⟨o, e, m, nm, hv⟩ := hv k
    rcases hs : split '-' (value k) with _ | ⟨u, _ | ⟨size, _ | ⟨d, l⟩⟩⟩
    · go [common.parse_header_and_truncate_binary, hd, hv, hs, assignMany, List.map]
    · go [common.parse_header_and_truncate_binary, hd, hv, hs, assignMany, List.map]
    · by_cases hn : isNumeric size = true
      · cases hi : pyInt 10 size with
        | error e => go [common.parse_header_and_truncate_binary, hd, hv, hs, assignMany, List.map, hn, hi]
        | ok i =>
          have hsl : getSlice (.str b) .none (.int i) .none = .ok (.str (sliceToI b i)) := rfl
          by_cases h0 : i = 0
          · subst h0
            go [common.parse_header_and_truncate_binary, hd, hv, hs, assignMany, List.map, hn, hi, hsl, ne_eq, not_true, false_and]
            rfl
          · have h0' : (i != 0) = true := by simpa using h0
            go [common.parse_header_and_truncate_binary, hd, hv, hs, assignMany, List.map, hn, hi, hsl, h0', h0, decide_eq_true_eq, ne_eq, not_false_iff,
              true_and]
      · go [common.parse_header_and_truncate_binary, hd, hv, hs, assignMany, List.map, hn]
    · go [common.parse_header_and_truncate_binary, hd, hv, hs, assignMany, List.map]

end Epc.Src
