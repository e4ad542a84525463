/-
/repo/epcpy/epc_schemes/base_scheme.py, and rules that the scheme classes share.
-/
import Verif.Spec.Objects
import Verif.Refine.Table
import Verif.Model.Sgtin
set_option linter.unusedSimpArgs false

namespace Epc.Src
open Epc.Spec

/-! ### Conditions -/

theorem fold_and (r s : Bool) : (if r = true then (.ok (.bool s) : M Val) else .ok (.bool false)) = .ok (.bool (r && s)) := by cases r <;> rfl
theorem fold_and' (r s : Bool) : (if r = true then (.ok (.bool s) : M Val) else .ok (.bool r)) = .ok (.bool (r && s)) := by cases r <;> rfl
theorem fold_or (r s : Bool) : (if r = true then (.ok (.bool r) : M Val) else .ok (.bool s)) = .ok (.bool (r || s)) := by cases r <;> rfl

theorem lift_guard (c : Bool) : lift (guardConvert c) = if (!c) = true then .error (.err .convert) else .ok () := by cases c <;> rfl

theorem drop_strs (l : List Str) (k : Nat) : (l.map Val.str).drop k = (l.drop k).map Val.str := (List.map_drop ..).symm
theorem take_strs (l : List Str) (k : Nat) : (l.map Val.str).take k = (l.take k).map Val.str := (List.map_take ..).symm
theorem slice_list_to (l : List Val) (hi : Nat) : getSlice (.list l) .none (.int (hi : Int)) .none = .ok (.list (l.take hi)) := by
  show Except.ok (Val.list _) = _
  rw [clampIdx, if_neg (by omega), Int.toNat_natCast]
  congr 2
  by_cases h : hi ≤ l.length
  · rw [Nat.min_eq_left h]
  · rw [Nat.min_eq_right (by omega), List.take_length, List.take_of_length_le (by omega)]
theorem join_body (u : Str) : joinWith ':' ((split ':' u).drop 4) = uriBody u := rfl
theorem join_char (c : Char) (l : List Str) : joinStr [c] l = some (joinWith c l) := rfl

theorem guard_decide (p : Prop) [Decidable p] : lift (guardConvert (decide p)) = if ¬ p then .error (.err .convert) else .ok () := by
  by_cases h : p <;> simp [guardConvert, h, lift]

theorem format_right (s : Str) (w : Nat) : format (.str s) ('<' :: '0' :: natStr w) = .ok (.str (padRight '0' w s)) := by
  rw [← intStr_nat, format_padRight]
theorem format_left (s : Str) (w : Nat) : format (.str s) ('>' :: '0' :: natStr w) = .ok (.str (padLeft '0' w s)) := by
  rw [← intStr_nat, format_padLeft]
theorem format_left_int (i : Int) (w : Nat) : format (.int i) ('>' :: '0' :: natStr w) = .ok (.str (padLeft '0' w (intStr i))) := by
  rw [← intStr_nat, format_padLeft_int]

theorem mod_sixteen (a : Nat) : binOp .mod (.int a) (.int (16 : Nat)) = .ok (.int ((a % 16 : Nat) : Int)) := by
  show (if ((16 : Nat) : Int) = 0 then Except.error Exn.unsupported else Except.ok (Val.int ((a : Int).fmod (16 : Nat)))) = _
  rw [if_neg (by omega), Int.fmod_eq_emod_of_nonneg _ (by omega), Int.natCast_emod]

theorem sixteen_sub_mod (a : Nat) : binOp .sub (.int (16 : Nat)) (.int ((a % 16 : Nat) : Int)) = .ok (.int ((16 - a % 16 : Nat) : Int)) := by
  show Except.ok (Val.int _) = _
  congr 2
  omega

/-- A step whose result is known. -/
theorem known_step {α β : Type} {x : Except Err α} {a : α} {f : α → M β} {r : M β} (h : x = .ok a) (hr : f a = r) : (lift x >>= f) = r := by
  rw [h]; exact hr

theorem same_step2 {α β γ : Type} {x : Except Err (α × β)} {f g : α × β → M γ} (h : ∀ a b, x = .ok (a, b) → f (a, b) = g (a, b)) :
    (lift x >>= f) = (lift x >>= g) := same_step fun _ hp => h _ _ hp

theorem same_step3 {α β γ δ : Type} {x : Except Err (α × β × γ)} {f g : α × β × γ → M δ}
    (h : ∀ a b c, x = .ok (a, b, c) → f (a, b, c) = g (a, b, c)) : (lift x >>= f) = (lift x >>= g) := same_step fun _ hp => h _ _ _ hp

theorem same_step5 {α β γ δ ε ζ : Type} {x : Except Err (α × β × γ × δ × ε)} {f g : α × β × γ × δ × ε → M ζ}
    (h : ∀ a b c d e, x = .ok (a, b, c, d, e) → f (a, b, c, d, e) = g (a, b, c, d, e)) : (lift x >>= f) = (lift x >>= g) :=
  same_step fun _ hp => h _ _ _ _ _ hp

/-! ### Slices, splitting, unpacking -/


theorem item_last' (l : List Str) (h : l ≠ []) : getItem (.list (l.map .str)) (.int (-1)) = .ok (.str (l.getLastD [])) := by
  have hl := List.length_pos_iff.2 h
  have e1 : l.length - 1 < l.length := by omega
  have hp : position (l.map Val.str).length (-1) = some (l.length - 1) := by
    unfold position
    rw [if_neg (by omega), List.length_map, if_pos (by omega)]
    congr 1; omega
  simp only [getItem, hp, List.getElem?_map, List.getElem?_eq_getElem e1, Option.map]
  rw [List.getLastD_eq_getLast?, List.getLast?_eq_getElem?, List.getElem?_eq_getElem e1]; rfl
theorem item_last (c : Char) (s : Str) : getItem (.list ((split c s).map .str)) (.int (-1)) = .ok (.str ((split c s).getLastD [])) :=
  item_last' _ (split_ne_nil c s)

/-! #### Unpacking -/

theorem assign_two (env : Env) (t u : Target) (l : List Str) : assignMany env [t, u] .none (l.map .str) =
    lift (unpack2 l) >>= fun p => assignMany env [t, u] .none [.str p.1, .str p.2] := by
  match l with
  | [] => rfl
  | [a] => rfl
  | [a, b] => rfl
  | a :: b :: c :: l => rfl

theorem assign_three (env : Env) (t u v : Target) (l : List Str) : assignMany env [t, u, v] .none (l.map .str) =
    lift (unpack3 l) >>= fun p => assignMany env [t, u, v] .none [.str p.1, .str p.2.1, .str p.2.2] := by
  match l with
  | [] => rfl
  | [a] => rfl
  | [a, b] => rfl
  | [a, b, c] => rfl
  | a :: b :: c :: d :: l => rfl

theorem assign_one_rest (env : Env) (t r : Target) (l : List Str) : assignMany env [t] (some r) (l.map .str) =
    lift (unpack1s l) >>= fun p => assign env (.str p.1) t >>= fun env => assign env (.list (p.2.map .str)) r := by
  match l with
  | [] => rfl
  | a :: l => rfl

theorem assign_two_rest (env : Env) (t u r : Target) (l : List Str) : assignMany env [t, u] (some r) (l.map .str) =
    lift (unpack2s l) >>= fun p => assign env (.str p.1) t >>= fun env => assign env (.str p.2.1) u >>= fun env => assign env (.list (p.2.2.map .str)) r := by
  match l with
  | [] => rfl
  | [a] => rfl
  | a :: b :: l => rfl

theorem assign_four_rest (env : Env) (t u v w r : Target) (l : List Str) : assignMany env [t, u, v, w] (some r) (l.map .str) =
    lift (unpack4s l) >>= fun p => assign env (.str p.1) t >>= fun env => assign env (.str p.2.1) u >>= fun env => assign env (.str p.2.2.1) v >>= fun env =>
      assign env (.str p.2.2.2.1) w >>= fun env => assign env (.list (p.2.2.2.2.map .str)) r := by
  match l with
  | [] => rfl
  | [a] => rfl
  | [a, b] => rfl
  | [a, b, c] => rfl
  | a :: b :: c :: d :: l => rfl

/-! ### Partition tables by mode -/

section partition
variable (n : Nat) (C D b : Str) (t : List Row)

theorem encode_plain : (level (n + 4)).app (.func common.encode_partition_table) [.list [.str C, .str D], tableL t] [] =
    (lift (encodePartitionTable C D t .plain)).map .str := sem_encode_partition_table n C D t .plain
theorem encode_stringMode : (level (n + 4)).app (.func common.encode_partition_table) [.list [.str C, .str D], tableL t] [(.string_partition, .bool true)] =
    (lift (encodePartitionTable C D t .string)).map .str := sem_encode_partition_table n C D t .string
theorem encode_sixMode : (level (n + 4)).app (.func common.encode_partition_table) [.list [.str C, .str D], tableL t] [(.six_bit_variable_partition, .bool true)] =
    (lift (encodePartitionTable C D t .sixBit)).map .str := sem_encode_partition_table n C D t .sixBit
theorem decode_plain : (level (n + 4)).app (.func common.decode_partition_table) [.str b, tableP t] [] =
    (lift (decodePartitionTable b t .plain)).map .str := sem_decode_partition_table n b t .plain
theorem decode_unpaddedMode : (level (n + 4)).app (.func common.decode_partition_table) [.str b, tableP t] [(.unpadded_partition, .bool true)] =
    (lift (decodePartitionTable b t .unpadded)).map .str := sem_decode_partition_table n b t .unpadded
theorem decode_stringMode : (level (n + 4)).app (.func common.decode_partition_table) [.str b, tableP t] [(.string_partition, .bool true)] =
    (lift (decodePartitionTable b t .string)).map .str := sem_decode_partition_table n b t .string
theorem decode_sixMode : (level (n + 4)).app (.func common.decode_partition_table) [.str b, tableP t] [(.six_bit_variable_partition, .bool true)] =
    (lift (decodePartitionTable b t .sixBit)).map .str := sem_decode_partition_table n b t .sixBit
end partition

attribute [src] encode_plain encode_stringMode encode_sixMode decode_plain decode_unpaddedMode decode_stringMode decode_sixMode
  sem_replace_uri_escapes sem_revert_uri_escapes sem_int_to_binary sem_binary_to_int sem_str_to_binary sem_base64_to_hex sem_hex_to_base64
  sem_hex_to_binary sem_binary_to_hex sem_encode_string sem_decode_string sem_encode_string_six_bits sem_decode_string_six_bits
  sem_encode_numeric_string sem_decode_numeric_string sem_encode_fixed_width_integer sem_decode_fixed_width_integer sem_decode_cage_code
  sem_encode_cage_code sem_decode_cage_code_six_bits sem_encode_cage_code_six_bits sem_verify_gs3a3_component sem_calculate_checksum

/-! ### Conditions with a case of their own -/

attribute [src low] const_eval slice_int slice_from_int slice_to_int

theorem lift_bad (s : Str) (bits : Nat) : lift (badNumericSerial s bits) =
    if (!isNumeric s) = true then .ok true
    else lift (pyInt 10 s) >>= fun i => if decide (i ≥ ((2 ^ bits : Nat) : Int)) = true then .ok true
      else if decide ((s.length : Int) > ((1 : Nat) : Int)) = true then lift (getIdx s 0) >>= fun c => .ok ([c] == ['0']) else .ok false := by
  rw [badNumericSerial, lift_ite]
  refine same_if (fun _ => rfl) (fun _ => ?_)
  rw [lift_bind]
  refine same_step fun i _ => ?_
  show Except.ok _ = _
  cases decide (i ≥ ((2 ^ bits : Nat) : Int)) with
  | true => rfl
  | false =>
    rw [if_neg (by decide), Bool.false_or]
    match s with
    | [] => rfl
    | [c] => rfl
    | c :: d :: t =>
      have h1 : ((c :: d :: t).length : Int) > ((1 : Nat) : Int) := by simp only [List.length_cons]; omega
      have h2 : (c :: d :: t).length > 1 := by simp
      rw [decide_eq_true h1, if_pos rfl, decide_eq_true h2]
      show Except.ok _ = Except.ok _
      simp

/-- A leading zero, evaluated from left to right. -/
theorem zero_lazy {α : Type} (s : Str) (x y : M α) :
    (if (decide (s.length > 1) && s.head? == some '0') = true then x else y) =
      if decide ((s.length : Int) > ((1 : Nat) : Int)) = true then
        lift (getIdx s 0) >>= fun c => if ([c] == ['0']) = true then x else y
      else y := by
  match s with
  | [] => rfl
  | [c] => rfl
  | c :: d :: t =>
    have h1 : ((c :: d :: t).length : Int) > ((1 : Nat) : Int) := by simp only [List.length_cons]; omega
    have h2 : (c :: d :: t).length > 1 := by simp
    rw [decide_eq_true h1, if_pos rfl, decide_eq_true h2]
    show _ = if ([c] == ['0']) = true then x else y
    simp

theorem lift_zero (i : Int) (k : Nat) (s : Str) :
    lift (guardConvert (decide (i < ((2 ^ k : Nat) : Int)) && !(decide (s.length > 1) && s.head? == some '0'))) =
      if decide (i ≥ ((2 ^ k : Nat) : Int)) = true then .error (.err .convert)
      else if decide ((s.length : Int) > ((1 : Nat) : Int)) = true then
        lift (getIdx s 0) >>= fun c => if ([c] == ['0']) = true then .error (.err .convert) else .ok ()
      else .ok () := by
  rw [← zero_lazy, lift_guard]
  by_cases h : i < ((2 ^ k : Nat) : Int)
  · rw [decide_eq_true h, decide_eq_false (show ¬ i ≥ _ by omega)]
    simp
  · rw [decide_eq_false h, decide_eq_true (show i ≥ _ by omega)]
    simp

theorem gtin_form (g : Str) (t : GtinType) :
    (if (!((t.toNat : Int) == ((14 : Nat) : Int))) = true then
      if (!startsWith g (repeatStr ['0'] (((14 : Nat) : Int) - (t.toNat : Int)))) = true then (Except.error (Exn.err Err.convert) : M Val)
      else Except.ok (Val.str (sliceI g (((14 : Nat) : Int) - (t.toNat : Int)) ((14 : Nat) : Int)))
    else Except.ok (Val.str (sliceI g (((14 : Nat) : Int) - (t.toNat : Int)) ((14 : Nat) : Int)))) =
    (lift (if t ≠ .gtin14 ∧ startsWith g (List.replicate (14 - t.toNat) '0') = false then .error .convert
      else .ok (slice g (14 - t.toNat) 14))).map .str := by
  have e : (((14 : Nat) : Int) - (t.toNat : Int)) = ((14 - t.toNat : Nat) : Int) := by cases t <;> rfl
  have hs : sliceI g ((14 - t.toNat : Nat) : Int) ((14 : Nat) : Int) = slice g (14 - t.toNat) 14 := by
    have := slice_nat g (14 - t.toNat) 14
    rw [slice_int] at this
    exact Val.str.inj (Except.ok.inj this)
  have hr : repeatStr ['0'] ((14 - t.toNat : Nat) : Int) = List.replicate (14 - t.toNat) '0' := by cases t <;> rfl
  rw [e, hs, hr]
  cases startsWith g (List.replicate (14 - t.toNat) '0') <;> cases t <;> rfl

theorem nested_then {α : Type} (c : Prop) [Decidable c] (a b d : α) : (if c then (if c then a else b) else d) = if c then a else d := by
  by_cases h : c <;> simp [h]
theorem nested_else {α : Type} (c : Prop) [Decidable c] (a b d : α) : (if c then a else if c then b else d) = if c then a else d := by
  by_cases h : c <;> simp [h]
theorem merge_or {α : Type} (a b : Bool) (e : Exn) (y : M α) :
    (if a = true then .error e else if b = true then .error e else y) = if (a || b) = true then .error e else y := by
  cases a <;> cases b <;> rfl
theorem merge_not {α : Type} (p q : Prop) [Decidable p] [Decidable q] (e : Exn) (y : M α) :
    (if ¬p then .error e else if ¬q then .error e else y) = if ¬(p ∧ q) then .error e else y := by
  by_cases hp : p <;> by_cases hq : q <;> simp [hp, hq]

theorem one_add (k : Int) : ((1 : Nat) : Int) + k = 1 + k := rfl
theorem add_one (k : Int) : k + ((1 : Nat) : Int) = k + 1 := rfl
theorem neg_one : -((1 : Nat) : Int) = -1 := rfl
theorem sliceI_one (s : Str) (k : Int) : sliceI s ((1 : Nat) : Int) k = sliceI s 1 k := rfl

theorem lit_add_2 (k : Int) : ((2 : Nat) : Int) + k = 2 + k := rfl
theorem sliceI_lit_2 (s : Str) (k : Int) : sliceI s ((2 : Nat) : Int) k = sliceI s 2 k := rfl
theorem lit_add_3 (k : Int) : ((3 : Nat) : Int) + k = 3 + k := rfl
theorem sliceI_lit_3 (s : Str) (k : Int) : sliceI s ((3 : Nat) : Int) k = sliceI s 3 k := rfl
theorem lit_add_4 (k : Int) : ((4 : Nat) : Int) + k = 4 + k := rfl
theorem sliceI_lit_4 (s : Str) (k : Int) : sliceI s ((4 : Nat) : Int) k = sliceI s 4 k := rfl
theorem lit_add_5 (k : Int) : ((5 : Nat) : Int) + k = 5 + k := rfl
theorem sliceI_lit_5 (s : Str) (k : Int) : sliceI s ((5 : Nat) : Int) k = sliceI s 5 k := rfl
theorem lit_add_6 (k : Int) : ((6 : Nat) : Int) + k = 6 + k := rfl
theorem sliceI_lit_6 (s : Str) (k : Int) : sliceI s ((6 : Nat) : Int) k = sliceI s 6 k := rfl
theorem lit_add_7 (k : Int) : ((7 : Nat) : Int) + k = 7 + k := rfl
theorem sliceI_lit_7 (s : Str) (k : Int) : sliceI s ((7 : Nat) : Int) k = sliceI s 7 k := rfl
theorem lit_add_8 (k : Int) : ((8 : Nat) : Int) + k = 8 + k := rfl
theorem sliceI_lit_8 (s : Str) (k : Int) : sliceI s ((8 : Nat) : Int) k = sliceI s 8 k := rfl

/-- Two forms of a condition. -/
macro "cond" : tactic => `(tactic| (simp only [Bool.not_eq_true', Bool.not_eq_eq_eq_not, Bool.not_true, Bool.not_false, Bool.or_eq_true, Bool.and_eq_true, Bool.or_eq_false_iff,
  Bool.and_eq_false_iff, decide_eq_true_eq, decide_eq_false_iff_not, beq_iff_eq, beq_eq_false_iff_ne, bne_iff_ne, Bool.not_not, ne_eq] <;> omega))

/-- Execute two programs whose conditions may differ in form. -/
macro "exe" "[" ts:Lean.Parser.Tactic.simpLemma,* "]" : tactic =>
  `(tactic| repeat' (first
    | with_reducible rfl
    | (with_reducible refine same_step5 fun _ _ _ _ _ _ => ?_)
    | (with_reducible refine same_step3 fun _ _ _ _ => ?_)
    | (with_reducible refine same_step2 fun _ _ _ => ?_)
    | (with_reducible refine same_step fun _ _ => ?_)
    | (with_reducible refine same_if (fun _ => ?_) (fun _ => ?_))
    | run [fold_and, fold_and', fold_or, ↓guard_decide, lift_guard, drop_strs, take_strs, slice_list_to, repeat_char, join_char, join_body, clsMod, format_right, format_left, format_left_int, Int.toNat_natCast, intStr_nat, tagUriPrefix, List.append_assoc, List.cons_append, List.nil_append, reSplit_paren2, reSplit_paren3, reSplit_paren4, m_resplit, item_last, decide_true, decide_false, assign_two, assign_three, assign_one_rest, assign_two_rest, assign_four_rest, lift_bad, nested_then, nested_else, merge_or, merge_not, ↓lift_zero, one_add, add_one, neg_one, sliceI_one, lit_add_2, sliceI_lit_2, lit_add_3, sliceI_lit_3, lit_add_4, sliceI_lit_4, lit_add_5, sliceI_lit_5, lit_add_6, sliceI_lit_6, lit_add_7, sliceI_lit_7, lit_add_8, sliceI_lit_8, pow_natCast, Bool.and_self, Bool.and_false, Bool.false_and, Bool.and_true, Bool.true_and, Bool.or_false, Bool.false_or, Bool.or_true, Bool.true_or, Bool.or_self, List.cons_beq_cons, BEq.rfl, Char.reduceBEq, $ts,*]
    | (with_reducible refine known_step (by assumption) ?_)
    | ((with_reducible refine same_if_iff ?_ (fun _ => ?_) (fun _ => ?_)); cond)
    | fail "stuck"))

/-! ### Constructors -/

/-- Run an `__init__` on an object. -/
def runInit (L : Level) (chain : List Cl) (d : FunDef) (self : Val) (args : List Val) : M Val := do
  let env ← frame L d (self :: args) []
  match ← execBlock L d.mod chain env d.body with
  | .next env =>
    match get .self env with
    | some self => .ok self
    | .none => .error .name
  | _ => .error .unsupported

theorem app_cls {c : Cl} {chain : List Cl} {d : FunDef} (hc : initChain (clsMro c) = c :: chain) (hd : get .__init__ (clsDict c) = some (.method d))
    (he : c ≠ .ConvertException) (n : Nat) (args : List Val) : (level (n + 2)).app (.cls c) args [] = runInit (level n) chain d (.obj c []) args := by
  show (if c = .ConvertException then _ else if _ then (level (n + 1)).init _ _ _ else _) = _
  rw [if_neg he, if_pos (by rfl), hc, init_step, initStep, hd]
  rfl

theorem init_EPCScheme (n : Nat) (c : Cl) (u : Str) :
    (level (n + 3)).init [.EPCScheme] (.obj c []) [.str u] = .ok (.obj c [(.epc_uri, .str u)]) := rfl

theorem init_GS1Element (n : Nat) (c : Cl) (u : Str) :
    (level (n + 4)).init [.GS1Element, .EPCScheme] (.obj c []) [.str u] = .ok (.obj c [(.epc_uri, .str u)]) := rfl

theorem init_GS1Keyed (n : Nat) (c : Cl) (u : Str) :
    (level (n + 5)).init [.GS1Keyed, .GS1Element, .EPCScheme] (.obj c []) [.str u] = .ok (.obj c [(.epc_uri, .str u)]) := rfl

theorem init_TagKeyed (n : Nat) (c : Cl) (u : Str) :
    (level (n + 6)).init [.TagEncodable, .GS1Keyed, .GS1Element, .EPCScheme] (.obj c []) [.str u] = .ok (.obj c (tagAttrs u [])) := rfl

theorem init_Tag (n : Nat) (c : Cl) (u : Str) :
    (level (n + 4)).init [.TagEncodable, .EPCScheme] (.obj c []) [.str u] = .ok (.obj c (tagAttrs u [])) := rfl

theorem init_ElementTag (n : Nat) (c : Cl) (u : Str) :
    (level (n + 5)).init [.GS1Element, .TagEncodable, .EPCScheme] (.obj c []) [.str u] = .ok (.obj c (tagAttrs u [])) := rfl

/-! ### Methods of `TagEncodable` -/

theorem sem_from_tag_uri {α : Type} (n : Nat) (c : Cl) {new : Str → Except Err α} {toV : α → Val}
    (h : ∀ u, (level (n + 10)).app (.cls c) [.str u] [] = (lift (new u)).map toV) (t : Str) (b : Bool) :
    (level (n + 11)).app (.bound TagEncodable.from_tag_uri (.cls c)) [.str t] [(.includes_filter, .bool b)] = (lift (Epc.fromTagUri new b t)).map toV := by
  rw [app_bound]
  cases b
  all_goals
    exe [TagEncodable.from_tag_uri, Epc.fromTagUri, h, del]

theorem from_tag_uri_default (n : Nat) (c : Cl) (t : Str) :
    (level (n + 11)).app (.bound TagEncodable.from_tag_uri (.cls c)) [.str t] [] =
      (level (n + 11)).app (.bound TagEncodable.from_tag_uri (.cls c)) [.str t] [(.includes_filter, .bool true)] := rfl

theorem sem_hex (n : Nat) {c : Cl} {as : List (Nm × Val)} {d : FunDef} {kw : List (Nm × Val)} {b : Except Err Str}
    (hg : ∀ L, getAttr L (.obj c as) .binary = .ok (.bound d (.obj c as))) (hk : get .self kw = none)
    (h : (level (n + 10)).app (.bound d (.obj c as)) [] kw = (lift b).map .str) :
    (level (n + 11)).app (.bound TagEncodable.hex (.obj c as)) [] kw = (lift (hexOf b)).map .str := by
  rw [app_bound]
  exe [TagEncodable.hex, hexOf, hg, hk, h, mod_sixteen, sixteen_sub_mod]

theorem sem_base64 (n : Nat) {c : Cl} {as : List (Nm × Val)} {kw : List (Nm × Val)} {b : Except Err Str}
    (hg : ∀ L, getAttr L (.obj c as) .hex = .ok (.bound TagEncodable.hex (.obj c as))) (hk : get .self kw = none)
    (h : (level (n + 11)).app (.bound TagEncodable.hex (.obj c as)) [] kw = (lift (hexOf b)).map .str) :
    (level (n + 12)).app (.bound TagEncodable.base64 (.obj c as)) [] kw = (lift (base64Of b)).map .str := by
  rw [app_bound]
  exe [TagEncodable.base64, base64Of, hg, hk, h, sem_hex_to_base64]

theorem sem_from_hex {α : Type} (n : Nat) {c : Cl} {d : FunDef} {fromBinary : Str → Except Err α} {toV : α → Val}
    (hg : ∀ L, getAttr L (.cls c) .from_binary = .ok (.bound d (.cls c)))
    (h : ∀ b, (level (n + 14)).app (.bound d (.cls c)) [.str b] [] = (lift (fromBinary b)).map toV) (s : Str) :
    (level (n + 15)).app (.bound TagEncodable.from_hex (.cls c)) [.str s] [] = (lift (fromHexWith fromBinary s)).map toV := by
  rw [app_bound]
  exe [TagEncodable.from_hex, fromHexWith, hg, h, sem_hex_to_binary]

theorem sem_from_base64 {α : Type} (n : Nat) {c : Cl} {fromBinary : Str → Except Err α} {toV : α → Val}
    (hg : ∀ L, getAttr L (.cls c) .from_hex = .ok (.bound TagEncodable.from_hex (.cls c)))
    (h : ∀ b, (level (n + 15)).app (.bound TagEncodable.from_hex (.cls c)) [.str b] [] = (lift (fromHexWith fromBinary b)).map toV) (s : Str) :
    (level (n + 16)).app (.bound TagEncodable.from_base64 (.cls c)) [.str s] [] = (lift (fromBase64With fromBinary s)).map toV := by
  rw [app_bound]
  exe [TagEncodable.from_base64, fromBase64With, hg, h, sem_base64_to_hex]

end Epc.Src
