/-
The functions of /repo/epcpy/utils/common.py: executing the source gives what the model gives.
-/
import Verif.Refine.Loop
import Verif.Refine.Split

namespace Epc.Src
open Epc.Spec

/-- Execute the body of a function. -/
macro "exec_fn" d:ident : tactic => `(tactic| (rw [app_func]; simp only [src, $d:ident, reduceCtorEq]))

theorem sem_replace_uri_escapes (n : Nat) (s : Str) :
    (level (n + 1)).app (.func common.replace_uri_escapes) [.str s] [] = .ok (.str (replaceUriEscapes s)) := by
  exec_fn common.replace_uri_escapes
  rfl

theorem sem_revert_uri_escapes (n : Nat) (s : Str) :
    (level (n + 1)).app (.func common.revert_uri_escapes) [.str s] [] = .ok (.str (revertUriEscapes s)) := by
  exec_fn common.revert_uri_escapes
  rfl

theorem sem_int_to_binary (n : Nat) (i : Int) (w : Nat) :
    (level (n + 1)).app (.func common.int_to_binary) [.int i, .int w] [] = .ok (.str (intToBinary i w)) := by
  exec_fn common.int_to_binary
  rfl

theorem sem_binary_to_int (n : Nat) (s : Str) :
    (level (n + 1)).app (.func common.binary_to_int) [.str s] [] = (lift (binaryToInt s)).map .int := by
  exec_fn common.binary_to_int
  rfl

theorem sem_str_to_binary (n : Nat) (s : Str) (w : Nat) :
    (level (n + 2)).app (.func common.str_to_binary) [.str s, .int w] [] = (lift (strToBinary s w)).map .str := by
  exec_fn common.str_to_binary
  simp only [src, strToBinary, sem_int_to_binary]

theorem sem_base64_to_hex (n : Nat) (s : Str) :
    (level (n + 1)).app (.func common.base64_to_hex) [.str s] [] = (lift (base64ToHex s)).map .str := by
  exec_fn common.base64_to_hex
  simp only [src, base64ToHex]

theorem sem_hex_to_base64 (n : Nat) (s : Str) :
    (level (n + 1)).app (.func common.hex_to_base64) [.str s] [] = (lift (hexToBase64 s)).map .str := by
  exec_fn common.hex_to_base64
  simp only [src, hexToBase64]

theorem repeat_length (s : Str) (k : Nat) : (repeatStr s (k : Int)).length = k * s.length := by
  unfold repeatStr
  rw [Int.toNat_natCast]
  induction k with
  | zero => simp
  | succ k ih => rw [List.replicate_succ, List.flatten_cons, List.length_append, ih, Nat.succ_mul, Nat.add_comm]

theorem sem_hex_to_binary (n : Nat) (s : Str) :
    (level (n + 1)).app (.func common.hex_to_binary) [.str s] [] = (lift (hexToBinary s)).map .str := by
  exec_fn common.hex_to_binary
  simp only [src, hexToBinary, repeat_length, Nat.mul_comm]

theorem upper_hex (i : Int) :
    (if i < 0 then '-' :: Nat.toDigits 16 i.natAbs else Nat.toDigits 16 i.natAbs).map upperChar = fmtHexUpper i := by
  unfold fmtHexUpper
  by_cases h : i < 0
  · simp only [h, if_true, List.map_cons]
    rfl
  · simp only [h, if_false]

theorem sem_binary_to_hex (n : Nat) (s : Str) :
    (level (n + 1)).app (.func common.binary_to_hex) [.str s] [] = (lift (binaryToHex s)).map .str := by
  exec_fn common.binary_to_hex
  simp only [src, binaryToHex, upper_hex]

/-! ### encode_string -/

@[src] theorem m_resplit (p s : Str) : methodCall (.module .re) .split [.str p, .str s] =
    match splitBy p s with
    | some l => .ok (.list (l.map .str))
    | .none => .error .unsupported := rfl

theorem elt_encode_string (n : Nat) (env : Env) (h : get .str_to_binary env = .none) (hs : get .str env = .none) (ho : get .ord env = .none) (c : Char) :
    runElt (level (n + 2)) .common env .s common.encode_string.elt1 (.str [c]) = (lift (strToBinary (natStr c.toNat) 7)).map .str := by
  unfold runElt common.encode_string.elt1
  simp only [src, reduceCtorEq, get_set_self, get_set_ne, h, hs, ho, ne_eq, not_false_iff, sem_str_to_binary, intStr_nat]

@[src] theorem join_nil (l : List Str) : joinStr [] l = some l.flatten := rfl

theorem getIdx_zero (c : Char) (t : Str) : getIdx (c :: t) 0 = .ok c := rfl

theorem len_zero_nil : ((([] : Str).length : Int) == ((0 : Nat) : Int)) = true := rfl
theorem len_zero_cons (c : Char) (t : Str) : (((c :: t).length : Int) == ((0 : Nat) : Int)) = false := by
  rw [beq_eq_false_iff_ne, List.length_cons]
  omega

theorem not_percent (c : Char) : ((!([c] == ['%'])) = true) = (c ≠ '%') := by simp

theorem body_encode_string (n : Nat) (s : Str) (w : Nat) :
    Appends .g .res [(.string, .str s), (.num_bits, .int w), (.res, .str [])] encodeStringPiece
      (runBody (level (n + 2)) .common [] common.encode_string.loop1) := by
  intro g r env hs hr
  have hs' : ∀ z, z ≠ .g → z ≠ .res → get z env = get z [(.string, .str s), (.num_bits, .int w), (.res, .str [])] := hs
  have he := elt_encode_string n (set .g (.str g) env) (by simp only [src, reduceCtorEq, get_set_ne, hs', ne_eq, not_false_iff])
    (by simp only [src, reduceCtorEq, get_set_ne, hs', ne_eq, not_false_iff]) (by simp only [src, reduceCtorEq, get_set_ne, hs', ne_eq, not_false_iff])
  unfold runBody common.encode_string.loop1
  cases g with
  | nil =>
    right
    simp only [src, reduceCtorEq, get_set_self, len_zero_nil, get_set_ne, hs', ne_eq, not_false_iff]
    exact ⟨rfl, trivial⟩
  | cons c t =>
    left
    simp only [src, reduceCtorEq, get_set_self, get_set_ne, hr, hs', ne_eq, not_false_iff, sem_str_to_binary, len_zero_cons, getIdx_zero,
      map_chars he, not_percent, encodeStringPiece]
    rfl

theorem sem_encode_string (n : Nat) (s : Str) (w : Nat) :
    (level (n + 3)).app (.func common.encode_string) [.str s, .int w] [] = (lift (encodeString s w)).map .str := by
  exec_fn common.encode_string
  simp only [reSplit_escape, src, encodeString]
  have := loop_appends (by decide) (body_encode_string n s w) (splitCap escapeLen s) [] _ (fun z _ _ => rfl) rfl
  cases hm : (splitCap escapeLen s).mapM encodeStringPiece with
  | error e =>
    rw [this.1 e hm]
    rfl
  | ok ts =>
    obtain ⟨env, hs, hr, hl⟩ := this.2 ts hm
    have hs' : ∀ z, z ≠ .g → z ≠ .res → get z env = get z [(.string, .str s), (.num_bits, .int w), (.res, .str [])] := hs
    rw [hl]
    simp only [src, hr, hs', reduceCtorEq, ne_eq, not_false_iff]

/-! ### decode_string_six_bits -/

theorem body_six (n : Nat) (b : Str) (w : Nat) (g r : Str) (env : Env)
    (hs : Same .g .res env [(.binary, .str b), (.max_chars, .int w), (.res, .str [])]) (hr : get .res env = some (.str r)) :
    runBody (level n) .common [] common.decode_string_six_bits.loop1 (set .g (.str g) env) =
      if g = py "000000" then .ok (.brk (set .g (.str g) env))
      else if g.length < 6 then .ok (.cont (set .g (.str g) env))
      else if startsWith g (py "10") || startsWith g (py "11") then lift (pyInt 2 g) >>= fun i => lift (chr i) >>= fun c =>
        .ok (.next (set .res (.str (r ++ [c])) (set .g (.str g) env)))
      else lift (pyInt 2 g) >>= fun i => lift (chr (64 + i)) >>= fun c =>
        .ok (.next (set .res (.str (r ++ [c])) (set .g (.str g) env))) := by
  have hs' : ∀ z, z ≠ .g → z ≠ .res → get z env = get z [(.binary, .str b), (.max_chars, .int w), (.res, .str [])] := hs
  unfold runBody common.decode_string_six_bits.loop1
  by_cases h0 : g = py "000000"
  · simp only [src, get_set_self, h0, beq_self_eq_true]
  · have h0' : (g == py "000000") = false := by simpa using h0
    by_cases h6 : g.length < 6
    · have h6' : decide ((g.length : Int) < ((6 : Nat) : Int)) = true := by simp; omega
      simp only [src, reduceCtorEq, get_set_self, get_set_ne, hs', ne_eq, not_false_iff, h0, h0', h6', h6]
    · have h6' : decide ((g.length : Int) < ((6 : Nat) : Int)) = false := by simp; omega
      by_cases h1 : startsWith g (py "10") = true
      · simp only [src, reduceCtorEq, get_set_self, get_set_ne, hr, hs', ne_eq, not_false_iff, h0, h0', h6', h6, h1, Bool.true_or]
      · simp only [src, reduceCtorEq, get_set_self, get_set_ne, hr, hs', ne_eq, not_false_iff, h0, h0', h6', h6, Bool.eq_false_iff.2 h1, Bool.false_or]
        rfl

theorem loop_six (n : Nat) (b : Str) (w : Nat) (l : List Str) : ∀ (r : Str) (env : Env),
    Same .g .res env [(.binary, .str b), (.max_chars, .int w), (.res, .str [])] → get .res env = some (.str r) →
      (∀ e, decodeSixLoop l = .error e → forLoop (fun env v => .ok (set .g v env))
        (runBody (level n) .common [] common.decode_string_six_bits.loop1) (l.map .str) env = .error (.err e)) ∧
      (∀ t, decodeSixLoop l = .ok t → ∃ env', Same .g .res env' [(.binary, .str b), (.max_chars, .int w), (.res, .str [])] ∧
        get .res env' = some (.str (r ++ t)) ∧ forLoop (fun env v => .ok (set .g v env))
        (runBody (level n) .common [] common.decode_string_six_bits.loop1) (l.map .str) env = .ok (.next env')) := by
  induction l with
  | nil =>
    intro r env hs hr
    refine ⟨fun e he => ?_, fun ts hts => ?_⟩
    · cases he
    · cases hts
      exact ⟨env, hs, by simpa using hr, rfl⟩
  | cons g l ih =>
    intro r env hs hr
    have hs' : ∀ z, z ≠ .g → z ≠ .res → get z env = get z [(.binary, .str b), (.max_chars, .int w), (.res, .str [])] := hs
    have hg : get .res (set .g (.str g) env) = some (.str r) := by rw [get_set_ne (by decide), hr]
    have next : ∀ (c : Char), (∀ t, (decodeSixLoop l >>= fun x => (.ok (c :: x) : Except Err Str)) = .ok t →
        ∃ env', Same .g .res env' [(.binary, .str b), (.max_chars, .int w), (.res, .str [])] ∧
        get .res env' = some (.str (r ++ t)) ∧ forLoop (fun env v => .ok (set .g v env))
        (runBody (level n) .common [] common.decode_string_six_bits.loop1) (l.map .str) (set .res (.str (r ++ [c])) (set .g (.str g) env)) = .ok (.next env')) ∧
        (∀ e, (decodeSixLoop l >>= fun x => (.ok (c :: x) : Except Err Str)) = .error e → forLoop (fun env v => .ok (set .g v env))
        (runBody (level n) .common [] common.decode_string_six_bits.loop1) (l.map .str) (set .res (.str (r ++ [c])) (set .g (.str g) env)) = .error (.err e)) := by
      intro c
      have := ih (r ++ [c]) (set .res (.str (r ++ [c])) (set .g (.str g) env)) ((hs.set_left _).set_right _) (get_set_self _ _ _)
      cases hd : decodeSixLoop l with
      | error e =>
        refine ⟨fun t ht => (by cases ht), fun e' he => ?_⟩
        cases he
        exact this.1 e hd
      | ok t =>
        refine ⟨fun t' ht => ?_, fun e' he => (by cases he)⟩
        cases ht
        obtain ⟨env', h1, h2, h3⟩ := this.2 t hd
        exact ⟨env', h1, by simpa using h2, h3⟩
    rw [List.map_cons, forLoop]
    rw [m_ok_bind, body_six n b w g r env hs hr, decodeSixLoop]
    by_cases h0 : g = py "000000"
    · rw [if_pos h0, if_pos h0]
      refine ⟨fun e he => (by cases he), fun t ht => ?_⟩
      cases ht
      exact ⟨set .g (.str g) env, hs.set_left _, by simpa using hg, rfl⟩
    rw [if_neg h0, if_neg h0]
    by_cases h6 : g.length < 6
    · rw [if_pos h6, if_pos h6]
      exact ih r (set .g (.str g) env) (hs.set_left _) hg
    rw [if_neg h6, if_neg h6]
    split
    · cases pyInt 2 g with
      | error e => exact ⟨fun e' he => (by cases he; rfl), fun t ht => (by cases ht)⟩
      | ok i =>
        simp only [ok_bind, lift_ok, m_ok_bind]
        cases chr i with
        | error e => exact ⟨fun e' he => (by cases he; rfl), fun t ht => (by cases ht)⟩
        | ok c => exact ⟨(next c).2, (next c).1⟩
    · cases pyInt 2 g with
      | error e => exact ⟨fun e' he => (by cases he; rfl), fun t ht => (by cases ht)⟩
      | ok i =>
        simp only [ok_bind, lift_ok, m_ok_bind]
        cases chr (64 + i) with
        | error e => exact ⟨fun e' he => (by cases he; rfl), fun t ht => (by cases ht)⟩
        | ok c => exact ⟨(next c).2, (next c).1⟩

theorem gt_nat (a b : Nat) : decide ((a : Int) > (b : Int)) = decide (a > b) := by
  by_cases h : a > b
  · rw [decide_eq_true h, decide_eq_true (by omega)]
  · rw [decide_eq_false h, decide_eq_false (by omega)]

theorem sem_decode_string_six_bits (n : Nat) (s : Str) (w : Nat) :
    (level (n + 2)).app (.func common.decode_string_six_bits) [.str s, .int w] [] = (lift (decodeStringSixBits s w)).map .str := by
  exec_fn common.decode_string_six_bits
  simp only [reSplit_six, src, decodeStringSixBits]
  have := loop_six (n + 1) s w (splitCap (bitsLen 6) s) [] _ (fun z _ _ => rfl) rfl
  cases hm : decodeSixLoop (splitCap (bitsLen 6) s) with
  | error e =>
    rw [this.1 e hm]
    rfl
  | ok t =>
    obtain ⟨env, hs, hr, hl⟩ := this.2 t hm
    have hs' : ∀ z, z ≠ .g → z ≠ .res → get z env = get z [(.binary, .str s), (.max_chars, .int w), (.res, .str [])] := hs
    rw [hl]
    by_cases h : t.length > w
    · simp only [src, hr, hs', reduceCtorEq, ne_eq, not_false_iff, gt_nat, h, decide_true]
    · simp only [src, hr, hs', reduceCtorEq, ne_eq, not_false_iff, gt_nat, h, decide_false]

/-! ### encode_string_six_bits -/

theorem elt_encode_six (n : Nat) (env : Env) (hi : get .int env = .none) (ho : get .ord env = .none) (c : Char) :
    runElt (level n) .common env .s common.encode_string_six_bits.elt1 (.str [c]) = (lift (encodeSixChar c)).map .str := by
  unfold runElt common.encode_string_six_bits.elt1
  simp only [src, reduceCtorEq, get_set_self, get_set_ne, hi, ho, ne_eq, not_false_iff, encodeSixChar]
  rfl

theorem body_encode_six (n : Nat) (s : Str) :
    Appends .g .res [(.string, .str s), (.res, .str [])] encodeSixPiece
      (runBody (level (n + 2)) .common [] common.encode_string_six_bits.loop1) := by
  intro g r env hs hr
  have hs' : ∀ z, z ≠ .g → z ≠ .res → get z env = get z [(.string, .str s), (.res, .str [])] := hs
  have he := elt_encode_six (n + 2) (set .g (.str g) env) (by simp only [src, reduceCtorEq, get_set_ne, hs', ne_eq, not_false_iff])
    (by simp only [src, reduceCtorEq, get_set_ne, hs', ne_eq, not_false_iff])
  unfold runBody common.encode_string_six_bits.loop1
  cases g with
  | nil =>
    right
    simp only [src, reduceCtorEq, get_set_self, len_zero_nil, get_set_ne, hs', ne_eq, not_false_iff]
    exact ⟨rfl, trivial⟩
  | cons c t =>
    left
    by_cases hd : c :: t = py "-"
    · rw [hd]
      simp only [src, reduceCtorEq, get_set_self, len_zero_cons, get_set_ne, hr, hs', ne_eq, not_false_iff, encodeSixPiece, beq_self_eq_true]
    · have hd' : ((c :: t) == py "-") = false := by simpa using hd
      simp only [src, reduceCtorEq, get_set_self, get_set_ne, hr, hs', ne_eq, not_false_iff, sem_str_to_binary, len_zero_cons, getIdx_zero,
        map_chars he, not_percent, encodeSixPiece, hd, hd']
      rfl

theorem sem_encode_string_six_bits (n : Nat) (s : Str) :
    (level (n + 3)).app (.func common.encode_string_six_bits) [.str s] [] = (lift (encodeStringSixBits s)).map .str := by
  exec_fn common.encode_string_six_bits
  simp only [reSplit_escapeOrDash, src, encodeStringSixBits]
  have := loop_appends (by decide) (body_encode_six n s) (splitCap escapeOrDashLen s) [] _ (fun z _ _ => rfl) rfl
  cases hm : (splitCap escapeOrDashLen s).mapM encodeSixPiece with
  | error e =>
    rw [this.1 e hm]
    rfl
  | ok ts =>
    obtain ⟨env, hs, hr, hl⟩ := this.2 ts hm
    rw [hl]
    simp only [src, hr]

/-! ### decode_string -/

theorem escapeCharacters_const (n : Nat) : (level (n + 1)).const .common [] common.ESCAPE_CHARACTERS =
    .ok (.dict (escapeCharacters.map (fun p => (.str p.1, .str p.2)))) := by rfl

theorem dictGet_strs (k : Str) (l : List (Str × Str)) :
    dictGet (.str k) (l.map (fun p => (Val.str p.1, Val.str p.2))) = (l.lookup k).map .str := by
  induction l with
  | nil => rfl
  | cons p l ih =>
    obtain ⟨a, b⟩ := p
    simp only [List.map_cons, dictGet, beq_str, ih, List.lookup_cons]
    cases k == a <;> rfl

theorem sem_decode_binary_char (n : Nat) (s : Str) :
    (level (n + 2)).app (.func common.decode_binary_char) [.str s] [] = (lift (decodeBinaryChar s)).map .str := by
  exec_fn common.decode_binary_char
  simp only [src, decodeBinaryChar, escapeCharacters_const, dictGet_strs]
  by_cases h : s = py "0000000"
  · simp only [src, h, beq_self_eq_true]
  · have h' : (s == py "0000000") = false := by simpa using h
    cases hl : escapeCharacters.lookup s with
    | some e => simp only [src, h, h', Option.map]
    | none => simp only [src, h, h', Option.map]

theorem m_findall7 (s : Str) : methodCall (.module .re) .findall [.str (repeatStr ['.'] ((7 : Nat) : Int)), .str s] =
    .ok (.list ((findAll (fixedLen (List.replicate 7 anyChar)) s).map .str)) := by
  have h : methodCall (.module .re) .findall [.str (repeatStr ['.'] ((7 : Nat) : Int)), .str s] =
    match findAllBy (py ".......") s with
    | some l => .ok (.list (l.map .str))
    | .none => .error .unsupported := rfl
  rw [h, reFind_seven]

theorem sem_decode_string (n : Nat) (s : Str) :
    (level (n + 3)).app (.func common.decode_string) [.str s] [] = (lift (decodeString s)).map .str := by
  exec_fn common.decode_string
  simp only [src, decodeString, m_findall7, map_texts (f := fun x => (level (n + 2)).app (.func common.decode_binary_char) [x] []) (sem_decode_binary_char n)]

end Epc.Src
