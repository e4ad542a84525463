/-
Hexadecimal and base64 transports.
-/
import Verif.Lemmas.Bridge

namespace Epc
open Spec

theorem mem_hex (c : Char) : c ∈ py "0123456789abcdefABCDEF" ↔ isHexA c = true := by
  refine mem_ascii_list (by decide) (by decide +kernel) ?_ c
  intro c h
  simp only [isHexA, Bool.or_eq_true, isDigitA_iff, Bool.and_eq_true, decide_eq_true_eq, char_le_iff] at h
  have e1 : 'f'.toNat = 102 := by decide
  have e2 : 'F'.toNat = 70 := by decide
  omega

/-- Facts about hexadecimal digits, by evaluation over ASCII. -/
theorem hex_facts (c : Char) (h : isHexA c = true) :
    (∃ d, digitVal c = some d ∧ d < 16 ∧ lowerChar c = Nat.digitChar d ∧ digitVal (lowerChar c) = some d ∧
      digitIn 16 c = some d) ∧ isCSpace c = false := by
  have hlt : c.toNat < 128 := by
    have := (mem_hex c).2 h
    exact of_decide_eq_true (List.all_eq_true.1 (by decide : (py "0123456789abcdefABCDEF").all (fun c => decide (c.toNat < 128)) = true) c this)
  have key : ∀ n : Fin 128, isHexA (Char.ofNat n.val) = true →
      (((digitVal (Char.ofNat n.val)).getD 99 < 16 ∧
        lowerChar (Char.ofNat n.val) = Nat.digitChar ((digitVal (Char.ofNat n.val)).getD 99) ∧
        digitVal (lowerChar (Char.ofNat n.val)) = digitVal (Char.ofNat n.val) ∧
        digitIn 16 (Char.ofNat n.val) = digitVal (Char.ofNat n.val)) ∧ isCSpace (Char.ofNat n.val) = false) := by
    decide +kernel
  have := ascii_forall (P := fun c => isHexA c = true →
      (((digitVal c).getD 99 < 16 ∧ lowerChar c = Nat.digitChar ((digitVal c).getD 99) ∧
        digitVal (lowerChar c) = digitVal c ∧ digitIn 16 c = digitVal c) ∧ isCSpace c = false)) key c hlt h
  obtain ⟨⟨h1, h2, h3, h4⟩, h5⟩ := this
  refine ⟨?_, h5⟩
  cases hd : digitVal c with
  | none => rw [hd] at h1; simp at h1
  | some d =>
    rw [hd] at h1 h2 h3 h4
    exact ⟨d, rfl, h1, h2, h3, h4⟩

theorem hexDigits_digitsIn {h : Str} (hh : HexDigits h) : DigitsIn 16 h := by
  intro c hc
  obtain ⟨⟨d, h1, h2, _⟩, _⟩ := hex_facts c ((mem_hex c).1 (hh c hc))
  exact ⟨d, h1, h2⟩

theorem digVal_map {b : Nat} {f : Char → Char} {s : Str} (h : ∀ c ∈ s, digitVal (f c) = digitVal c) :
    digVal b (s.map f) = digVal b s := by
  induction s with
  | nil => rfl
  | cons c s ih =>
    rw [List.map_cons, digVal_cons, digVal_cons, ih (fun c hc => h c (by simp [hc])), h c (by simp)]
    simp

theorem digitsIn_map {b : Nat} {f : Char → Char} {s : Str} (h : ∀ c ∈ s, digitVal (f c) = digitVal c)
    (hs : DigitsIn b s) : DigitsIn b (s.map f) := by
  intro c hc
  obtain ⟨x, hx, rfl⟩ := List.mem_map.1 hc
  rw [h x hx]; exact hs x hx

theorem digitVal_upper_digitChar {d : Nat} (h : d < 16) :
    digitVal (upperChar (Nat.digitChar d)) = digitVal (Nat.digitChar d) := by
  have : ∀ d : Fin 16, digitVal (upperChar (Nat.digitChar d.val)) = digitVal (Nat.digitChar d.val) := by decide
  exact this ⟨d, h⟩

theorem hexToBinary_eq {h : Str} (hh : DigitsIn 16 h) (hne : h ≠ []) :
    hexToBinary h = .ok (bin (h.length * 4) (digVal 16 h)) := by
  unfold hexToBinary
  rw [pyInt_digits (by decide) hh hne]
  show Except.ok _ = _
  rw [← intToBinary_ofNat]; rfl

theorem hexToBinary_lower {h : Str} (hh : HexDigits h) : hexToBinary (h.map lowerChar) = hexToBinary h := by
  by_cases hne : h = []
  · subst hne; rfl
  have e : ∀ c ∈ h, digitVal (lowerChar c) = digitVal c := by
    intro c hc
    obtain ⟨⟨d, h1, h2, h3, h4, _⟩, _⟩ := hex_facts c ((mem_hex c).1 (hh c hc))
    rw [h4, h1]
  have hd := hexDigits_digitsIn hh
  rw [hexToBinary_eq hd hne, hexToBinary_eq (digitsIn_map e hd) (by simpa using hne), digVal_map e, List.length_map]

theorem pow_sixteen (k : Nat) : 16 ^ k = 2 ^ (k * 4) := by
  rw [show (16 : Nat) = 2 ^ 4 by decide, ← Nat.pow_mul, Nat.mul_comm]

theorem hexToBinary_length {h : Str} (hh : HexDigits h) (hne : h ≠ []) :
    ∃ b, hexToBinary h = .ok b ∧ Bits b ∧ b.length = 4 * h.length := by
  have hd := hexDigits_digitsIn hh
  refine ⟨_, hexToBinary_eq hd hne, Bits_bin _ _, ?_⟩
  have hl : 0 < h.length := List.length_pos_iff.2 hne
  rw [length_bin (by omega), Nat.mul_comm]
  rw [← pow_sixteen]; exact digVal_lt hd

theorem binaryToHex_eq {b : Str} (hb : CanonDigits 2 b) (hne : b ≠ []) :
    binaryToHex b = .ok ((Nat.toDigits 16 (digVal 2 b)).map upperChar) := by
  unfold binaryToHex
  rw [pyInt_bits hb hne]
  show Except.ok _ = _
  unfold fmtHexUpper
  rw [if_neg (by omega)]; rfl

/-- The hexadecimal digits of a bit string of whole nibbles with a non-zero first nibble. -/
theorem length_toDigits_bits {b : Str} (hb : CanonDigits 2 b) (hl : b.length % 4 = 0) (hne : b ≠ [])
    (hz : b.take 4 ≠ py "0000") : (Nat.toDigits 16 (digVal 2 b)).length * 4 = b.length := by
  have hpos : 0 < b.length := List.length_pos_iff.2 hne
  obtain ⟨k, hk⟩ : ∃ k, b.length = (k + 1) * 4 := ⟨b.length / 4 - 1, by omega⟩
  have hle : (Nat.toDigits 16 (digVal 2 b)).length ≤ k + 1 := by
    rw [Nat.length_toDigits_le_iff (by decide) (by omega), pow_sixteen, ← hk]
    exact digVal_lt (hb.digitsIn (by decide))
  have hge : k < (Nat.toDigits 16 (digVal 2 b)).length := by
    have hsplit : b = b.take 4 ++ b.drop 4 := (List.take_append_drop 4 b).symm
    have hd : digVal 2 b = digVal 2 (b.take 4) * 2 ^ (k * 4) + digVal 2 (b.drop 4) := by
      conv => lhs; rw [hsplit]
      rw [digVal_append]; congr 2; rw [List.length_drop, hk]; congr 1; omega
    have htk : (b.take 4).length = 4 := by simp; omega
    have hc4 : CanonDigits 2 (b.take 4) := fun c hc => hb c (List.mem_of_mem_take hc)
    have h0 : digVal 2 (b.take 4) ≠ 0 := by
      intro h0
      apply hz
      have := bin_digVal hc4 (by intro h; rw [h] at htk; simp at htk)
      rw [h0, htk, bin_zero (by decide)] at this
      exact this.symm
    have hbig : 16 ^ k ≤ digVal 2 b := by
      rw [hd, pow_sixteen]
      have : 1 * 2 ^ (k * 4) ≤ digVal 2 (b.take 4) * 2 ^ (k * 4) := Nat.mul_le_mul_right _ (by omega)
      omega
    cases k with
    | zero => exact List.length_pos_iff.2 Nat.toDigits_ne_nil
    | succ k =>
      have : ¬ (Nat.toDigits 16 (digVal 2 b)).length ≤ k + 1 := by
        rw [Nat.length_toDigits_le_iff (by decide) (by omega)]; omega
      omega
  omega

theorem binary_hex_binary {b : Str} (hb : Bits b) (hl : b.length % 4 = 0) (hne : b ≠ [])
    (hz : b.take 4 ≠ py "0000") : (binaryToHex b).bind hexToBinary = .ok b := by
  have hc := (bits_iff b).1 hb
  rw [binaryToHex_eq hc hne]
  show hexToBinary _ = _
  have e : ∀ c ∈ Nat.toDigits 16 (digVal 2 b), digitVal (upperChar c) = digitVal c := by
    intro c hc
    obtain ⟨d, hd, rfl⟩ := canonDigits_toDigits (b := 16) (by decide) c hc
    exact digitVal_upper_digitChar hd
  rw [hexToBinary_eq (digitsIn_map e (digitsIn_toDigits (by decide) (by decide))) (by simp [Nat.toDigits_ne_nil]),
    digVal_map e, digVal_toDigits (by decide) (by decide), List.length_map, length_toDigits_bits hc hl hne hz,
    bin_digVal hc hne]

/-! ### base64 -/

theorem b64Val_b64Char {n : Nat} (h : n < 64) : b64Val (b64Char n) = some n ∧ b64Char n ≠ '=' ∧ (b64Char n).toNat < 128 := by
  have : ∀ n : Fin 64, b64Val (b64Char n.val) = some n.val ∧ b64Char n.val ≠ '=' ∧ (b64Char n.val).toNat < 128 := by decide
  exact this ⟨n, h⟩

theorem a2b_0 {v : Nat} (h : v < 64) (l p : Nat) (cs : Str) : a2bGo 0 l p (b64Char v :: cs) = a2bGo 1 v 0 cs := by
  obtain ⟨h1, h2, _⟩ := b64Val_b64Char h
  rw [a2bGo, if_neg h2, h1]; simp

theorem a2b_1 {v : Nat} (h : v < 64) (l p : Nat) (cs : Str) :
    a2bGo 1 l p (b64Char v :: cs) = (a2bGo 2 (v % 16) 0 cs).map (fun r => (l * 4 + v / 16) :: r) := by
  obtain ⟨h1, h2, _⟩ := b64Val_b64Char h
  rw [a2bGo, if_neg h2, h1]
  simp only [Nat.one_ne_zero, if_false, if_true]
  cases a2bGo 2 (v % 16) 0 cs <;> rfl

theorem a2b_2 {v : Nat} (h : v < 64) (l p : Nat) (cs : Str) :
    a2bGo 2 l p (b64Char v :: cs) = (a2bGo 3 (v % 4) 0 cs).map (fun r => (l * 16 + v / 4) :: r) := by
  obtain ⟨h1, h2, _⟩ := b64Val_b64Char h
  rw [a2bGo, if_neg h2, h1]
  simp
  cases a2bGo 3 (v % 4) 0 cs <;> rfl

theorem a2b_3 {v : Nat} (h : v < 64) (l p : Nat) (cs : Str) :
    a2bGo 3 l p (b64Char v :: cs) = (a2bGo 0 0 0 cs).map (fun r => (l * 64 + v) :: r) := by
  obtain ⟨h1, h2, _⟩ := b64Val_b64Char h
  rw [a2bGo, if_neg h2, h1]
  simp
  cases a2bGo 0 0 0 cs <;> rfl

/-- Decoding an encoded byte string, whatever number of pad characters follows. -/
theorem a2b_encode (bs : List Nat) (h : ∀ b ∈ bs, b < 256) : a2bGo 0 0 0 (b64encode bs ++ py "==") = .ok bs := by
  induction bs using b64encode.induct with
  | case1 => decide
  | case2 a =>
    have ha := h a (by simp)
    rw [b64encode]
    simp only [List.cons_append]
    rw [a2b_0 (by omega), a2b_1 (by omega)]
    simp [a2bGo, Except.map]; omega
  | case3 a b =>
    have ha := h a (by simp)
    have hb := h b (by simp)
    rw [b64encode]
    simp only [List.cons_append]
    rw [a2b_0 (by omega), a2b_1 (by omega), a2b_2 (by omega)]
    simp [a2bGo, Except.map]; omega
  | case4 a b c t ih =>
    have ha := h a (by simp)
    have hb := h b (by simp)
    have hc := h c (by simp)
    have ih := ih (fun x hx => h x (by simp [hx]))
    rw [b64encode]
    simp only [List.cons_append]
    rw [a2b_0 (by omega), a2b_1 (by omega), a2b_2 (by omega), a2b_3 (by omega), ih]
    simp [Except.map]; omega

/-- The same with the pad characters of the encoder dropped. -/
theorem a2b_encode_stripped (bs : List Nat) (h : ∀ b ∈ bs, b < 256) :
    a2bGo 0 0 0 (dropRightWhile (· == '=') (b64encode bs) ++ py "==") = .ok bs := by
  have drw : ∀ (v : Nat) (s : Str), v < 64 → dropRightWhile (· == '=') (b64Char v :: s) =
      b64Char v :: dropRightWhile (· == '=') s := by
    intro v s hv
    have hne := (b64Val_b64Char hv).2.1
    unfold dropRightWhile
    rw [List.reverse_cons, List.dropWhile_append]
    split
    · next he =>
      have : (s.reverse).dropWhile (· == '=') = [] := by simpa using he
      simp [this, hne]
    · simp
  have drn : dropRightWhile (· == '=') [] = [] := rfl
  have dr1 : dropRightWhile (· == '=') ['='] = [] := rfl
  have dr2 : dropRightWhile (· == '=') ['=', '='] = [] := rfl
  induction bs using b64encode.induct with
  | case1 => decide
  | case2 a =>
    have ha := h a (by simp)
    rw [b64encode, drw _ _ (by omega), drw _ _ (by omega), dr2]
    simp only [List.cons_append]
    rw [a2b_0 (by omega), a2b_1 (by omega)]
    simp [a2bGo, Except.map]; omega
  | case3 a b =>
    have ha := h a (by simp)
    have hb := h b (by simp)
    rw [b64encode, drw _ _ (by omega), drw _ _ (by omega), drw _ _ (by omega), dr1]
    simp only [List.cons_append]
    rw [a2b_0 (by omega), a2b_1 (by omega), a2b_2 (by omega)]
    simp [a2bGo, Except.map]; omega
  | case4 a b c t ih =>
    have ha := h a (by simp)
    have hb := h b (by simp)
    have hc := h c (by simp)
    have ih := ih (fun x hx => h x (by simp [hx]))
    rw [b64encode, drw _ _ (by omega), drw _ _ (by omega), drw _ _ (by omega), drw _ _ (by omega)]
    simp only [List.cons_append]
    rw [a2b_0 (by omega), a2b_1 (by omega), a2b_2 (by omega), a2b_3 (by omega), ih]
    simp [Except.map]; omega

theorem b64encode_ascii (bs : List Nat) (h : ∀ b ∈ bs, b < 256) : ∀ c ∈ b64encode bs, c.toNat < 128 := by
  have e : '='.toNat < 128 := by decide
  induction bs using b64encode.induct with
  | case1 => simp [b64encode]
  | case2 a =>
    have ha := h a (by simp)
    have h1 := (b64Val_b64Char (n := a / 4) (by omega)).2.2
    have h2 := (b64Val_b64Char (n := a % 4 * 16) (by omega)).2.2
    simp only [b64encode, List.mem_cons, List.not_mem_nil, or_false]
    rintro c (rfl | rfl | rfl | rfl) <;> assumption
  | case3 a b =>
    have ha := h a (by simp)
    have hb := h b (by simp)
    have h1 := (b64Val_b64Char (n := a / 4) (by omega)).2.2
    have h2 := (b64Val_b64Char (n := a % 4 * 16 + b / 16) (by omega)).2.2
    have h3 := (b64Val_b64Char (n := b % 16 * 4) (by omega)).2.2
    simp only [b64encode, List.mem_cons, List.not_mem_nil, or_false]
    rintro c (rfl | rfl | rfl | rfl) <;> assumption
  | case4 a b c t ih =>
    have ha := h a (by simp)
    have hb := h b (by simp)
    have hc := h c (by simp)
    have ih := ih (fun x hx => h x (by simp [hx]))
    have h1 := (b64Val_b64Char (n := a / 4) (by omega)).2.2
    have h2 := (b64Val_b64Char (n := a % 4 * 16 + b / 16) (by omega)).2.2
    have h3 := (b64Val_b64Char (n := b % 16 * 4 + c / 64) (by omega)).2.2
    have h4 := (b64Val_b64Char (n := c % 64) (by omega)).2.2
    simp only [b64encode, List.mem_cons]
    rintro c (rfl | rfl | rfl | rfl | hc)
    · assumption
    · assumption
    · assumption
    · assumption
    · exact ih c hc

theorem b64decode_encode (bs : List Nat) (h : ∀ b ∈ bs, b < 256) : b64decode (b64encode bs ++ py "==") = .ok bs := by
  unfold b64decode
  rw [if_pos, a2b_encode bs h]
  rw [List.all_eq_true]
  intro c hc
  simp only [List.mem_append] at hc
  rcases hc with hc | hc
  · simpa using b64encode_ascii bs h c hc
  · revert c; decide

theorem b64decode_encode_stripped (bs : List Nat) (h : ∀ b ∈ bs, b < 256) :
    b64decode (dropRightWhile (· == '=') (b64encode bs) ++ py "==") = .ok bs := by
  unfold b64decode
  rw [if_pos, a2b_encode_stripped bs h]
  rw [List.all_eq_true]
  intro c hc
  simp only [List.mem_append] at hc
  rcases hc with hc | hc
  · have : c ∈ b64encode bs := by
      unfold dropRightWhile at hc
      rw [List.mem_reverse] at hc
      have := List.dropWhile_subset _ hc
      simpa using this
    simpa using b64encode_ascii bs h c this
  · revert c; decide

theorem bytesFromHex_ok {h : Str} (hh : HexDigits h) (hl : h.length % 2 = 0) :
    ∃ bs, bytesFromHex h = .ok bs ∧ (∀ b ∈ bs, b < 256) ∧ bytesHex bs = h.map lowerChar ∧ bs.length * 2 = h.length := by
  induction h using bytesFromHex.induct with
  | case1 => exact ⟨[], rfl, by simp, rfl, rfl⟩
  | case2 c => simp at hl
  | case3 c => simp at hl
  | case4 c d t hs ih =>
    have := (hex_facts c ((mem_hex c).1 (hh c (by simp)))).2
    rw [this] at hs; cases hs
  | case5 c d t hs x y hy hx r hr ih =>
    obtain ⟨⟨x', a1, a2, a3, _, a5⟩, _⟩ := hex_facts c ((mem_hex c).1 (hh c (by simp)))
    obtain ⟨⟨y', b1, b2, b3, _, b5⟩, _⟩ := hex_facts d ((mem_hex d).1 (hh d (by simp)))
    rw [a5] at hx; cases hx
    rw [b5] at hy; cases hy
    obtain ⟨bs, h1, h2, h3, h4⟩ := ih (fun c hc => hh c (by simp [hc])) (by simp at hl; omega)
    refine ⟨(x * 16 + y) :: bs, ?_, ?_, ?_, ?_⟩
    · rw [bytesFromHex, if_neg hs, a5, b5]; simp only [h1]
    · intro b hb
      rcases List.mem_cons.1 hb with rfl | hb
      · omega
      · exact h2 b hb
    · simp only [bytesHex, List.map_cons, h3, a3, b3, hexChar]
      rw [show (x * 16 + y) / 16 = x by omega, show (x * 16 + y) % 16 = y by omega]
    · simp [← h4]; omega
  | case6 c d t hs x y hx hy e hr ih =>
    obtain ⟨bs, h1, _⟩ := ih (fun c hc => hh c (by simp [hc])) (by simp at hl; omega)
    rw [h1] at hr; cases hr
  | case7 c d t hs hn =>
    obtain ⟨⟨x', a1, a2, a3, _, a5⟩, _⟩ := hex_facts c ((mem_hex c).1 (hh c (by simp)))
    obtain ⟨⟨y', b1, b2, b3, _, b5⟩, _⟩ := hex_facts d ((mem_hex d).1 (hh d (by simp)))
    exact absurd b5 (hn _ _ a5)

theorem hexToBase64_eq {h : Str} (hh : HexDigits h) (hl : h.length % 2 = 0) :
    ∃ bs, hexToBase64 h = .ok (b64encode bs) ∧ (∀ b ∈ bs, b < 256) ∧ bytesHex bs = h.map lowerChar := by
  obtain ⟨bs, h1, h2, h3, _⟩ := bytesFromHex_ok hh hl
  refine ⟨bs, ?_, h2, h3⟩
  unfold hexToBase64; rw [h1]; rfl

theorem base64ToHex_encode {bs : List Nat} (h : ∀ b ∈ bs, b < 256) : base64ToHex (b64encode bs) = .ok (bytesHex bs) := by
  unfold base64ToHex; rw [b64decode_encode bs h]; rfl

theorem base64ToHex_stripped {bs : List Nat} (h : ∀ b ∈ bs, b < 256) :
    base64ToHex (dropRightWhile (· == '=') (b64encode bs)) = .ok (bytesHex bs) := by
  unfold base64ToHex; rw [b64decode_encode_stripped bs h]; rfl

theorem hex_base64_hex {h : Str} (hh : HexDigits h) (hl : h.length % 2 = 0) :
    (hexToBase64 h).bind base64ToHex = .ok (h.map lowerChar) := by
  obtain ⟨bs, h1, h2, h3⟩ := hexToBase64_eq hh hl
  rw [h1]
  show base64ToHex _ = _
  rw [base64ToHex_encode h2, h3]

theorem base64_padding {h t : Str} (hh : HexDigits h) (hl : h.length % 2 = 0) (ht : hexToBase64 h = .ok t) :
    base64ToHex (dropRightWhile (· == '=') t) = base64ToHex t := by
  obtain ⟨bs, h1, h2, h3⟩ := hexToBase64_eq hh hl
  rw [h1] at ht; cases ht
  rw [base64ToHex_encode h2, base64ToHex_stripped h2]

end Epc
