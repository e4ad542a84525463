/-
Encoders in terms of the layout specification.
-/
import Verif.Lemmas.Avail
import Verif.Lemmas.Decode
import Verif.Spec.Layout

namespace Epc
open Spec Re

theorem length_bitsOf : ∀ (w n : Nat), (bitsOf w n).length = w
  | 0, _ => rfl
  | w + 1, n => by rw [bitsOf, List.length_append, length_bitsOf w]; rfl

theorem Bits_bitsOf : ∀ (w n : Nat), Bits (bitsOf w n)
  | 0, _ => by intro c hc; cases hc
  | w + 1, n => by
    rw [bitsOf]
    refine Bits_append.2 ⟨Bits_bitsOf w _, ?_⟩
    intro c hc
    rw [List.mem_singleton] at hc
    subst hc
    split
    · exact .inr rfl
    · exact .inl rfl

theorem bitsNumber_bitsOf : ∀ (w n : Nat), bitsNumber (bitsOf w n) = n % 2 ^ w
  | 0, n => by rw [Nat.pow_zero, Nat.mod_one]; rfl
  | w + 1, n => by
    have ih := bitsNumber_bitsOf w (n / 2)
    unfold bitsNumber at ih ⊢
    rw [bitsOf, List.foldl_append, ih]
    show 2 * (n / 2 % 2 ^ w) + _ = _
    have h1 : n % 2 ^ (w + 1) = 2 * (n / 2 % 2 ^ w) + n % 2 := by
      rw [Nat.pow_succ, Nat.mul_comm (2 ^ w) 2, Nat.mod_mul]
      omega
    rw [h1]
    by_cases h : n % 2 = 1
    · simp only [if_pos h]; rw [if_pos trivial, h]
    · simp only [if_neg h]; rw [if_neg (by decide)]; omega

theorem bin_bitsOf {w n : Nat} (hw : 0 < w) (h : n < 2 ^ w) : bin w n = bitsOf w n := by
  have := bin_bitsNumber (Bits_bitsOf w n) (length_bitsOf w n) hw
  rw [bitsNumber_bitsOf, Nat.mod_eq_of_lt h] at this
  exact this

theorem bitsOf_zero : ∀ w : Nat, bitsOf w 0 = List.replicate w '0'
  | 0 => rfl
  | w + 1 => by rw [bitsOf, Nat.zero_div, bitsOf_zero w, List.replicate_succ']; rfl

theorem layout_cons (w n : Nat) (l : List (Nat × Nat)) : layout ((w, n) :: l) = bitsOf w n ++ layout l := rfl
theorem layout_nil : layout [] = [] := rfl
theorem layout_append (a b : List (Nat × Nat)) : layout (a ++ b) = layout a ++ layout b := by
  unfold layout; rw [List.flatMap_append]

theorem layout_keyLayout (W : Nat) (C D : Str) : layout (keyLayout W C D) =
    bitsOf 3 (12 - C.length) ++ (bitsOf (prefixBits C.length) (number C) ++ bitsOf (W - 3 - prefixBits C.length) (number D)) := by
  simp [keyLayout, layout]

theorem layout_seven {raw : Str} (h : ∀ c ∈ raw, c.toNat < 128) : layout (textLayout 7 raw) = code7 raw := by
  induction raw with
  | nil => rfl
  | cons c raw ih =>
    have hc := h c (.head _)
    show bitsOf 7 (c.toNat % 2 ^ 7) ++ layout (textLayout 7 raw) = _
    rw [ih fun c hc => h c (.tail _ hc), code7_cons, bin_bitsOf (by decide) (by omega), Nat.mod_eq_of_lt (by omega)]

theorem layout_six (raw : Str) : layout (textLayout 6 raw) = code6 raw := by
  induction raw with
  | nil => rfl
  | cons c raw ih =>
    show bitsOf 6 (c.toNat % 2 ^ 6) ++ layout (textLayout 6 raw) = _
    rw [ih, code6_cons, bin_bitsOf (by decide) (by omega)]

theorem layout_eight {raw : Str} (h : ∀ c ∈ raw, c.toNat < 128) : layout (textLayout 8 raw) = code8 raw := by
  induction raw with
  | nil => rfl
  | cons c raw ih =>
    have hc := h c (.head _)
    show bitsOf 8 (c.toNat % 2 ^ 8) ++ layout (textLayout 8 raw) = code8 (c :: raw)
    rw [ih fun c hc => h c (.tail _ hc), ← bin_bitsOf (by decide) (by omega), Nat.mod_eq_of_lt (by omega)]
    rfl

theorem StdTable.rowL {t : List Row} (h : StdTable t) {n : Nat} (h1 : 6 ≤ n) (h2 : n ≤ 12) :
    ∃ r ∈ t, r.L = n ∧ r.P = 12 - n ∧ r.M = prefixBits n := by
  obtain ⟨r, hr, e⟩ := h.row (p := 12 - n) (by omega)
  obtain ⟨e1, e2⟩ := h.2.2.1 r hr
  refine ⟨r, hr, by omega, e, ?_⟩
  rw [e2, e]
  congr 1
  omega

/-- Partition value and company prefix of the encoded form. -/
theorem part_start {t : List Row} {r : Row} (ht : TableOk t) (hr : r ∈ t) {C D d : Str} {mode : PartMode} (hC : Digits C)
    (hl : r.L = C.length) (hP : r.P = 12 - C.length) (hM : r.M = prefixBits C.length)
    (hd : encodeRef D r mode = .ok d) :
    encodePartitionTable C D t mode = .ok (bitsOf 3 (12 - C.length) ++ (bitsOf (prefixBits C.length) (number C) ++ d)) := by
  rw [encodePartition_eq ht hr hC hl.symm hd]
  obtain ⟨a1, a2, a3, a4, a5⟩ := (ht r hr).1
  have hlt : number C < 2 ^ r.M := by
    have := number_lt hC
    rw [← hl] at this
    omega
  rw [bin_bitsOf (by decide) (by omega), bin_bitsOf (by omega) hlt, hP, hM]

theorem part_layout {t : List Row} {W T : Nat} (ht : StdTable t) (hk : RefOk t) (hW : ∀ r ∈ t, 3 + r.M + r.N = W ∧ r.L + r.K = T)
    {C D : Str} (hC : Digits C) (hD : Digits D) (h1 : 6 ≤ C.length) (h2 : C.length ≤ 12) (hT : C.length + D.length = T) :
    encodePartitionTable C D t = .ok (layout (keyLayout W C D)) := by
  obtain ⟨r, hr, hL, hP, hM⟩ := ht.rowL h1 h2
  obtain ⟨w1, w2⟩ := hW r hr
  have hDl : D.length = r.K := by omega
  rw [part_start ht.1 hr hC hL hP hM (encodeRef_plain hD hDl), layout_keyLayout, ← hM, show W - 3 - r.M = r.N by omega]
  congr 3
  unfold refBits
  split
  · have := number_lt hD
    rw [hDl] at this
    have hk' := hk r hr
    exact bin_bitsOf (ht.1 r hr).1.2.2.2.2 (by omega)
  · next h =>
    have : D = [] := List.length_eq_zero_iff.1 (by omega)
    rw [this]
    exact (bitsOf_zero _).symm

theorem part_layout_free {t : List Row} {W : Nat} (ht : StdTable t) (hK : ∀ r ∈ t, r.K ≠ 0 ∧ 3 + r.M + r.N = W)
    {C D : Str} (hC : Digits C) (hD : Numeral D) (h1 : 6 ≤ C.length) (h2 : C.length ≤ 12)
    (hlt : number D < 2 ^ (W - 3 - prefixBits C.length)) (mode : PartMode) (hm : mode = .plain ∨ mode = .unpadded) :
    encodePartitionTable C D t mode = .ok (layout (keyLayout W C D)) := by
  obtain ⟨r, hr, hL, hP, hM⟩ := ht.rowL h1 h2
  obtain ⟨w1, w2⟩ := hK r hr
  have hN : W - 3 - r.M = r.N := by omega
  have hd : encodeRef D r mode = .ok (bin r.N (number D)) := by
    rcases hm with rfl | rfl <;>
    · unfold encodeRef
      rw [if_pos w1, (numeral_bin hD r.N).1]
  rw [part_start ht.1 hr hC hL hP hM hd, layout_keyLayout, ← hM, hN,
    bin_bitsOf (ht.1 r hr).1.2.2.2.2 (by rw [← hM, hN] at hlt; exact hlt)]

theorem text_layout {raw : Str} (h : ∀ c ∈ raw, c ∈ gs82) (w : Nat) :
    encodeString (escape raw) w = .ok (layout (textLayout 7 raw ++ [(w - 7 * raw.length, 0)])) := by
  have h' : ∀ c ∈ raw, c.toNat < 128 := fun c hc => gs82_lt (h c hc)
  rw [encodeString_escape, layout_append, layout_seven h', layout_cons, layout_nil, bitsOf_zero, List.append_nil]
  unfold padRight
  rw [length_code7 h']

theorem part_layout_text {t : List Row} {W : Nat} (ht : StdTable t) (hK : ∀ r ∈ t, 3 + r.M + r.N = W)
    {C raw : Str} (hC : Digits C) (hraw : ∀ c ∈ raw, c ∈ gs82) (h1 : 6 ≤ C.length) (h2 : C.length ≤ 12) :
    encodePartitionTable C (escape raw) t .string = .ok (layout ([(3, 12 - C.length), (prefixBits C.length, number C)] ++
      textLayout 7 raw ++ [(W - 3 - prefixBits C.length - 7 * raw.length, 0)])) := by
  obtain ⟨r, hr, hL, hP, hM⟩ := ht.rowL h1 h2
  have w2 := hK r hr
  have hN : W - 3 - r.M = r.N := by omega
  rw [part_start ht.1 hr hC hL hP hM (d := layout (textLayout 7 raw ++ [(r.N - 7 * raw.length, 0)]))
    (by unfold encodeRef; exact text_layout hraw r.N)]
  simp only [layout_append, layout_cons, layout_nil, List.append_assoc, List.append_nil]
  rw [← hM, hN]

theorem part_layout_six {t : List Row} (ht : StdTable t)
    {C raw : Str} (hC : Digits C) (hraw : ∀ c ∈ raw, c ∈ gs39) (h1 : 6 ≤ C.length) (h2 : C.length ≤ 12) :
    encodePartitionTable C (escape39 raw) t .sixBit = .ok (layout ([(3, 12 - C.length), (prefixBits C.length, number C)] ++
      textLayout 6 raw ++ [(6, 0)])) := by
  obtain ⟨r, hr, hL, hP, hM⟩ := ht.rowL h1 h2
  rw [part_start ht.1 hr hC hL hP hM (d := code6 raw ++ py "000000") (by unfold encodeRef; exact encodeSix_escape hraw)]
  simp only [layout_append, layout_cons, layout_nil, List.append_assoc, List.append_nil, layout_six]
  rfl

end Epc
