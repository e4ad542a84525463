/-
Lemmas for C71: the bits of a tag that was read and is written again.
-/
import Verif.Lemmas.Layout
import Verif.Lemmas.LayoutEnc
import Verif.Spec.Encode

namespace Epc
open Spec Re

theorem bitsOf_bitField {b : Str} (hB : Bits b) {lo k : Nat} (h : lo + k ≤ b.length) : bitsOf k (bitField b lo k) = (b.drop lo).take k := by
  by_cases hk : k = 0
  · subst hk; rfl
  · rw [← bin_bitsOf (by omega) (bitField_lt hB h)]
    exact bin_bitsNumber (bits_take (bits_drop hB lo) k) (field_length h) (by omega)

theorem take_add_field (b : Str) (lo k : Nat) : b.take lo ++ (b.drop lo).take k = b.take (lo + k) := by
  rw [List.take_add]

/-- Header, filter value, partition value and company prefix. -/
theorem layout_prefix {b : Str} (hB : Bits b) {hd f p : Nat} {C : Str} (hh : bitsOf 8 hd = b.take 8) (hf : f = bitField b 8 3)
    (hp : p ≤ 6) (ep : bitField b 11 3 = p) (hC : Padded (12 - p) (bitField b 14 (prefixBits (12 - p))) C)
    (hl : 14 + prefixBits (12 - p) ≤ b.length) (l : List (Nat × Nat)) :
    layout ([(8, hd), (3, f), (3, 12 - C.length), (prefixBits C.length, number C)] ++ l) = b.take (14 + prefixBits (12 - p)) ++ layout l := by
  obtain ⟨_, hCl, hCn⟩ := hC
  simp only [List.cons_append, List.nil_append, layout_cons]
  rw [hh, hf, bitsOf_bitField hB (by omega), hCl, show 12 - (12 - p) = p by omega, ← ep, bitsOf_bitField hB (by omega), hCn, ep,
    bitsOf_bitField hB (by omega), ← List.append_assoc, take_add_field, ← List.append_assoc, take_add_field, ← List.append_assoc, take_add_field]

theorem layout_key {b : Str} (hB : Bits b) {hd f W : Nat} {K : Nat → Nat} {C D : Str} (hh : bitsOf 8 hd = b.take 8) (hf : f = bitField b 8 3)
    (hF : KeyFields b W K C D) (hK : ∀ p, K p ≠ 0) (hW : 43 ≤ W) (hl : 11 + W ≤ b.length) (l : List (Nat × Nat)) :
    layout ([(8, hd), (3, f)] ++ keyLayout W C D ++ l) = b.take (11 + W) ++ layout l := by
  obtain ⟨p, hp, ep, hC, hD⟩ := hF
  rw [if_neg (hK p)] at hD
  have hpb : prefixBits (12 - p) ≤ 40 := by
    have : ∀ p ≤ 6, prefixBits (12 - p) ≤ 40 := by decide
    exact this p hp
  have := layout_prefix hB hh hf hp ep hC (by omega) ([(W - 3 - prefixBits C.length, number D)] ++ l)
  simp only [keyLayout, List.cons_append, List.nil_append] at this ⊢
  rw [this, layout_cons, hC.2.1, hD.2.2, bitsOf_bitField hB (by omega), ← List.append_assoc, take_add_field]
  congr 2; omega

theorem layout_key_zero {b : Str} (hB : Bits b) {hd f W : Nat} {C D : Str} (hh : bitsOf 8 hd = b.take 8) (hf : f = bitField b 8 3)
    (hF : KeyFields b W (fun p => p) C D) (hW : 43 ≤ W) (hl : 11 + W ≤ b.length) (l : List (Nat × Nat)) :
    layout ([(8, hd), (3, f)] ++ keyLayout W C D ++ l) = usedKeyBits b W ++ layout l := by
  obtain ⟨p, hp, ep, hC, hD⟩ := hF
  have hpb : prefixBits (12 - p) ≤ 40 := by
    have : ∀ p ≤ 6, prefixBits (12 - p) ≤ 40 := by decide
    exact this p hp
  have := layout_prefix hB hh hf hp ep hC (by omega) ([(W - 3 - prefixBits C.length, number D)] ++ l)
  unfold usedKeyBits
  simp only [keyLayout, List.cons_append, List.nil_append] at this ⊢
  by_cases h0 : p = 0
  · subst h0
    rw [if_pos rfl] at hD
    subst hD
    rw [this, layout_cons, hC.2.1, if_pos ep, show number [] = 0 from rfl, bitsOf_zero, List.append_assoc]
    rfl
  · rw [if_neg h0] at hD
    rw [this, layout_cons, hC.2.1, hD.2.2, bitsOf_bitField hB (by omega), ← List.append_assoc, take_add_field, if_neg (by rw [ep]; exact h0)]
    congr 2; omega

theorem length_textLayout (g : Nat) (raw : Str) : (layout (textLayout g raw)).length = g * raw.length := by
  induction raw with
  | nil => rfl
  | cons c raw ih =>
    show (layout ((g, c.toNat % 2 ^ g) :: textLayout g raw)).length = _
    rw [layout_cons, List.length_append, length_bitsOf, ih, List.length_cons, Nat.mul_succ]; omega

theorem layout_text_fill (w : Nat) (raw : Str) : layout (textLayout 7 raw ++ [(w - 7 * raw.length, 0)]) = fillRight w (layout (textLayout 7 raw)) := by
  rw [layout_append, fillRight, length_textLayout, layout_cons, bitsOf_zero]
  show _ ++ (_ ++ layout []) = _
  rw [show layout [] = [] from rfl, List.append_nil]

private theorem toNat_ofNat_lt {n : Nat} (h : n < 128) : (Char.ofNat n).toNat = n := by
  have : ∀ m : Fin 128, (Char.ofNat m.val).toNat = m.val := by decide
  exact this ⟨n, h⟩

theorem sevenText_nil_iff (b : Str) : ∀ k lo : Nat, sevenText b lo k = [] ↔ ∀ j < k, bitField b (lo + 7 * j) 7 = 0
  | 0, _ => by simp [sevenText]
  | k + 1, lo => by
    rw [sevenText]
    constructor
    · intro h
      split at h
      case isFalse => cases h
      case isTrue h0 =>
        intro j hj
        cases j with
        | zero => exact h0
        | succ j =>
          have := (sevenText_nil_iff b k (lo + 7)).1 h j (by omega)
          rw [← this]; congr 1; omega
    · intro h
      rw [if_pos (show bitField b lo 7 = 0 from h 0 (by omega))]
      refine (sevenText_nil_iff b k (lo + 7)).2 fun j hj => ?_
      rw [← h (j + 1) (by omega)]; congr 1; omega

theorem sevenText_codes {b : Str} (hB : Bits b) : ∀ k lo : Nat, lo + 7 * k ≤ b.length → ∀ c ∈ sevenText b lo k, 1 ≤ c.toNat ∧ c.toNat < 128
  | 0, _, _ => by simp [sevenText]
  | k + 1, lo, h => by
    intro c hc
    rw [sevenText] at hc
    split at hc
    · exact sevenText_codes hB k (lo + 7) (by omega) c hc
    · rename_i h0
      rcases List.mem_cons.1 hc with rfl | hc
      · have := bitField_lt hB (lo := lo) (k := 7) (by omega)
        rw [toNat_ofNat_lt (by omega)]
        omega
      · exact sevenText_codes hB k (lo + 7) (by omega) c hc

theorem zero_groups {b : Str} (hB : Bits b) : ∀ k lo : Nat, lo + 7 * k ≤ b.length → (∀ j < k, bitField b (lo + 7 * j) 7 = 0) →
    (b.drop lo).take (7 * k) = List.replicate (7 * k) '0'
  | 0, _, _, _ => by simp
  | k + 1, lo, h, hz => by
    have h1 := bitsOf_bitField hB (lo := lo) (k := 7) (by omega)
    have h2 := zero_groups hB k (lo + 7) (by omega) fun j hj => by rw [← hz (j + 1) (by omega)]; congr 1; omega
    rw [show 7 * (k + 1) = 7 + 7 * k by omega, List.take_add, ← h1, List.drop_drop, h2, show bitField b lo 7 = 0 from hz 0 (by omega), bitsOf_zero,
      List.replicate_append_replicate]

/-- The text stays where it is exactly if no group of zeros stands before another group. -/
theorem compact_iff {b : Str} (hB : Bits b) : ∀ k lo : Nat, lo + 7 * k ≤ b.length →
    (compactText b lo k (7 * k) = (b.drop lo).take (7 * k) ↔
      ∀ i j, i < j → j < k → bitField b (lo + 7 * i) 7 = 0 → bitField b (lo + 7 * j) 7 = 0)
  | 0, _, _ => by simp [compactText, sevenText, fillRight, textLayout, layout]
  | k + 1, lo, h => by
    have h1 := bitsOf_bitField hB (lo := lo) (k := 7) (by omega)
    have e : (b.drop lo).take (7 * (k + 1)) = (b.drop lo).take 7 ++ (b.drop (lo + 7)).take (7 * k) := by
      rw [show 7 * (k + 1) = 7 + 7 * k by omega, List.take_add, List.drop_drop]
    by_cases h0 : bitField b lo 7 = 0
    · have ht : sevenText b lo (k + 1) = sevenText b (lo + 7) k := by rw [sevenText, if_pos h0]
      have hiff : (∀ i j, i < j → j < k + 1 → bitField b (lo + 7 * i) 7 = 0 → bitField b (lo + 7 * j) 7 = 0) ↔ sevenText b lo (k + 1) = [] := by
        rw [sevenText_nil_iff]
        constructor
        · intro H j hj
          cases j with
          | zero => exact h0
          | succ j => exact H 0 (j + 1) (by omega) hj h0
        · exact fun H i j _ hj _ => H j hj
      rw [hiff]
      constructor
      · intro hc
        cases hT : sevenText b lo (k + 1) with
        | nil => rfl
        | cons c T =>
          exfalso
          have hcc := sevenText_codes hB (k + 1) lo h c (by rw [hT]; exact List.mem_cons_self ..)
          rw [compactText, hT] at hc
          have h7 := congrArg (List.take 7) hc
          rw [show layout (textLayout 7 (c :: T)) = bitsOf 7 (c.toNat % 2 ^ 7) ++ layout (textLayout 7 T) from rfl, fillRight, List.append_assoc,
            List.take_left' (length_bitsOf _ _), List.take_take, show min 7 (7 * (k + 1)) = 7 by omega, ← h1, h0] at h7
          have := congrArg bitsNumber h7
          rw [bitsNumber_bitsOf, bitsNumber_bitsOf] at this
          omega
      · intro hT
        rw [compactText, hT, zero_groups hB _ _ h ((sevenText_nil_iff b _ _).1 hT)]
        rfl
    · have ht : sevenText b lo (k + 1) = Char.ofNat (bitField b lo 7) :: sevenText b (lo + 7) k := by rw [sevenText, if_neg h0]
      have hlt := bitField_lt hB (lo := lo) (k := 7) (by omega)
      have ec : compactText b lo (k + 1) (7 * (k + 1)) = (b.drop lo).take 7 ++ compactText b (lo + 7) k (7 * k) := by
        unfold compactText
        rw [ht, show layout (textLayout 7 (Char.ofNat (bitField b lo 7) :: sevenText b (lo + 7) k)) =
          bitsOf 7 ((Char.ofNat (bitField b lo 7)).toNat % 2 ^ 7) ++ layout (textLayout 7 (sevenText b (lo + 7) k)) from rfl,
          toNat_ofNat_lt (by omega), Nat.mod_eq_of_lt hlt, h1, fillRight, fillRight, List.append_assoc, List.length_append, field_length (by omega)]
        congr 3; omega
      rw [ec, e, List.append_cancel_left_eq, compact_iff hB k (lo + 7) (by omega)]
      constructor
      · intro H i j hij hj hz
        cases i with
        | zero => exact absurd hz h0
        | succ i =>
          cases j with
          | zero => omega
          | succ j =>
            have := H i j (by omega) (by omega) (by rw [← hz]; congr 1; omega)
            rw [← this]; congr 1; omega
      · intro H i j hij hj hz
        have := H (i + 1) (j + 1) (by omega) (by omega) (by rw [← hz]; congr 1; omega)
        rw [← this]; congr 1; omega

end Epc
