/-
C09: the GS1 check digit is correct and catches errors.
-/
import Verif.Lemmas.Numeric

namespace Epc
open Spec

/-- `calculate_checksum` returns a single digit that makes the GS1 weighted sum of the digits followed by it a multiple of 10, and
it is the only digit that does. -/
theorem C09_check_digit (s : Str) (hs : Digits s) :
    ∃ d, calculateChecksum s = .ok d ∧ d < 10 ∧ gs1Sum (digitValues s ++ [d]) % 10 = 0 ∧
      ∀ e, e < 10 → gs1Sum (digitValues s ++ [e]) % 10 = 0 → e = d := by
  refine ⟨checkDigit s, checksum_eq' hs, checkDigit_lt s, ?_, ?_⟩
  · rw [gs1Sum_check s _ (checkDigit_lt s)]
  · intro e he h
    rwa [gs1Sum_check s e he] at h

/-- Appending the check digit to the digits gives a digit string with a correct check digit. -/
theorem C09_check_digit_string (s : Str) (hs : Digits s) :
    ∃ d, calculateChecksum s = .ok d ∧ CheckDigitOk (s ++ natStr d) ∧ (natStr d).length = 1 := by
  refine ⟨checkDigit s, checksum_eq' hs, checkDigitOk_check s, ?_⟩
  rw [natStr_digit (checkDigit_lt s)]; rfl

/-- Changing one digit changes the check digit. -/
theorem C09_detects_single_change (a b : Str) (x y : Char) (hx : Digits (a ++ x :: b)) (hy : Digits (a ++ y :: b)) (hxy : x ≠ y) :
    calculateChecksum (a ++ x :: b) ≠ calculateChecksum (a ++ y :: b) := by
  intro h
  rw [checksum_eq hx, checksum_eq hy] at h
  injection h with h
  have mx := hx x (by simp)
  have my := hy y (by simp)
  have lx := digit_lt mx
  have ly := digit_lt my
  have hne : x.toNat - 48 ≠ y.toNat - 48 := fun e => hxy (digit_inj mx my e)
  simp only [digitValues_append, wsum_append] at h
  simp only [digitValues, List.map_cons, wsum, List.length_cons, List.length_map] at h
  by_cases hb : b.length % 2 = 0
  · simp only [hb, if_true] at h; omega
  · simp only [hb, if_false] at h; omega

/-- Swapping two adjacent digits changes the check digit unless they are equal or differ by exactly 5. -/
theorem C09_detects_adjacent_swap (a b : Str) (x y : Char) (hx : Digits (a ++ x :: y :: b)) :
    calculateChecksum (a ++ x :: y :: b) = calculateChecksum (a ++ y :: x :: b) ↔
      x = y ∨ x.toNat = y.toNat + 5 ∨ y.toNat = x.toNat + 5 := by
  have mx := hx x (by simp)
  have my := hx y (by simp)
  have hy : Digits (a ++ y :: x :: b) := by
    intro c hc
    apply hx c
    simp only [List.mem_append, List.mem_cons] at hc ⊢
    rcases hc with h | h | h | h <;> simp [h]
  rw [checksum_eq hx, checksum_eq hy]
  have lx := mx; have ly := my
  rw [mem_digits, isDigitA_iff] at lx ly
  have hxy : x = y ↔ x.toNat = y.toNat := char_eq_iff x y
  rw [hxy]
  simp only [digitValues_append, wsum_append]
  simp only [digitValues, List.map_cons, wsum, List.length_cons, List.length_map, Except.ok.injEq]
  by_cases hb : b.length % 2 = 0
  · have : ¬ (b.length + 1) % 2 = 0 := by omega
    simp only [hb, this, if_true, if_false]; omega
  · have : (b.length + 1) % 2 = 0 := by omega
    simp only [hb, this, if_true, if_false]; omega

/-- Non-digits are refused with a `ValueError`. -/
theorem C09_rejects_non_digit (a b : Str) (x : Char) (ha : Digits a) (hx : isDecimal x = false) :
    calculateChecksum (a ++ x :: b) = .error .value := by
  have hx' : digitInt x = .error .value := by
    unfold digitInt; unfold isDecimal at hx
    cases h : decimalVal x with
    | none => rfl
    | some d => rw [h] at hx; cases hx
  have : (a ++ x :: b).mapM digitInt = .error .value := by
    rw [List.mapM_append, mapM_digitInt ha]
    show ((x :: b).mapM digitInt >>= _) = _
    rw [List.mapM_cons, hx']; rfl
  unfold calculateChecksum
  rw [this]; rfl

/-- A GTIN-13 and its check digit. -/
example : Digits (py "400638133393") ∧ calculateChecksum (py "400638133393") = .ok 1 ∧
    CheckDigitOk (py "4006381333931") := by unfold Digits CheckDigitOk; decide +kernel
example : calculateChecksum (py "61") ≠ calculateChecksum (py "62") ∧ calculateChecksum (py "61") = calculateChecksum (py "16") := by
  decide +kernel

end Epc
