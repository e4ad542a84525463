/-
C10: the GSIN check digit follows the GS1 algorithm.
-/
import Verif.Lemmas.Numeric
import Verif.Model.Gsin

namespace Epc
open Spec

/-- For digit strings of even length (a GSIN body has 16 digits) the routine in `gsin.py` returns the GS1 check digit. -/
theorem C10_gsin_check_digit (s : Str) (hs : Digits s) (hl : s.length % 2 = 0) :
    ∃ d, GSIN.checksum s = .ok d ∧ d < 10 ∧ gs1Sum (digitValues s ++ [d]) % 10 = 0 ∧
      ∀ e, e < 10 → gs1Sum (digitValues s ++ [e]) % 10 = 0 → e = d := by
  have h : GSIN.checksum s = .ok (checkDigit s) := by
    rw [← checksum_eq' hs]
    unfold GSIN.checksum calculateChecksum
    rw [mapM_digitInt hs, hl]; rfl
  refine ⟨checkDigit s, h, checkDigit_lt s, ?_, ?_⟩
  · rw [gs1Sum_check s _ (checkDigit_lt s)]
  · intro e he h
    rwa [gs1Sum_check s e he] at h

/-- So it agrees with the common routine; also on non-ASCII decimal digits and on errors. -/
theorem C10_gsin_agrees (s : Str) (hl : s.length % 2 = 0) : GSIN.checksum s = calculateChecksum s := by
  unfold GSIN.checksum calculateChecksum
  cases s.mapM digitInt with
  | error e => rfl
  | ok ds => simp only [hl, if_true]

/-- The two routines differ on odd lengths, so the restriction matters. -/
example : GSIN.checksum (py "123") ≠ calculateChecksum (py "123") := by decide +kernel
example : Digits (py "0614141123456789") ∧ (py "0614141123456789").length % 2 = 0 ∧
    GSIN.checksum (py "0614141123456789") = .ok 0 := by unfold Digits; decide +kernel

end Epc
