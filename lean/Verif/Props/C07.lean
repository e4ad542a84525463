/-
C07: the numeric-string codec keeps leading zeros.
-/
import Verif.Lemmas.Numeric

namespace Epc
open Spec

/-- Every non-empty digit string the encoder accepts comes back with its leading zeros; the encoding has exactly `w` bits. -/
theorem C07_numeric_string_roundtrip (s b : Str) (w : Nat) (hs : Digits s) (hne : s ≠ [])
    (h : encodeNumericString s w = .ok b) : decodeNumericString b = .ok s ∧ b.length = w ∧ Bits b := by
  by_cases hw : 2 * 10 ^ s.length ≥ 2 ^ w
  · unfold encodeNumericString at h; rw [if_pos hw] at h; cases h
  · have hw : 2 * 10 ^ s.length < 2 ^ w := by omega
    rw [encodeNumeric_ok hs hw] at h
    cases h
    have hp : 1 ≤ 2 * 10 ^ s.length := by
      have : 0 < 10 ^ s.length := Nat.pow_pos (by decide)
      omega
    exact ⟨decodeNumeric_ok hs hne, length_bin (pos_of_lt_pow hp hw) (numeric_lt hs hw), Bits_bin _ _⟩

/-- Exactly the digit strings that fit are accepted; in particular all serials of at most 12 digits for 41 bits. -/
theorem C07_numeric_string_accepts (s : Str) (w : Nat) (hs : Digits s) :
    (∃ b, encodeNumericString s w = .ok b) ↔ 2 * 10 ^ s.length < 2 ^ w := by
  constructor
  · rintro ⟨b, h⟩
    by_cases hw : 2 * 10 ^ s.length ≥ 2 ^ w
    · unfold encodeNumericString at h; rw [if_pos hw] at h; cases h
    · omega
  · intro hw; exact ⟨_, encodeNumeric_ok hs hw⟩

theorem C07_numeric_string_12 (s : Str) (hs : Digits s) (hl : s.length ≤ 12) : ∃ b, encodeNumericString s 41 = .ok b := by
  rw [C07_numeric_string_accepts s 41 hs]
  have : 10 ^ s.length ≤ 10 ^ 12 := Nat.pow_le_pow_right (by decide) hl
  have e : 2 * 10 ^ 12 < 2 ^ 41 := by decide
  omega

/-- The rest raise `ConvertException`. -/
theorem C07_numeric_string_rejects (s : Str) (w : Nat) (h : 2 ^ w ≤ 2 * 10 ^ s.length) :
    encodeNumericString s w = .error .convert := by
  unfold encodeNumericString; rw [if_pos h]

example : Digits (py "0042") ∧ (encodeNumericString (py "0042") 41).bind decodeNumericString = .ok (py "0042") := by
  unfold Digits; decide +kernel
/-- The empty string is accepted by the encoder but not by the decoder. -/
example : (encodeNumericString [] 41).bind decodeNumericString = .error .convert := by decide +kernel

end Epc
