/-
C02: integers survive the bit-string encoding.
-/
import Verif.Lemmas.Bridge

namespace Epc
open Spec

/-- `binary_to_int(int_to_binary(n, w)) == n`. -/
theorem C02_int_roundtrip (n w : Nat) : binaryToInt (intToBinary n w) = .ok (n : Int) := by
  rw [intToBinary_ofNat, binaryToInt, pyInt_bin]

/-- The encoding consists of zeros and ones. -/
theorem C02_int_bits (n w : Nat) : Bits (intToBinary n w) := by
  rw [intToBinary_ofNat]; exact Bits_bin w n

/-- It has exactly `w` characters if the number fits. -/
theorem C02_int_length (n w : Nat) (hw : 0 < w) (h : n < 2 ^ w) : (intToBinary n w).length = w := by
  rw [intToBinary_ofNat, length_bin hw h]

/-- It is longer if the number does not fit. -/
theorem C02_int_overflow (n w : Nat) (hw : 0 < w) (h : 2 ^ w ≤ n) : w < (intToBinary n w).length := by
  rw [intToBinary_ofNat]; exact lt_length_bin hw h

/-- Every non-empty bit string is the encoding of the number it denotes. -/
theorem C02_bits_roundtrip (b : Str) (hb : Bits b) (hne : b ≠ []) :
    binaryToInt b = .ok (bitsNumber b : Int) ∧ intToBinary (bitsNumber b) b.length = b := by
  have hc := (bits_iff b).1 hb
  rw [intToBinary_ofNat, bitsNumber_eq hb, bin_digVal hc hne, binaryToInt, pyInt_bits hc hne]
  exact ⟨rfl, rfl⟩

/-- The digit-string variant: `str_to_binary(s, w)` is the encoding of the number `s` denotes. -/
theorem C02_str_to_binary (s : Str) (w : Nat) (hs : Digits s) (hne : s ≠ []) :
    strToBinary s w = .ok (intToBinary (number s) w) := by
  rw [strToBinary_decimal (isDecimal_of_Digits hs) hne, decVal_Digits hs, intToBinary_ofNat]

/-- The order of numbers is the lexicographic value of the bits, so two numbers never share an encoding. -/
theorem C02_int_injective (m n w : Nat) (h : intToBinary m w = intToBinary n w) : m = n := by
  rw [intToBinary_ofNat, intToBinary_ofNat] at h; exact bin_inj h

example : intToBinary 5 8 = py "00000101" ∧ intToBinary 300 8 = py "100101100" := by decide +kernel
example : Bits (py "0010") ∧ py "0010" ≠ [] ∧ bitsNumber (py "0010") = 2 := by unfold Bits; decide +kernel

end Epc
