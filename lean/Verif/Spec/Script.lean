/-
Specification vocabulary: decimal digits of other scripts.
-/
import Verif.Spec.Digits

namespace Epc.Spec

/-- The ASCII digit of the same value, for a decimal digit of any script; every other character unchanged. -/
def asciiDigit (c : Char) : Char :=
  match decimalVal c with
  | some d => Char.ofNat (48 + d)
  | none => c

/-- A text with every decimal digit written as an ASCII digit. -/
def asciiDigits (s : Str) : Str := s.map asciiDigit

end Epc.Spec
