/-
Specification vocabulary for GS1 keys.
-/
import Verif.Spec.Digits

namespace Epc.Spec

/-- The check digit at the end of a string of decimal digits of any script is right. -/
def UCheckDigitOk (s : Str) : Prop := gs1Sum (s.map (fun c => (decimalVal c).getD 0)) % 10 = 0

/-- `k` is a numeric GS1 key of `n` digits: the digits `body` and the check digit that makes the weighted sum a multiple of 10.
If `body` is made of ASCII characters, then so is the key. -/
def KeyOf (n : Nat) (body k : Str) : Prop :=
  (∃ c, k = body ++ [c]) ∧ k.length = n ∧ UDigits k ∧ UCheckDigitOk k ∧ (Ascii body → Digits k ∧ CheckDigitOk k)

end Epc.Spec
