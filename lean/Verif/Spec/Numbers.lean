/-
Decimal integers.
-/
import Verif.Spec.Digits

namespace Epc.Spec

/-- `s` is the decimal form of the integer `k`: a numeral without superfluous zeros, with a minus sign in front of negative numbers. -/
def WritesInt (s : Str) (k : Int) : Prop :=
  ∃ d, Numeral d ∧ (s = d ∧ k = number d ∨ s = '-' :: d ∧ k = -(number d : Int) ∧ k < 0)

end Epc.Spec
