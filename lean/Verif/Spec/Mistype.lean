/-
Specification vocabulary: mistyped digits, and where the digits protected by a check digit stand.
-/
import Verif.Spec.Key
import Verif.Model.Parsers

namespace Epc.Spec

/-- `t` is `s` with another digit in one place. -/
def OneDigit (s t : Str) : Prop := ∃ a d d' b, s = a ++ d :: b ∧ t = a ++ d' :: b ∧ decimalVal d ≠ decimalVal d'

/-- `t` is `s` with two neighbouring digits, `v` and `w`, interchanged. -/
def Interchanged (v w : Nat) (s t : Str) : Prop :=
  ∃ a d e b, s = a ++ d :: e :: b ∧ t = a ++ e :: d :: b ∧ decimalVal d = some v ∧ decimalVal e = some w

/-- The number of digits at the start of the GS1 key of the class that end with a check digit. -/
def keyDigits : Cls → Option Nat
  | .sgtin | .lgtin => some 14
  | .sscc | .gsrn | .gsrnp => some 18
  | .gsin => some 17
  | .sgln | .pgln | .grai | .gdti | .sgcn => some 13
  | _ => none

/-- The place of these digits in the element string of the class: how many characters are in front of them, how many digits they are. -/
def keyPlace : Cls → Option (Nat × Nat)
  | .sgtin | .lgtin | .upui => some (4, 14)
  | .sscc => some (4, 18)
  | .gsrn | .gsrnp => some (6, 18)
  | .gsin => some (5, 17)
  | .sgln | .pgln | .gdti | .sgcn => some (5, 13)
  | .grai => some (7, 13)
  | _ => none

end Epc.Spec
