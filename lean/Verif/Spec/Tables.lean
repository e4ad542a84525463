/-
Specification vocabulary: the number of bits of a company prefix in the EPC binary encodings.
-/
import Verif.Spec.Digits

namespace Epc.Spec

/-- The width of the company prefix field for a company prefix of the given number of digits (TDS, the columns M and L of every
partition table). -/
def prefixBits : Nat → Nat
  | 12 => 40
  | 11 => 37
  | 10 => 34
  | 9 => 30
  | 8 => 27
  | 7 => 24
  | _ => 20

end Epc.Spec
