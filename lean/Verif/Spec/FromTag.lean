/-
Which objects read from a tag survive every chain of conversions: the conditions on their URIs.
-/
import Verif.Spec.Program

namespace Epc.Src
open Spec

/-- The serial number of an SGTIN has no two characters between parentheses and the extension of an SGLN no three, which would be taken for an application
identifier; the reference of a GIAI has no colon; the part number of an ADI has no six zero bits in a row before its end.  Nothing for the other classes. -/
def TagSafe : Cls → Str → Prop
  | .sgtin, u => ∀ C D raw, '.' ∉ C → '.' ∉ D → u = uri3 .sgtin C D (escape raw) → ¬ HasGroup 2 raw
  | .sgln, u => ∀ C D raw, '.' ∉ C → '.' ∉ D → u = uri3 .sgln C D (escape raw) → ¬ HasGroup 3 raw
  | .giai, u => ∀ C raw, '.' ∉ C → u = uri2 .giai C (escape raw) → ':' ∉ raw
  | .adi, u => ∀ C raw S, '.' ∉ C → (∀ c ∈ raw, c ∈ gs39) → u = uri3 .adi C (escape39 raw) S → ¬ EarlyTerminator raw
  | _, _ => True

/-- The headers of SGTIN-198, SGLN-195, GIAI-202 and ADI. -/
def textHeaders : List Str := [py "00110110", py "00111001", py "00111000", py "00111011"]

end Epc.Src
