/-
Calls of the output methods with members of other enumerations (`Spec/Source`, `Spec/Program`: everything is executed from the source).
-/
import Verif.Spec.Program
import Verif.Spec.Layout

namespace Epc.Src
open Spec Grammar

/-- The keyword arguments of `tag_uri`, `binary`, `hex` and `base64`; those of GID have no filter value. -/
def tagArgs (c : Cls) (s v : Val) : List (Nm × Val) :=
  if c = .gid then [(.binary_coding_scheme, s)] else [(.binary_coding_scheme, s), (.filter_value, v)]

/-- The filter value `f` in a tag URI. -/
def filterText (c : Cls) (f : Nat) : Str := if c = .gid then [] else natStr f ++ ['.']

/-- What a tag URI repeats of the pure identity URI: what comes after the fourth colon; of a GIAI only up to the next colon. -/
def tagBody (c : Cls) (u : Str) : Str := if c = .giai then (afterColons 4 u).takeWhile (· ≠ ':') else afterColons 4 u

/-- The number of bits of the filter value. -/
def filterBits : Cls → Nat
  | .usdod => 4
  | .adi => 6
  | _ => 3

/-- The calls `o.m(...)` with a coding scheme of another class whose value is `name`: `tag_uri` writes the name down, in a text that
the class itself refuses to read; `binary`, `hex` and `base64` raise KeyError. -/
def ForeignCall (c : Cls) (o : Val) (u : Str) (s : Val) (name : Str) (f : Nat) (v : Val) : Prop :=
  invoke o .tag_uri [] (tagArgs c s v) = .ok (.str (py "urn:epc:tag:" ++ name ++ ':' :: (filterText c f ++ tagBody c u))) ∧
  invoke (.cls (clOf c)) .from_tag_uri [.str (py "urn:epc:tag:" ++ name ++ ':' :: (filterText c f ++ tagBody c u))] [] = .error (.err .convert) ∧
  ∀ m ∈ [Nm.binary, .hex, .base64], invoke o m [] (tagArgs c s v) = .error (.err .key)

/-- The binary for the filter value `f` (the member `v`) is the binary for 0 (the member `v0`), with the filter value in as many bits as the field
has or, if there are too few, as `f` needs. -/
def Widened (c : Cls) (o : Val) (s : Val) (f : Nat) (v v0 : Val) : Prop :=
  ∀ b, invoke o .binary [] (tagArgs c s v) = .ok (.str b) → ∃ b0, invoke o .binary [] (tagArgs c s v0) = .ok (.str b0) ∧
    ∀ w, filterBits c ≤ w → f < 2 ^ w → (w = filterBits c ∨ 2 ^ (w - 1) ≤ f) →
      b = b0.take 8 ++ bitsOf w f ++ b0.drop (8 + filterBits c) ∧ b.length = b0.length + (w - filterBits c)

/-- The tag URI for the filter value `v` is read back as the object. -/
def ReadBack (c : Cls) (o : Val) (s v : Val) : Prop :=
  ∀ t, invoke o .tag_uri [] (tagArgs c s v) = .ok (.str t) → invoke (.cls (clOf c)) .from_tag_uri [.str t] [] = .ok o

end Epc.Src
