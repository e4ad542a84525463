/-
Specification vocabulary: the six notations for an object.
-/
import Verif.Model.Parsers

namespace Epc.Spec

/-- The first two hexadecimal digits of the hexadecimal encodings. -/
def hexHeaderList : List Str :=
  [py "2C", py "2D", py "2E", py "2F", py "30", py "31", py "32", py "33", py "34", py "35", py "36", py "37", py "38", py "39", py "3B", py "3C", py "3D", py "3E", py "3F", py "40", py "41"]

/-- The string `s`, with company prefix length `n`, denotes the object `x` of class `c` in one of the six notations. -/
def Denotes (c : Cls) (x : Scheme) (s : Str) (n : Option Int) : Prop :=
  -- a pure identity URI
  c.new s = .ok x ∨
  -- a GS1 element string, if a company prefix length is given
  (∃ m, n = some m ∧ m ≠ 0 ∧ c.fromGs1ElementString s m = .ok x) ∨
  -- a tag URI
  c.fromTagUri s = .ok x ∨
  -- a pure identity pattern: a pure identity URI with `idpat` in the place of `id`
  (∃ b, s = py "urn:epc:idpat:" ++ b ∧ c.new (py "urn:epc:id:" ++ b) = .ok x) ∨
  -- a binary encoding
  (s.take 8 ∈ c.binaryHeaders ∧ c.fromBinary s = .ok x) ∨
  -- a hexadecimal encoding
  ((s.take 2).map upperChar ∈ hexHeaderList ∧ ∃ b, hexToBinary s = .ok b ∧ b.take 8 ∈ c.binaryHeaders ∧ c.fromBinary b = .ok x)

end Epc.Spec
