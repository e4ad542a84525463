/-
Specification vocabulary: how a serial number is written in a URI.
-/
import Verif.Spec.Basic

namespace Epc.Spec

/-- What a free-form serial may look like in a URI: not empty, only characters of the GS1 set 82 with `"`, `&`, `/`, `<`, `>`, `?` left out
(they have to be escaped), and a hexadecimal digit after every percent sign. -/
def SerialText (s : Str) : Prop :=
  s ≠ [] ∧ (∀ c ∈ s, c ∈ gs82 ∧ c ∉ py "\"&/<>?") ∧
  ∀ a b, s = a ++ '%' :: b → ∃ h t, b = h :: t ∧ h ∈ py "0123456789abcdefABCDEF"

/-- Every percent sign followed by two decimal digits is the escape of a character of the GS1 set 82. -/
def DigitEscapes (s : Str) : Prop :=
  ∀ a d e b, s = a ++ '%' :: d :: e :: b → d ∈ py "0123456789" → e ∈ py "0123456789" →
    ∃ c ∈ gs82, c.toNat = 16 * (d.toNat - 48) + (e.toNat - 48)

end Epc.Spec

namespace Epc.Spec

/-- The escapes of TDS for serial numbers: the two characters after the percent sign and the character they stand for. -/
def uriEscapes : List ((Char × Char) × Char) :=
  [(('2', '5'), '%'), (('3', 'F'), '?'), (('3', 'E'), '>'), (('3', 'C'), '<'), (('2', 'F'), '/'), (('2', '6'), '&'), (('2', '2'), '"')]

/-- Read a text from left to right and replace the escapes of the list. -/
def unescapeWith (k : List ((Char × Char) × Char)) : Str → Str
  | [] => []
  | [c] => [c]
  | [c, d] => [c, d]
  | c :: a :: b :: t =>
    if c = '%' then
      match k.lookup (a, b) with
      | some r => r :: unescapeWith k t
      | none => c :: unescapeWith k (a :: b :: t)
    else c :: unescapeWith k (a :: b :: t)

end Epc.Spec
