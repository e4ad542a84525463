/-
Specification vocabulary, independent of the model of the code: digit strings, bit strings, the GS1
character set, canonical escaping, the GS1 weighted sum.  Only the type `Str` (list of characters) and
`py "..."` literals are shared with the model.
-/
import Verif.Py.Basic

namespace Epc.Spec

/-- All characters are ASCII. -/
def Ascii (s : Str) : Prop := ∀ c ∈ s, c.toNat < 128

instance (s : Str) : Decidable (Ascii s) := by unfold Ascii; infer_instance

/-- A string of ASCII digits (possibly empty). -/
def Digits (s : Str) : Prop := ∀ c ∈ s, c ∈ py "0123456789"

instance (s : Str) : Decidable (Digits s) := by unfold Digits; infer_instance

/-- A string of zeros and ones. -/
def Bits (s : Str) : Prop := ∀ c ∈ s, c = '0' ∨ c = '1'

instance (s : Str) : Decidable (Bits s) := by unfold Bits; infer_instance

/-- A string of hexadecimal digits. -/
def HexDigits (s : Str) : Prop := ∀ c ∈ s, c ∈ py "0123456789abcdefABCDEF"

/-- The number a string of ASCII digits denotes. -/
def number (s : Str) : Nat := s.foldl (fun n c => 10 * n + (c.toNat - 48)) 0

/-- The number a bit string denotes, most significant bit first. -/
def bitsNumber (s : Str) : Nat := s.foldl (fun n c => 2 * n + (if c = '1' then 1 else 0)) 0

/-- GS1 AI encodable character set 82, minus none: the characters a serial number may contain. -/
def gs82 : Str := py "!\"%&'()*+,-./0123456789:;<=>?ABCDEFGHIJKLMNOPQRSTUVWXYZ_abcdefghijklmnopqrstuvwxyz"

/-- The URI form of a character: seven characters are written as a percent escape. -/
def escChar (c : Char) : Str :=
  if c = '"' then py "%22"
  else if c = '%' then py "%25"
  else if c = '&' then py "%26"
  else if c = '/' then py "%2F"
  else if c = '<' then py "%3C"
  else if c = '>' then py "%3E"
  else if c = '?' then py "%3F"
  else [c]

/-- The URI form of a text. -/
def escape (raw : Str) : Str := raw.flatMap escChar

/-- A serial number in the canonical URI form of TDS: the escaped form of a non-empty text over the GS1 character set 82. -/
def Canonical (s : Str) : Prop := ∃ raw, raw ≠ [] ∧ (∀ c ∈ raw, c ∈ gs82) ∧ s = escape raw

/-- GS1 character set 39 (component/part references). -/
def gs39 : Str := py "#-/0123456789ABCDEFGHIJKLMNOPQRSTUVWXYZ"

/-- The URI form of a character of a component/part reference: `#` and `/` are escaped. -/
def escChar39 (c : Char) : Str :=
  if c = '#' then py "%23" else if c = '/' then py "%2F" else [c]

/-- The URI form of a component/part reference. -/
def escape39 (raw : Str) : Str := raw.flatMap escChar39

/-- The GS1 weighted sum of a list of digits: weights 1, 3, 1, 3, ... counted from the right. -/
def gs1Sum (ds : List Nat) : Nat :=
  (ds.reverse.zipIdx.map (fun p => if p.2 % 2 = 0 then p.1 else 3 * p.1)).sum

/-- The digits of a digit string as numbers. -/
def digitValues (s : Str) : List Nat := s.map (fun c => c.toNat - 48)

/-- The check digit at the end of a digit string is right. -/
def CheckDigitOk (s : Str) : Prop := gs1Sum (digitValues s) % 10 = 0

end Epc.Spec
