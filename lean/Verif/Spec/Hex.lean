/-
Specification of hexadecimal text as bits.
-/
import Verif.Spec.Basic

namespace Epc.Spec

/-- A string of hexadecimal digits without lower-case letters. -/
def UpperHex (s : Str) : Prop := ∀ c ∈ s, c ∈ py "0123456789ABCDEF"

/-- The value of an upper-case hexadecimal digit. -/
def hexDigit (c : Char) : Nat := if c.toNat ≤ 57 then c.toNat - 48 else c.toNat - 55

/-- The four bits of a hexadecimal digit. -/
def nibble (c : Char) : Str := [8, 4, 2, 1].map fun w => if hexDigit c / w % 2 = 1 then '1' else '0'

/-- The bits of a hexadecimal text, four per digit. -/
def hexBits (h : Str) : Str := h.flatMap nibble

/-- The number of zero bits that bring `n` bits to a multiple of 16. -/
def wordPad (n : Nat) : Nat := (16 - n % 16) % 16

end Epc.Spec
