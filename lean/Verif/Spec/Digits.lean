/-
Specification vocabulary for digit strings as Python's `\d` understands them (decimal digits of any script), and for numerals.
Shared with the model: only `decimalVal`, the table of Unicode decimal digits.
-/
import Verif.Py.Int
import Verif.Spec.Basic

namespace Epc.Spec

/-- Decimal digits of any script, what `\d` matches in Python. -/
def UDigits (s : Str) : Prop := ∀ c ∈ s, ∃ d, decimalVal c = some d

/-- The number a string of decimal digits of any script denotes. -/
def unumber (s : Str) : Nat := s.foldl (fun n c => 10 * n + (decimalVal c).getD 0) 0

/-- A numeral without superfluous zero; digits after the first may be of any script. -/
def UNumeral (s : Str) : Prop := s = py "0" ∨ ∃ c t, s = c :: t ∧ c ∈ py "123456789" ∧ UDigits t

/-- A decimal numeral in ASCII digits without superfluous leading zero. -/
def Numeral (s : Str) : Prop := Digits s ∧ s ≠ [] ∧ ¬ (1 < s.length ∧ s.head? = some '0')

/-- The characters of a CAGE code or DoDAAC. -/
def cageChars : Str := py "0123456789ABCDEFGHJKLMNPQRSTUVWXYZ"

/-- The letters of a BIC owner code. -/
def bicLetters : Str := py "ABCDEFGHJKLMNPQRSTUVWXYZ"

end Epc.Spec

namespace Epc.Spec

/-- The restriction `verify_gs3a3_component` puts on a serial in addition to TDS, stated on the unescaped text: a character that is
escaped with a letter (`/`, `<`, `>`, `?`) at the very beginning, or right after a character that is escaped with two digits (`"`,
`%`, `&`), must be last or be followed by a character that is escaped with two digits. -/
def LoneLetterEscapes (raw : Str) : Prop :=
  ∀ a c b, raw = a ++ c :: b → c ∈ py "/<>?" → (a = [] ∨ ∃ a' d, a = a' ++ [d] ∧ d ∈ py "\"%&") →
    (b = [] ∨ ∃ d b', b = d :: b' ∧ d ∈ py "\"%&")

end Epc.Spec
