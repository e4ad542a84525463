/-
Specification vocabulary: hexadecimal and base64 text as bits, for arbitrary input.
-/
import Verif.Spec.Encode
import Verif.Spec.Script

namespace Epc.Spec

/-- A text of at least one hexadecimal digit and nothing else; the letters may have either case, the decimal digits may be of any script. -/
def HexString (s : Str) : Prop := s ≠ [] ∧ ∀ c ∈ asciiDigits s, c ∈ py "0123456789abcdefABCDEF"

/-- The bits of such a text, four per digit. -/
def hexStringBits (s : Str) : Str := layout ((asciiDigits s).map fun c => (4, hexVal c))

/-- The base64 alphabet, in the order of the values. -/
def base64Alphabet : Str := py "ABCDEFGHIJKLMNOPQRSTUVWXYZabcdefghijklmnopqrstuvwxyz0123456789+/"

/-- The characters of a text that belong to the base64 alphabet; all others do not count. -/
def base64Chars (s : Str) : Str := s.filter (· ∈ base64Alphabet)

/-- The bits of a text in the base64 alphabet, six per character, without the bits left over behind the last whole byte. -/
def base64Bits (d : Str) : Str := (layout (d.map fun c => (6, base64Alphabet.idxOf c))).take (6 * d.length / 8 * 8)

end Epc.Spec
