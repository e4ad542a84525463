/-
Specification vocabulary: what the binary encoder makes of an arbitrary serial number.
-/
import Verif.Spec.Layout
import Verif.Spec.Pieces

namespace Epc.Spec

/-- The number `n` in binary, filled with zeros on the left to `w` digits; with more digits if it needs them. -/
def atLeast (w n : Nat) : Str := bitsOf (max w (n.log2 + 1)) n

/-- The same for an integer: a negative one has a minus sign in front, which counts as a digit. -/
def signedBits (w : Nat) (i : Int) : Str := if i < 0 then '-' :: atLeast (w - 1) i.natAbs else atLeast w i.natAbs

/-- The text `s` denotes the integer `i` the way Python reads integers: perhaps a sign, then at least one digit; single underscores may stand
between digits. -/
def IntText (s : Str) (i : Int) : Prop :=
  ∃ sg d, s = sg ++ d ∧ sg ∈ [[], py "+", py "-"] ∧
    d ≠ [] ∧ (∀ c ∈ d, c ∈ py "0123456789_") ∧
    d.head? ≠ some '_' ∧ d.getLast? ≠ some '_' ∧ ¬ py "__" <:+: d ∧
    i = (if sg = py "-" then -1 else 1) * (number (d.filter (· ≠ '_')) : Int)

/-- Cut a text before and after every percent sign with two hexadecimal digits. -/
def escPieces : Str → List Str
  | [] => [[]]
  | [c] => [[c]]
  | [c, d] => [[c, d]]
  | c :: d :: e :: t =>
    if c = '%' ∧ d ∈ py "0123456789abcdefABCDEF" ∧ e ∈ py "0123456789abcdefABCDEF" then [] :: [c, d, e] :: escPieces t
    else glue c (escPieces (d :: e :: t))

/-- The bits of a list of pieces: a piece that starts with a percent sign stands, as a whole, for the character with that hexadecimal code; any
other piece is the text itself.  Each character takes seven bits, or as many as its code needs. -/
inductive TextBits : List Str → Str → Prop
  | nil : TextBits [] []
  | code {g n ps b} : HexText g n → TextBits ps b → TextBits (('%' :: g) :: ps) (atLeast 7 n ++ b)
  | text {g ps b} : g.head? ≠ some '%' → TextBits ps b → TextBits (g :: ps) (layout (textLayout 7 g) ++ b)

/-- Fill with zeros on the right to `w` bits. -/
def fillRight (w : Nat) (b : Str) : Str := b ++ List.replicate (w - b.length) '0'

/-- Header, filter value and key fields (`W` bits after the filter value) of a binary, with the bits of the reference set to zero if it has no
digits (company prefix of twelve digits, partition value 0). -/
def usedKeyBits (b : Str) (W : Nat) : Str :=
  if bitField b 11 3 = 0 then b.take 54 ++ List.replicate (W - 43) '0' else b.take (11 + W)

/-- The text in `k` groups of seven bits from bit `lo` on, moved to the front of its field of `w` bits, followed by zeros. -/
def compactText (b : Str) (lo k w : Nat) : Str := fillRight w (layout (textLayout 7 (sevenText b lo k)))

end Epc.Spec
