/-
Specification vocabulary: what the library makes of the percent signs in a serial number.
-/
import Verif.Spec.Serial

namespace Epc.Spec

/-- The value of a hexadecimal digit, lower or upper case. -/
def hexVal (c : Char) : Nat := if c.toNat ≤ 57 then c.toNat - 48 else if c.toNat ≤ 70 then c.toNat - 55 else c.toNat - 87

/-- The number a string of hexadecimal digits denotes. -/
def hexNumber (s : Str) : Nat := s.foldl (fun n c => 16 * n + hexVal c) 0

/-- The text `g` denotes the number `n` in base 16 the way Python reads numbers: perhaps `0x` or `0X`, perhaps an underscore after that,
then at least one hexadecimal digit; single underscores may stand between digits. -/
def HexText (g : Str) (n : Nat) : Prop :=
  ∃ p d, g = p ++ d ∧ p ∈ [[], py "0x", py "0X", py "0x_", py "0X_"] ∧
    d ≠ [] ∧ (∀ c ∈ d, c ∈ py "0123456789abcdefABCDEF_") ∧
    d.head? ≠ some '_' ∧ d.getLast? ≠ some '_' ∧ ¬ py "__" <:+: d ∧
    n = hexNumber (d.filter (· ≠ '_'))

/-- Put a character in front of the first piece. -/
def glue (c : Char) : List Str → List Str
  | [] => [[c]]
  | p :: ps => (c :: p) :: ps

/-- Cut a text before and after every percent sign with two decimal digits. -/
def pieces : Str → List Str
  | [] => [[]]
  | [c] => [[c]]
  | [c, d] => [[c, d]]
  | c :: d :: e :: t =>
    if c = '%' ∧ d ∈ py "0123456789" ∧ e ∈ py "0123456789" then [] :: [c, d, e] :: pieces t
    else glue c (pieces (d :: e :: t))

/-- A piece that starts with a percent sign has to be, as a whole, the hexadecimal code of a character of the GS1 set 82. -/
def PercentsOk (s : Str) : Prop :=
  ∀ g, '%' :: g ∈ pieces s → ∃ c ∈ gs82, HexText g c.toNat

/-- The first piece that starts with a percent sign and is not the hexadecimal code of any character at all (there are 1114112 codes) is
`%` and `g`. -/
def FirstBad (s g : Str) : Prop :=
  ∃ l r, pieces s = l ++ ('%' :: g) :: r ∧ (∀ k, '%' :: k ∈ l → ∃ n < 1114112, HexText k n) ∧ ¬ ∃ n < 1114112, HexText g n

/-- The first such piece is no hexadecimal number, or one that fits 31 bits. -/
def PercentsValueError (s : Str) : Prop := ∃ g, FirstBad s g ∧ ∀ n, HexText g n → n < 2 ^ 31

/-- The first such piece is a hexadecimal number that does not fit 31 bits. -/
def PercentsOverflow (s : Str) : Prop := ∃ g, FirstBad s g ∧ ∃ n, HexText g n ∧ 2 ^ 31 ≤ n

end Epc.Spec
