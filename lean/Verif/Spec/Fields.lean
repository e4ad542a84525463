/-
Specification vocabulary: texts whose fields are numbers in the sense of Python's `int(text, 2)`, which also takes signs, underscores, blanks,
the prefix `0b` and digits of other scripts.
-/
import Verif.Py.Int
import Verif.Spec.Layout

namespace Epc.Spec

/-- `int(s, 2)` is the number `n`. -/
def Reads (s : Str) (n : Nat) : Prop := pyInt 2 s = .ok (n : Int)

/-- The same number as a bit string of the same length; a text that `int` refuses or finds negative is left as it is. -/
def fieldBits (s : Str) : Str :=
  match pyInt 2 s with
  | .ok (.ofNat n) => bitsOf s.length n
  | _ => s

/-- The text cut into fields of the given widths, each rewritten by `fieldBits`; what follows them is kept. -/
def fieldsBits (s : Str) : List Nat → Str
  | [] => s
  | w :: ws => fieldBits (s.take w) ++ fieldsBits (s.drop w) ws

/-- The widths of partition value, company prefix and reference in a key of `W` bits with partition value `p`. -/
def keyWidths (W p : Nat) : List Nat := [3, prefixBits (12 - p), W - 3 - prefixBits (12 - p)]

end Epc.Spec
