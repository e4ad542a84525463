/-
Python runtime layer, part 1: strings, exceptions, splitting, joining, replacing, slicing,
padding and integer formatting.

A Python `str` is a list of characters.  Everything here models CPython 3.11 built-ins; the
functions are used by the model of /repo/epcpy in `Verif/Model`.
-/

namespace Epc

/-- A Python `str` (list of code points; lone surrogates are not representable). -/
abbrev Str := List Char

/-- The exception classes the modelled code can raise.  Messages are not modelled.
`convert` is `ConvertException` (/repo/epcpy/utils/common.py:23-28); the others are Python's
built-in `ValueError` (with its subclass `binascii.Error`), `KeyError`, `IndexError`, `TypeError` and
`OverflowError`. -/
inductive Err where
  | convert
  | value
  | key
  | index
  | overflow
  | type
  deriving DecidableEq, Repr

instance {α : Type} [DecidableEq α] : DecidableEq (Except Err α)
  | .ok a, .ok b => if h : a = b then isTrue (by rw [h]) else isFalse (by intro h'; cases h'; exact h rfl)
  | .error a, .error b => if h : a = b then isTrue (by rw [h]) else isFalse (by intro h'; cases h'; exact h rfl)
  | .ok _, .error _ => isFalse (by intro h; cases h)
  | .error _, .ok _ => isFalse (by intro h; cases h)

open Lean in
/-- `py "abc"` is the string literal `"abc"` as an explicit list of characters. -/
macro "py" s:str : term => do
  let mut r ← `(([] : List Char))
  for c in s.getString.toList.reverse do
    let cl : TSyntax `char := Syntax.mkCharLit c
    r ← `(List.cons $cl $r)
  return r

/-- `s.split(c)` for a one-character separator. -/
def split (c : Char) : Str → List Str
  | [] => [[]]
  | x :: xs =>
    if x = c then [] :: split c xs
    else match split c xs with
      | [] => [[x]]
      | h :: t => (x :: h) :: t

/-- `c.join(parts)` for a one-character separator. -/
def joinWith (c : Char) : List Str → Str
  | [] => []
  | [a] => a
  | a :: b :: t => a ++ c :: joinWith c (b :: t)

/-- Worker of `replaceAll`; the counter says how many characters of an already replaced
occurrence are still to be skipped. -/
def replaceGo (pat rep : Str) : Nat → Str → Str
  | _, [] => []
  | k + 1, _ :: xs => replaceGo pat rep k xs
  | 0, x :: xs =>
    if pat.isPrefixOf (x :: xs) then rep ++ replaceGo pat rep (pat.length - 1) xs
    else x :: replaceGo pat rep 0 xs

/-- `s.replace(pat, rep)` for a non-empty `pat`: leftmost, non-overlapping occurrences. -/
def replaceAll (pat rep s : Str) : Str := replaceGo pat rep 0 s

/-- `s.replace(pat, rep, 1)` for a non-empty `pat`. -/
def replaceFirst (pat rep : Str) : Str → Str
  | [] => []
  | x :: xs =>
    if pat.isPrefixOf (x :: xs) then rep ++ (x :: xs).drop pat.length
    else x :: replaceFirst pat rep xs

/-- `s[lo:hi]` with non-negative bounds. -/
def slice (s : Str) (lo hi : Nat) : Str := (s.take hi).drop lo

/-- Normalised slice bound for a possibly negative index (`PySlice_AdjustIndices`). -/
def clampIdx (len : Nat) (i : Int) : Nat :=
  if i < 0 then (i + len).toNat else min i.toNat len

/-- `s[lo:hi]` with arbitrary integer bounds. -/
def sliceI (s : Str) (lo hi : Int) : Str := slice s (clampIdx s.length lo) (clampIdx s.length hi)

/-- `s[lo:]` with an arbitrary integer bound. -/
def sliceFromI (s : Str) (lo : Int) : Str := s.drop (clampIdx s.length lo)

/-- `s[:hi]` with an arbitrary integer bound. -/
def sliceToI (s : Str) (hi : Int) : Str := s.take (clampIdx s.length hi)

/-- `s[i]` for a non-negative `i`. -/
def getIdx (s : Str) (i : Nat) : Except Err Char :=
  match s[i]? with
  | some c => .ok c
  | none => .error .index

/-- `l[i]` on a list of strings, for a non-negative `i`. -/
def getPart (l : List Str) (i : Nat) : Except Err Str :=
  match l[i]? with
  | some c => .ok c
  | none => .error .index

/-- Pad on the left: `f"{s:c>w}"`. -/
def padLeft (c : Char) (w : Nat) (s : Str) : Str := List.replicate (w - s.length) c ++ s

/-- Pad on the right: `f"{s:c<w}"`. -/
def padRight (c : Char) (w : Nat) (s : Str) : Str := s ++ List.replicate (w - s.length) c

/-- `s.zfill(w)`: the padding goes after a leading sign. -/
def zfill (w : Nat) (s : Str) : Str :=
  match s with
  | '+' :: t => '+' :: padLeft '0' (w - 1) t
  | '-' :: t => '-' :: padLeft '0' (w - 1) t
  | _ => padLeft '0' w s

/-- Decimal form of a natural number, `f"{n}"`. -/
def natStr (n : Nat) : Str := Nat.toDigits 10 n

/-- `str(i)` for an integer. -/
def intStr (i : Int) : Str :=
  if i < 0 then '-' :: natStr i.natAbs else natStr i.natAbs

/-- `f"{i:0wb}"`: sign-aware zero padding of the binary form. -/
def fmtBin (i : Int) (w : Nat) : Str :=
  if i < 0 then '-' :: padLeft '0' (w - 1) (Nat.toDigits 2 i.natAbs)
  else padLeft '0' w (Nat.toDigits 2 i.natAbs)

/-- Upper-case an ASCII letter.  Simplification: `str.upper` also changes letters outside ASCII.  The code asks only whether the upper case of a
text is one of a few pairs of hexadecimal digits; outside ASCII only the ligature U+FB00 has an upper case of hexadecimal digits, `FF`, which is
none of them. -/
def upperChar (c : Char) : Char :=
  if 'a' ≤ c ∧ c ≤ 'z' then Char.ofNat (c.toNat - 32) else c

/-- Lower-case an ASCII letter. -/
def lowerChar (c : Char) : Char :=
  if 'A' ≤ c ∧ c ≤ 'Z' then Char.ofNat (c.toNat + 32) else c

/-- `f"{i:X}"`. -/
def fmtHexUpper (i : Int) : Str :=
  let d := (Nat.toDigits 16 i.natAbs).map upperChar
  if i < 0 then '-' :: d else d

/-- `s.startswith(p)`. -/
def startsWith (s p : Str) : Bool := p.isPrefixOf s

/-- `chr(n)` for a Python integer: `ValueError` outside `range(0x110000)`, `OverflowError` if it
does not fit a C `int`.  Simplification: the surrogate range yields U+FFFD (the model has no
lone surrogates). -/
def chr (i : Int) : Except Err Char :=
  if i < -2147483648 ∨ 2147483647 < i then .error .overflow
  else if i < 0 ∨ 0x110000 ≤ i then .error .value
  else if h : i.toNat.isValidChar then .ok (Char.ofNatAux i.toNat h)
  else .ok (Char.ofNat 0xFFFD)

end Epc
