/-
Python runtime layer, part 4: `re.split` and `re.findall` for the fixed-length patterns of the code.

The patterns are given by a function that says whether the pattern matches at the beginning of a
string and how long the match is.  All patterns used have non-empty matches of a length that does
not depend on backtracking.
-/
import Verif.Py.Regex

namespace Epc

/-- Match a sequence of character classes at the beginning of a string. -/
def fixedMatch (ps : List (Char → Bool)) (s : Str) : Bool :=
  match ps, s with
  | [], _ => true
  | _ :: _, [] => false
  | p :: ps, c :: cs => p c && fixedMatch ps cs

/-- Match length of a fixed-length pattern. -/
def fixedLen (ps : List (Char → Bool)) (s : Str) : Option Nat :=
  if fixedMatch ps s then some ps.length else none

/-- Worker of `splitCap`; the counter counts characters of a match still to be skipped. -/
def splitCapGo (m : Str → Option Nat) : Nat → Str → List Str
  | _, [] => [[]]
  | k + 1, _ :: xs => splitCapGo m k xs
  | 0, x :: xs =>
    match m (x :: xs) with
    | some n => [] :: (x :: xs).take n :: splitCapGo m (n - 1) xs
    | none => match splitCapGo m 0 xs with
      | [] => [[x]]
      | h :: t => (x :: h) :: t

/-- `re.split("(pattern)", s)`: texts and captured separators alternate. -/
def splitCap (m : Str → Option Nat) (s : Str) : List Str := splitCapGo m 0 s

/-- Worker of `splitNoCap`. -/
def splitNoCapGo (m : Str → Option Nat) : Nat → Str → List Str
  | _, [] => [[]]
  | k + 1, _ :: xs => splitNoCapGo m k xs
  | 0, x :: xs =>
    match m (x :: xs) with
    | some n => [] :: splitNoCapGo m (n - 1) xs
    | none => match splitNoCapGo m 0 xs with
      | [] => [[x]]
      | h :: t => (x :: h) :: t

/-- `re.split("pattern", s)` without a group. -/
def splitNoCap (m : Str → Option Nat) (s : Str) : List Str := splitNoCapGo m 0 s

/-- Worker of `findAll`. -/
def findAllGo (m : Str → Option Nat) : Nat → Str → List Str
  | _, [] => []
  | k + 1, _ :: xs => findAllGo m k xs
  | 0, x :: xs =>
    match m (x :: xs) with
    | some n => (x :: xs).take n :: findAllGo m (n - 1) xs
    | none => findAllGo m 0 xs

/-- `re.findall("pattern", s)`. -/
def findAll (m : Str → Option Nat) (s : Str) : List Str := findAllGo m 0 s

/-- The class `.`: any character but a newline. -/
def anyChar (c : Char) : Bool := c != '\n'

end Epc
