/-
Python runtime layer, part 8: the cost of matching.

`Re.fullmatch` and `Re.matchPrefix` (Py/Regex) say *whether* a pattern matches.  CPython's `re` module
finds out by backtracking: it tries the alternatives of a pattern one after the other and remembers the
ones it has not tried yet.  `btStep` is one step of such an engine and `btRun` a run with a budget of steps,
so that a bound on the number of steps can be stated and proved.

Simplifications: one step takes apart one node of the pattern or consumes one character; CPython has
specialised instructions for repeated single characters and literal prefixes, which only save steps.
`r?` and `r{m,n}` are expanded as in Py/Regex, so the empty choice is tried first where CPython tries it
last; the bounds proved hold for the exhaustive search and hence for any order of the alternatives.
-/
import Verif.Py.Regex

namespace Epc.Re

/-- What is left to do: the patterns that still have to match, in order, and the text that is left. -/
abbrev Task := List Re × Str

/-- One step of a backtracking engine.  The state is the stack of tasks not tried yet, the current one on
top.  `.inl` is the verdict, `.inr` the next state.  With `full` the whole text has to be consumed
(`re.fullmatch`), otherwise a prefix suffices (`re.match`). -/
def btStep (full : Bool) : List Task → Sum Bool (List Task)
  | [] => .inl false
  | ([], s) :: st => if full && !s.isEmpty then .inr st else .inl true
  | (.none :: _, _) :: st => .inr st
  | (.eps :: k, s) :: st => .inr ((k, s) :: st)
  | (.cls _ :: _, []) :: st => .inr st
  | (.cls p :: k, c :: s) :: st => if p c then .inr ((k, s) :: st) else .inr st
  | (.seq a b :: k, s) :: st => .inr ((a :: b :: k, s) :: st)
  | (.alt a b :: k, s) :: st => .inr ((a :: k, s) :: (b :: k, s) :: st)
  | (.star a :: k, s) :: st => .inr ((a :: .star a :: k, s) :: (k, s) :: st)

/-- The verdict of the engine within `n` steps, if it has reached one by then. -/
def btRun (full : Bool) : Nat → List Task → Option Bool
  | 0, _ => Option.none
  | n + 1, st => match btStep full st with
    | .inl b => some b
    | .inr st' => btRun full n st'

/-- The engine started on pattern `r` and text `s`, with a budget of `n` steps. -/
def backtrack (full : Bool) (r : Re) (s : Str) (n : Nat) : Option Bool := btRun full n [([r], s)]

end Epc.Re
