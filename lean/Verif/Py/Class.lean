/-
Python classes: the method resolution order (C3 linearisation), attribute lookup along it, and what a class statement binds.
https://docs.python.org/3/howto/mro.html, https://docs.python.org/3/reference/datamodel.html#object.__hash__
-/
import Verif.Py.Basic

namespace Epc

/-- A class statement: the base classes in their order, and the names its body binds. -/
structure ClassStmt (κ : Type) where
  bases : List κ
  names : List Str

/-- What a name is bound to in the dictionary of a class: what the body says, or `None`. -/
inductive Binding where
  | body
  | isNone
  deriving DecidableEq, Repr

/-- The dictionary of a class.  A class that overrides `__eq__` and does not define `__hash__` has its `__hash__` set to `None`. -/
def ClassStmt.own {κ : Type} (s : ClassStmt κ) (n : Str) : Option Binding :=
  if s.names.contains n then some .body
  else if n = py "__hash__" ∧ s.names.contains (py "__eq__") = true then some .isNone
  else none

/-- The merge of C3: repeatedly take the first head that is in no tail.  `none`: inconsistent (TypeError at the class statement) or out of
`fuel`, the number of classes to take. -/
def c3Merge {κ : Type} [DecidableEq κ] : Nat → List (List κ) → Option (List κ)
  | fuel, ls =>
    match ls.filter (fun l => !l.isEmpty) with
    | [] => some []
    | ls =>
      match fuel with
      | 0 => none
      | fuel + 1 =>
        match (ls.filterMap List.head?).find? (fun c => ls.all (fun l => !l.tail.contains c)) with
        | none => none
        | some c => (c3Merge fuel (ls.map (fun l => if l.head? = some c then l.tail else l))).map (c :: ·)

/-- `__mro__`: the class, then the merge of the orders of its bases and the list of its bases.  `fuel` bounds the depth of the hierarchy and
the length of the merges. -/
def mro {κ : Type} [DecidableEq κ] (stmt : κ → ClassStmt κ) : Nat → κ → Option (List κ)
  | 0, _ => none
  | fuel + 1, c => do
    let orders ← (stmt c).bases.mapM (mro stmt fuel)
    let rest ← c3Merge (fuel + 1) (orders ++ [(stmt c).bases])
    return c :: rest

/-- Attribute lookup along a method resolution order: the first class whose dictionary has the name. -/
def lookupIn {κ : Type} (stmt : κ → ClassStmt κ) (n : Str) : List κ → Option (κ × Binding)
  | [] => none
  | c :: cs =>
    match (stmt c).own n with
    | some b => some (c, b)
    | none => lookupIn stmt n cs

end Epc
