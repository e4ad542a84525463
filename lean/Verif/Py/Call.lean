/-
Python calls: how positional and keyword arguments reach the parameters of a function `def f(p1, p2=d2, ...)`.
https://docs.python.org/3/reference/expressions.html#calls
-/
import Verif.Py.Basic

namespace Epc

/-- A parameter: its name, and its default value if it has one. -/
structure Param (α : Type) where
  name : Str
  default : Option α

/-- The value of the parameter `p`, given the positional argument at its place (if any) and the keyword arguments.  TypeError if it gets
two values or none. -/
def bindParam {α : Type} (p : Param α) (given : Option α) (kw : List (Str × α)) : Except Err α :=
  match given, kw.lookup p.name, p.default with
  | some v, none, _ => .ok v
  | some _, some _, _ => .error .type
  | none, some v, _ => .ok v
  | none, none, some d => .ok d
  | none, none, none => .error .type

/-- The parameters in turn. -/
def bindParams {α : Type} : List (Param α) → List α → List (Str × α) → Except Err (List α)
  | [], [], _ => .ok []
  | [], _ :: _, _ => .error .type
  | p :: ps, pos, kw => do
    let v ← bindParam p pos.head? kw
    let vs ← bindParams ps pos.tail kw
    return v :: vs

/-- The values of all parameters, in their order.  TypeError for too many positional arguments and for keywords that are no parameters.  The
keyword arguments are a dictionary: no name occurs twice. -/
def bindArgs {α : Type} (params : List (Param α)) (pos : List α) (kw : List (Str × α)) : Except Err (List α) :=
  if kw.any (fun k => params.all (fun p => p.name != k.1)) then .error .type
  else bindParams params pos kw

end Epc
