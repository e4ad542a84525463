/-
Programs that call methods on objects one after the other, executed from the source (`Spec/Source`).

The interpreter of `Verif/Src/Interp.lean` returns what a call returns and forgets what the call assigned to the attributes of the object.  Which
attributes a function may assign can be read off its statements.
-/
import Verif.Spec.Program

namespace Epc.Src
open Spec Grammar

/-- The attributes among the targets of an assignment, with the variables that hold the objects. -/
def Target.attrs : Target → List (Nm × Nm)
  | .var _ => []
  | .attr x a => [(x, a)]

mutual

/-- The attributes that a statement assigns. -/
def Stmt.assigns : Stmt → List (Nm × Nm)
  | .assign t _ => t.attrs
  | .unpack ts star _ => ts.flatMap Target.attrs ++ (star.map Target.attrs).getD []
  | .ite _ a b => assignsAll a ++ assignsAll b
  | .for_ _ _ body => assignsAll body
  | .forUnpack ts _ body => ts.flatMap Target.attrs ++ assignsAll body
  | .try_ body _ handler => assignsAll body ++ assignsAll handler
  | _ => []

/-- The attributes that statements assign. -/
def assignsAll : List Stmt → List (Nm × Nm)
  | [] => []
  | s :: ss => s.assigns ++ assignsAll ss

end

/-- The functions of a class body, with their names. -/
def methodsOf (c : Cl) : List (Nm × FunDef) := (clsDict c).filterMap fun p =>
  match p.2 with
  | .method d | .classmethod d => some (p.1, d)
  | _ => .none

/-- The functions of a module. -/
def functionsOf (m : Mod) : List (Nm × FunDef) := (modDict m).filterMap fun p =>
  match p.2 with
  | .fn d => some (p.1, d)
  | _ => .none

/-- `o'` is an object that was `o` before methods were called on it: the same, but for the attribute `_tag_uri` of a CPI. -/
def Used : Val → Val → Prop
  | .obj c as, o' => o' = .obj c as ∨ (c = .CPI ∧ ∃ v, o' = .obj c (set ._tag_uri v as))
  | o, o' => o' = o

/-- The methods of objects. -/
def objectMethods : List Nm := [.tag_uri, .binary, .hex, .base64, .gs1_element_string, .gs1_key, .gtin, .__eq__]

/-- A call and its outcome. -/
structure Event where
  object : Nat
  method : Nm
  args : List Val
  kw : List (Nm × Val)
  result : M Val

/-- `Runs objects events`: a program that has the objects `objects`, numbered, makes calls one after the other, with the outcomes `events`.  Whether it
returns or raises, a call may have assigned to the attribute `_tag_uri` of a CPI (`C100_assignments`: nothing else is assigned outside of
constructors). -/
inductive Runs : (Nat → Val) → List Event → Prop where
  | done (objects : Nat → Val) : Runs objects []
  | call (objects objects' : Nat → Val) (e : Event) (es : List Event) (result : e.result = invoke (objects e.object) e.method e.args e.kw)
      (object : Used (objects e.object) (objects' e.object)) (others : ∀ i, i ≠ e.object → objects' i = objects i) (rest : Runs objects' es) :
      Runs objects (e :: es)

end Epc.Src
