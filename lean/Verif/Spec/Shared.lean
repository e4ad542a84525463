/-
Threads that share objects, executed from the source (`Spec/Source`).

What threads can notice of each other are assignments to attributes of shared objects.  The source has one outside of constructors
(`C100_assignments`), the statement before last of `CPI.tag_uri`, and one place that reads this attribute, its last statement `return self._tag_uri`
(`C102_attribute`).  So a call of `CPI.tag_uri` consists of three actions of its thread: what comes before the assignment, the assignment, and the
return; any other call is one action.  Between any two actions other threads may run.
-/
import Verif.Spec.History

namespace Epc.Src
open Spec Grammar

mutual

/-- The names of the attributes that an expression reads. -/
def Expr.attrs : Expr → List Nm
  | .attr e a => a :: e.attrs
  | .item e i => e.attrs ++ i.attrs
  | .slice e lo hi step => e.attrs ++ lo.attrs ++ hi.attrs ++ step.attrs
  | .call f args kw => f.attrs ++ attrsAll args ++ attrsKw kw
  | .callKw f kwargs => f.attrs ++ kwargs.attrs
  | .cat a b => a.attrs ++ b.attrs
  | .fmt e spec => e.attrs ++ spec.attrs
  | .bin _ a b => a.attrs ++ b.attrs
  | .not a => a.attrs
  | .neg a => a.attrs
  | .and a b => a.attrs ++ b.attrs
  | .or a b => a.attrs ++ b.attrs
  | .cmp _ a b => a.attrs ++ b.attrs
  | .cmp2 _ _ a b c => a.attrs ++ b.attrs ++ c.attrs
  | .ite c a b => c.attrs ++ a.attrs ++ b.attrs
  | .list l => attrsAll l
  | .dict l => attrsPairs l
  | .map elt _ it => elt.attrs ++ it.attrs
  | .comp elt _ it cond => elt.attrs ++ it.attrs ++ cond.attrs
  | .flat inner _ it => inner.attrs ++ it.attrs
  | .mkDict pairs => pairs.attrs
  | .name _ | .int _ | .str _ | .bool _ | .none => []

def attrsAll : List Expr → List Nm
  | [] => []
  | e :: es => e.attrs ++ attrsAll es

def attrsKw : List (Nm × Expr) → List Nm
  | [] => []
  | (_, e) :: es => e.attrs ++ attrsKw es

def attrsPairs : List (Expr × Expr) → List Nm
  | [] => []
  | (a, b) :: es => a.attrs ++ b.attrs ++ attrsPairs es

end

mutual

/-- The names of the attributes that a statement reads. -/
def Stmt.reads : Stmt → List Nm
  | .expr e | .assign _ e | .unpack _ _ e | .aug _ e | .ret e | .raise e => e.attrs
  | .ite c a b => c.attrs ++ readsAll a ++ readsAll b
  | .for_ _ it body | .forUnpack _ it body => it.attrs ++ readsAll body
  | .try_ body _ handler => readsAll body ++ readsAll handler
  | .superInit args => attrsAll args
  | .brk | .cont => []

/-- The names of the attributes that statements read. -/
def readsAll : List Stmt → List Nm
  | [] => []
  | s :: ss => s.reads ++ readsAll ss

end

/-- The names of the attributes that a function reads, also in the defaults of its parameters. -/
def FunDef.reads (d : FunDef) : List Nm := readsAll d.body ++ d.params.flatMap fun p => (p.default.map Expr.attrs).getD []

/-- `o.tag_uri(*args, **kw)` of a CPI without its last statement: the value that it assigns to the attribute `_tag_uri`. -/
def toAssign (o : Val) (args : List Val) (kw : List (Nm × Val)) : M Val :=
  frame (level 23) CPI.tag_uri (o :: args) kw >>= fun env =>
  execBlock (level 23) .cpi [] env CPI.tag_uri.body.dropLast >>= fun f =>
  match f with
  | .next env => eval (level 23) .cpi env (.attr (.name .self) ._tag_uri)
  | _ => .error .unsupported

/-- A call: the number of the object, the method, and the arguments. -/
structure SharedCall where
  object : Nat
  method : Nm
  args : List Val
  kw : List (Nm × Val)

/-- Is this `CPI.tag_uri`? -/
def assignsTag : Val → Nm → Bool
  | .obj .CPI _, .tag_uri => true
  | _, _ => false

/-- How far the execution of a call has got. -/
inductive Stage where
  | start
  /-- The next action is `self._tag_uri = v`. -/
  | assign (v : Val)
  /-- The next action is `return self._tag_uri`. -/
  | ret
  | done (r : M Val)

/-- The attribute `_tag_uri` of each object, and the stage of each call.  Calls are numbered; which thread makes which call does not matter here, any
two calls may overlap. -/
structure Shared where
  stored : Nat → Val
  stage : Nat → Stage

/-- No call has begun. -/
def Shared.init : Shared := ⟨fun _ => .none, fun _ => .start⟩

/-- The next action of call number `i`. -/
def Shared.step (objects : Nat → Val) (calls : Nat → SharedCall) (s : Shared) (i : Nat) : Shared :=
  let c := calls i
  let o := objects c.object
  let goes (g : Stage) : Nat → Stage := fun j => if j = i then g else s.stage j
  match s.stage i with
  | .start =>
    if assignsTag o c.method then
      match toAssign o c.args c.kw with
      | .ok v => ⟨s.stored, goes (.assign v)⟩
      | .error e => ⟨s.stored, goes (.done (.error e))⟩
    else ⟨s.stored, goes (.done (invoke o c.method c.args c.kw))⟩
  | .assign v => ⟨fun k => if k = c.object then v else s.stored k, goes .ret⟩
  | .ret => ⟨s.stored, goes (.done (.ok (s.stored c.object)))⟩
  | .done _ => s

/-- The state after a schedule: the numbers of the calls in the order in which they make their actions. -/
def Shared.run (objects : Nat → Val) (calls : Nat → SharedCall) (schedule : List Nat) : Shared :=
  schedule.foldl (Shared.step objects calls) Shared.init

/-- The outcome of call `i` on an object nobody else uses. -/
def alone (objects : Nat → Val) (calls : Nat → SharedCall) (i : Nat) : M Val :=
  invoke (objects (calls i).object) (calls i).method (calls i).args (calls i).kw

/-- Is call `i` one of `CPI.tag_uri`? -/
def tags (objects : Nat → Val) (calls : Nat → SharedCall) (i : Nat) : Prop := assignsTag (objects (calls i).object) (calls i).method = true

end Epc.Src
