/-
Python threads that share objects: every access to an attribute is one atomic action, and between any two actions another thread may run.
-/
import Verif.Py.Basic

namespace Epc

/-- What a call returns: a string (`some`), the value `None`, or an exception. -/
abbrev Outcome := Except Err (Option Str)

/-- A method body, as far as other threads can notice it.  `σ` are the attributes that only `__init__` assigns; the one attribute that a
method assigns later holds a string or `None`. -/
inductive Prog (σ : Type) where
  /-- `return v` or `raise e` -/
  | done (r : Outcome)
  /-- Reads attributes of `self` that only `__init__` assigns. -/
  | read (k : σ → Prog σ)
  /-- `self.attribute = v` -/
  | store (v : Str) (k : Prog σ)
  /-- Reads the attribute that `store` assigns. -/
  | load (k : Option Str → Prog σ)

/-- A call: the reference of the object, and the method with its arguments. -/
abbrev Call (μ : Type) := Nat × μ

/-- A thread: the calls it has still to make, the call it is executing, and the calls it has finished with their outcomes. -/
structure Thread (σ μ : Type) where
  todo : List (Call μ)
  current : Option (Call μ × Prog σ)
  log : List (Call μ × Outcome)

/-- A running program: the objects by reference, the assignable attribute of each, and the threads. -/
structure World (σ μ : Type) where
  objects : Nat → σ
  stored : Nat → Option Str
  threads : List (Thread σ μ)

namespace World

variable {σ μ : Type}

/-- The program at the beginning: the objects have been constructed, and every client has the list of its calls. -/
def start (objects : Nat → σ) (clients : List (List (Call μ))) : World σ μ :=
  ⟨objects, fun _ => none, clients.map fun calls => ⟨calls, none, []⟩⟩

/-- One atomic action of a thread. -/
def act (body : μ → Prog σ) (objects : Nat → σ) (stored : Nat → Option Str) (t : Thread σ μ) : (Nat → Option Str) × Thread σ μ :=
  match t.current with
  | none =>
    match t.todo with
    | [] => (stored, t)
    | c :: cs => (stored, ⟨cs, some (c, body c.2), t.log⟩)
  | some (c, .done r) => (stored, ⟨t.todo, none, t.log ++ [(c, r)]⟩)
  | some (c, .read k) => (stored, ⟨t.todo, some (c, k (objects c.1)), t.log⟩)
  | some (c, .store v k) => (fun o => if o = c.1 then some v else stored o, ⟨t.todo, some (c, k), t.log⟩)
  | some (c, .load k) => (stored, ⟨t.todo, some (c, k (stored c.1)), t.log⟩)

/-- Thread number `i` makes one action (nothing happens if there is no such thread, or it has finished). -/
def step (body : μ → Prog σ) (w : World σ μ) (i : Nat) : World σ μ :=
  match w.threads[i]? with
  | none => w
  | some t =>
    let (stored, t) := act body w.objects w.stored t
    ⟨w.objects, stored, w.threads.set i t⟩

/-- The program after a schedule: the list of the numbers of the threads in the order in which they make their actions. -/
def run (body : μ → Prog σ) (w : World σ μ) (schedule : List Nat) : World σ μ := schedule.foldl (step body) w

end World

end Epc
