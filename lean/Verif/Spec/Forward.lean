/-
Calls with `**kwargs`, for claims about keyword arguments that a function hands on.  Everything is executed from the source (`Spec/Source`).
-/
import Verif.Spec.Signature

namespace Epc.Src
open Spec

/-- The keyword arguments that name one of the parameters. -/
def named (ps : List (Nm × Option Val)) (kw : List (Nm × Val)) : List (Nm × Val) := kw.filter (fun k => (ps.map (·.1)).contains k.1)

/-- The other keyword arguments. -/
def others (ps : List (Nm × Option Val)) (kw : List (Nm × Val)) : List (Nm × Val) := kw.filter (fun k => !(ps.map (·.1)).contains k.1)

/-- The call `f` has the parameters `ps` and takes any further keyword arguments: however the arguments are passed, the outcome is that of passing the
value of every parameter by position and the other keyword arguments by name, and TypeError if the arguments do not give every parameter one value. -/
def TakesMore (ps : List (Nm × Option Val)) (f : List Val → List (Nm × Val) → M Val) : Prop :=
  ∀ pos kw, (kw.map (·.1)).Nodup →
    (∀ vs, Passes ps pos (named ps kw) vs → f pos kw = f vs (others ps kw)) ∧
    ((¬ ∃ vs, Passes ps pos (named ps kw) vs) → f pos kw = .error (.err .type))

/-- The parameters of `get_gs1_key`. -/
def sourceSig : List (Nm × Option Val) := [(.source, .none), (.company_prefix_length, some .none)]

/-- The parameters of `epc_pure_identity_to_gs1_key`. -/
def pureSig : List (Nm × Option Val) := [(.epc_pure_identity_uri, .none)]

/-- Keyword arguments that a function with the parameters `ps` does not take itself: they have different names, none that of a parameter, and
`gtin_type`, if it is among them, is a number (the members of `GTIN_TYPE` are numbers). -/
def Extra (ps : List (Nm × Option Val)) (kw : List (Nm × Val)) : Prop :=
  (kw.map (·.1)).Nodup ∧ (∀ k ∈ kw, k.1 ∉ ps.map (·.1)) ∧ ∀ v, (.gtin_type, v) ∈ kw → ∃ n, v = .int n

/-- `None` or a number. -/
def optInt : Option Int → Val
  | none => .none
  | some k => .int k

end Epc.Src
