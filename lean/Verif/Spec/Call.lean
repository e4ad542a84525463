/-
Specification vocabulary: what a Python call tells a function.
-/
import Verif.Py.Basic

namespace Epc.Spec

/-- The call `f(*pos, **kw)` gives the parameters `ps` (name and default value) the values `vs`: the positional arguments are the values of the
first parameters; every keyword is the name of a later one; and the value of a later parameter is the keyword argument of its name, or its
default value if there is none. -/
def Passes {ν α : Type} [BEq ν] (ps : List (ν × Option α)) (pos : List α) (kw : List (ν × α)) (vs : List α) : Prop :=
  vs.length = ps.length ∧ pos.length ≤ ps.length ∧ vs.take pos.length = pos ∧
  (∀ k ∈ kw, k.1 ∈ (ps.drop pos.length).map (·.1)) ∧
  ∀ i p v, pos.length ≤ i → ps[i]? = some p → vs[i]? = some v → kw.lookup p.1 = some v ∨ (kw.lookup p.1 = none ∧ p.2 = some v)

end Epc.Spec
