/-
Specification vocabulary: the exceptions a call can raise.
-/
import Verif.Py.Basic

namespace Epc.Spec

/-- If the call fails, then with one of these exceptions. -/
def RaisesOnly {α : Type} (l : List Err) (r : Except Err α) : Prop := ∀ e, r = .error e → e ∈ l

end Epc.Spec
