import Verif.Py.Basic

/-! The lengths of a set of texts. -/

namespace Epc.Spec

/-- The shortest text of the set has `lo` characters, the longest `hi`. -/
def Span (P : Str → Prop) (lo hi : Nat) : Prop :=
  (∀ s, P s → lo ≤ s.length ∧ s.length ≤ hi) ∧ (∃ s, P s ∧ s.length = lo) ∧ ∃ s, P s ∧ s.length = hi

end Epc.Spec
