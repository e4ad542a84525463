/-
Specification: the fourth colon-separated field of a string.
-/
import Verif.Spec.Basic

namespace Epc.Spec

/-- `id` is what stands between the third and the fourth colon of `u` (or after the third, if there is no fourth). -/
def FourthField (u id : Str) : Prop :=
  ∃ a b d r, u = a ++ ':' :: (b ++ ':' :: (d ++ ':' :: (id ++ r))) ∧ ':' ∉ a ∧ ':' ∉ b ∧ ':' ∉ d ∧ ':' ∉ id ∧ (r = [] ∨ ∃ t, r = ':' :: t)

end Epc.Spec
