/-
Lemmas for the claims about programs executed from the source.
-/
import Verif.Spec.Source
import Verif.Refine.Parsers
import Verif.Refine.More

namespace Epc.Src

theorem lift_outcome {α : Type} (r : Except Err α) (f : α → Val) : (lift r).map f = outcome f r := by cases r <;> rfl

theorem invoke_eq {o : Val} {m : Nm} {d : FunDef} {args : List Val} {kw : List (Nm × Val)} {r : M Val} {L : Level} (e : level 24 = L)
    (h : ∀ L, getAttr L o m = .ok (.bound d o)) (hr : L.app (.bound d o) args kw = r) : invoke o m args kw = r := by
  subst e
  rw [invoke, read, h]
  exact hr

theorem function_eq {f : Nm} {d : FunDef} {args : List Val} {kw : List (Nm × Val)} {r : M Val} {L : Level} (e : level 24 = L)
    (h : ∀ L, globalVal L .parsers f = .ok (.func d)) (hr : L.app (.func d) args kw = r) : function f args kw = r := by
  subst e
  rw [function, h]
  exact hr

theorem ends_outcome {α : Type} (f : α → Val) (r : Except Err α) : Ends (outcome f r) := by cases r <;> trivial

theorem ends_four {α : Type} {o : Val} {kw : List (Nm × Val)} {f : α → Val} {a b c d : Except Err α}
    (h : invoke o .tag_uri [] kw = outcome f a ∧ invoke o .binary [] kw = outcome f b ∧ invoke o .hex [] kw = outcome f c ∧
      invoke o .base64 [] kw = outcome f d) : ∀ m ∈ [Nm.tag_uri, .binary, .hex, .base64], Ends (invoke o m [] kw) := by
  intro m hm
  simp only [List.mem_cons, List.not_mem_nil, or_false] at hm
  rcases hm with rfl | rfl | rfl | rfl
  · rw [h.1]; exact ends_outcome _ _
  · rw [h.2.1]; exact ends_outcome _ _
  · rw [h.2.2.1]; exact ends_outcome _ _
  · rw [h.2.2.2]; exact ends_outcome _ _

instance (r : M Val) : Decidable (Ends r) :=
  match r with
  | .ok _ => isTrue trivial
  | .error (.err _) => isTrue trivial
  | .error .name | .error .attribute | .error .notImplemented | .error .recursion | .error .unsupported => isFalse id

theorem isinstance_other (v : Val) (hv : ∀ c attrs, v ≠ .obj c attrs) :
    builtinCall .isinstance [v, .cls .EPCScheme] = .ok (.bool false) := by
  cases v <;> first | rfl | exact absurd rfl (hv _ _)

end Epc.Src
