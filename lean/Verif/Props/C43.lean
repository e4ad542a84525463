/-
C43: equality of EPC objects.

`x.eq y` is `x == y` for two scheme instances, `x.eqObject o` is `x == o` where `o = none` is any object that is not an EPC scheme.
-/
import Verif.Lemmas.Dispatch

namespace Epc
open Spec

/-- Equal exactly when the URIs are. -/
theorem C43_iff (x y : Scheme) : x.eq y = true ↔ x.epcUri = y.epcUri := by
  unfold Scheme.eq; rw [decide_eq_true_iff]

/-- Nothing but an EPC scheme is equal to one. -/
theorem C43_object (x : Scheme) (o : Option Scheme) : x.eqObject o = true ↔ ∃ y, o = some y ∧ x.epcUri = y.epcUri := by
  cases o with
  | none => exact ⟨fun h => (Bool.false_ne_true h).elim, fun ⟨_, h, _⟩ => by cases h⟩
  | some y =>
    rw [Scheme.eqObject, C43_iff]
    exact ⟨fun h => ⟨y, rfl, h⟩, fun ⟨z, h, e⟩ => by cases h; exact e⟩

/-- An equivalence relation. -/
theorem C43_equivalence : Equivalence (fun x y : Scheme => x.eq y = true) where
  refl x := (C43_iff x x).2 rfl
  symm h := (C43_iff _ _).2 ((C43_iff _ _).1 h).symm
  trans h h' := (C43_iff _ _).2 (((C43_iff _ _).1 h).trans ((C43_iff _ _).1 h'))

/-- For accepted objects equality is identity: same class, same components. -/
theorem C43_accepted (c c' : Cls) (u u' : Str) (x y : Scheme) (hx : c.new u = .ok x) (hy : c'.new u' = .ok y) :
    x.eq y = true ↔ c = c' ∧ x = y := by
  rw [C43_iff]
  constructor
  · intro e
    rw [(Cls.new_facts hx).2.1, (Cls.new_facts hy).2.1] at e
    subst e
    exact Cls.new_unique hx hy
  · rintro ⟨-, rfl⟩; rfl

/-- Hence every function of the object, in particular its key and its element string, agrees. -/
theorem C43_observations (c c' : Cls) (u u' : Str) (x y : Scheme) (hx : c.new u = .ok x) (hy : c'.new u' = .ok y)
    (h : x.eq y = true) {α : Type} (obs : Scheme → α) : obs x = obs y := by
  rw [((C43_accepted c c' u u' x y hx hy).1 h).2]

/-- For objects of one class: equal URIs mean equal components. -/
theorem C43_distinct_uris (c c' : Cls) (u u' : Str) (x y : Scheme) (hx : c.new u = .ok x) (hy : c'.new u' = .ok y) :
    x.eq y = true ↔ u = u' := by
  rw [C43_iff, (Cls.new_facts hx).2.1, (Cls.new_facts hy).2.1]

/-- Two accepted objects of one class that differ, and the comparison with something else. -/
example : (do
    let x ← Cls.new .sgtin (py "urn:epc:id:sgtin:0614141.812345.6789")
    let y ← Cls.new .sgtin (py "urn:epc:id:sgtin:0614141.812345.6790")
    .ok (x.eq x, x.eq y, x.eqObject none) : Except Err (Bool × Bool × Bool)) = .ok (true, false, false) := by decide +kernel

end Epc
