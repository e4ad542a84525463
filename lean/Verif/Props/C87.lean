/-
C87: EPC objects as members of sets, keys of dictionaries and members of lists.

`c.hash`: `hash(x)` for an object of class `c`; `x.isIn l`: `x in l` for a list.
-/
import Verif.Lemmas.Class

namespace Epc
open Spec

theorem C87_claim_false : ¬ ∀ c : Cls, ∃ h, (PyCls.scheme c).hash = .ok h := by
  intro h
  obtain ⟨_, e⟩ := h .sgtin
  have hx : (PyCls.scheme .sgtin).hash.toBool = false := by decide +kernel
  rw [e] at hx
  exact Bool.noConfusion hx

/-- No object of any of the classes can be hashed; membership in a list is decided by the URI. -/
theorem C87_partial (x : Scheme) (l : List Scheme) :
    (PyCls.scheme x.cls).hash = .error .type ∧
    ((Obj.scheme x).isIn (l.map .scheme) = true ↔ ∃ y ∈ l, y.epcUri = x.epcUri) := by
  constructor
  · have key : ∀ c ∈ Cls.all, (match (PyCls.scheme c).hash with | .error .type => true | _ => false) = true := by decide +kernel
    have := key x.cls (Cls.mem_all _)
    split at this
    · rename_i e; exact e
    · cases this
  · simp only [Obj.isIn, Obj.eq, Obj.epcUri, List.any_map, List.any_eq_true, Function.comp, beq_iff_eq]
    exact ⟨fun ⟨y, hy, e⟩ => ⟨y, hy, e.symm⟩, fun ⟨y, hy, e⟩ => ⟨y, hy, e.symm⟩⟩

/-- Two different texts, two objects: only one of them is in the list. -/
example : (do
    let x ← Cls.new .sgtin (py "urn:epc:id:sgtin:0614141.812345.6789")
    let y ← Cls.new .sgtin (py "urn:epc:id:sgtin:0614141.812345.06789")
    .ok ((Obj.scheme x).isIn [.scheme x], (Obj.scheme y).isIn [.scheme x]) : Except Err (Bool × Bool)) = .ok (true, false) := by decide +kernel

end Epc
