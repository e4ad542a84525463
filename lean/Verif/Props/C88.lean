/-
C88: objects of the base classes.

`C.new u` is `C(u)` and `C.from_epc_uri(u)` for any class `C`, `baseFromTagUri t` is `TagEncodable.from_tag_uri(t)`.
-/
import Verif.Lemmas.Class
import Verif.Lemmas.Dispatch
import Verif.Lemmas.Made

namespace Epc
open Spec

theorem C88_claim_false : ¬ ∀ (C : PyCls) (u : Str) (o : Obj), C.new u = .ok o → ∃ c x, Cls.new c o.epcUri = .ok x := by
  intro h
  obtain ⟨c, x, hx⟩ := h .epcScheme (py "hello") _ rfl
  have key : ∀ c ∈ Cls.all, (Cls.new c (py "hello")).toBool = false := by decide +kernel
  have := key c (Cls.mem_all c)
  rw [show Cls.new c (py "hello") = .ok x from hx] at this
  exact Bool.noConfusion this

/-- The classes that let valid URIs through only. -/
theorem C88_partial (C : PyCls) :
    (∀ u o, C.new u = .ok o → ∃ c x, Cls.new c o.epcUri = .ok x) ↔ C = .object ∨ ∃ c, C = .scheme c := by
  have key : ∀ c ∈ Cls.all, (Cls.new c (py "hello")).toBool = false := by decide +kernel
  have bad : ∀ D : PyCls, D.new (py "hello") = .ok (.base D (py "hello")) →
      ¬ ∀ u o, D.new u = .ok o → ∃ c x, Cls.new c o.epcUri = .ok x := by
    intro D hD h
    obtain ⟨c, x, hx⟩ := h _ _ hD
    have := key c (Cls.mem_all c)
    rw [show Cls.new c (py "hello") = .ok x from hx] at this
    exact Bool.noConfusion this
  cases C with
  | object => exact ⟨fun _ => .inl rfl, fun _ u o h => by cases h⟩
  | epcScheme => exact ⟨fun h => absurd h (bad _ rfl), fun h => by rcases h with h | ⟨c, h⟩ <;> cases h⟩
  | tagEncodable => exact ⟨fun h => absurd h (bad _ rfl), fun h => by rcases h with h | ⟨c, h⟩ <;> cases h⟩
  | gs1Element => exact ⟨fun h => absurd h (bad _ rfl), fun h => by rcases h with h | ⟨c, h⟩ <;> cases h⟩
  | gs1Keyed => exact ⟨fun h => absurd h (bad _ rfl), fun h => by rcases h with h | ⟨c, h⟩ <;> cases h⟩
  | scheme c =>
    refine ⟨fun _ => .inr ⟨c, rfl⟩, fun _ u o h => ?_⟩
    obtain ⟨x, hx, rfl⟩ := map_ok_iff.1 h
    exact ⟨c, x, by rw [Obj.epcUri, (Cls.new_facts hx).2.1]; exact hx⟩

/-- Equality, of objects of whatever classes, is equality of the URIs, and thereby an equivalence relation. -/
theorem C88_equality (a b d : Obj) :
    (a.eq b = true ↔ a.epcUri = b.epcUri) ∧ a.eq a = true ∧ (a.eq b = true → b.eq a = true) ∧ (a.eq b = true → b.eq d = true → a.eq d = true) := by
  simp only [Obj.eq, beq_iff_eq]
  exact ⟨trivial, trivial, Eq.symm, Eq.trans⟩

/-- An object of a base class equals the valid object with the same URI. -/
theorem C88_equals_valid (C : PyCls) (c : Cls) (u : Str) (o : Obj) (x : Scheme) (ho : C.new u = .ok o) (hx : c.new u = .ok x) :
    o.eq (.scheme x) = true := by
  have hu : o.epcUri = u := by
    cases C with
    | object => cases ho
    | scheme d =>
      obtain ⟨y, hy, rfl⟩ := map_ok_iff.1 ho
      exact (Cls.new_facts hy).2.1
    | _ => cases ho; rfl
  rw [Obj.eq, beq_iff_eq, hu]
  exact (Cls.new_facts hx).2.1.symm

/-- `TagEncodable.from_tag_uri` returns an object equal to the one `tag_uri_to_tag_encodable` returns; for GID it has to be told that there is no
filter value. -/
theorem C88_from_tag_uri (t : Str) (y : Scheme) (h : tagUriToTagEncodable t = .ok y) :
    ∃ o, baseFromTagUri t (y.cls ≠ .gid) = .ok o ∧ o.cls = .tagEncodable ∧ o.eq (.scheme y) = true := by
  obtain ⟨c, hc⟩ := (tagUriToTagEncodable_iff t y).1 h
  obtain ⟨hm, hcls⟩ := Cls.fromTagUri_made hc
  have gen : ∀ {α : Type} {new : Str → Except Err α} {b : Bool} {x : α}, Epc.fromTagUri new b t = .ok x →
      ∃ u, new u = .ok x ∧ baseFromTagUri t b = .ok (.base .tagEncodable u) := by
    intro α new b x hx
    unfold baseFromTagUri
    unfold Epc.fromTagUri at hx ⊢
    split at hx
    · cases hx
    · rename_i hh
      rw [if_neg hh]
      obtain ⟨s, hs, hx⟩ := bind_ok_iff.1 hx
      cases b
      · simp only [Bool.false_eq_true, if_false] at hx ⊢
        obtain ⟨v, hv, hx⟩ := bind_ok_iff.1 hx
        obtain ⟨n, hn, hx⟩ := bind_ok_iff.1 hx
        exact ⟨_, hx, by rw [hs, ok_bind, hv, ok_bind, hn, ok_bind]; rfl⟩
      · simp only [if_true] at hx ⊢
        obtain ⟨v, hv, hx⟩ := bind_ok_iff.1 hx
        obtain ⟨n, hn, hx⟩ := bind_ok_iff.1 hx
        exact ⟨_, hx, by rw [hs, ok_bind, hv, ok_bind, hn, ok_bind]; rfl⟩
  have fin : ∀ (b : Bool), (∃ u, c.new u = .ok y ∧ baseFromTagUri t b = .ok (.base .tagEncodable u)) →
      ∃ o, baseFromTagUri t b = .ok o ∧ o.cls = .tagEncodable ∧ o.eq (.scheme y) = true := by
    rintro b ⟨u, hu, ho⟩
    exact ⟨_, ho, rfl, by rw [Obj.eq, beq_iff_eq]; exact (Cls.new_facts hu).2.1.symm⟩
  rw [hcls]
  apply fin
  cases c <;> first
    | (cases hc; done)
    | (obtain ⟨x, hx, rfl⟩ := map_ok_iff.1 hc
       obtain ⟨u, hu, ho⟩ := gen hx
       exact ⟨u, map_ok_iff.2 ⟨x, hu, rfl⟩, ho⟩)

/-- Told nothing, it takes the first component of a GID for a filter value; and it accepts what no class accepts. -/
example : (baseFromTagUri (py "urn:epc:tag:gid-96:952056.2718.1414")).toOption.map Obj.epcUri = some (py "urn:epc:id:gid:2718.1414") ∧
    (baseFromTagUri (py "urn:epc:tag:sscc-96:0.1.2")).toOption.map Obj.epcUri = some (py "urn:epc:id:sscc:1.2") ∧
    (tagUriToTagEncodable (py "urn:epc:tag:sscc-96:0.1.2")).toBool = false := by decide +kernel

/-- The hypotheses of `C88_from_tag_uri` are met. -/
example : (tagUriToTagEncodable (py "urn:epc:tag:sgtin-96:3.0614141.812345.6789")).toBool = true ∧
    (tagUriToTagEncodable (py "urn:epc:tag:gid-96:952056.2718.1414")).toBool = true := by decide +kernel

end Epc
