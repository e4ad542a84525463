/-
Chains of conversions.
-/
import Verif.Spec.Relay
import Verif.Lemmas.Dispatch
import Verif.Props.C18
import Verif.Props.C37
import Verif.Props.C38

namespace Epc
open Spec

/-- One step decides. -/
theorem relay_iff {x : Scheme} : (∀ r, Relay x r → r = .ok x) ↔ ∀ r, Sent x r → r = .ok x := by
  constructor
  · intro H r hr
    cases r with
    | ok y => exact H _ (.onward x y _ hr (.arrived y))
    | error e => exact H _ (.lost x e hr)
  · intro H r hr
    induction hr with
    | arrived => rfl
    | onward y z r hs _ ih =>
      cases H _ hs
      exact ih H
    | lost y e hs => exact H _ hs

theorem sent_ok {c : Cls} {u : Str} {x : Scheme} (hu : c.new u = .ok x)
    (E : ∀ s C, x.gs1ElementString = .ok s → Prefix C x → gs1ElementStringToGs1Element s C.length = .ok x)
    (F : ∀ t b h s, Forms t b h s x → tagUriToTagEncodable t = .ok x ∧ (∀ b', b = .ok b' → binaryToTagEncodable b' = .ok x) ∧
      (∀ h', h = .ok h' → hexToTagEncodable h' = .ok x) ∧ (∀ s', s = .ok s' → base64ToTagEncodable s' = .ok x)) :
    ∀ r, Sent x r → r = .ok x := by
  intro r hr
  cases hr with
  | uri => rw [(c.new_facts hu).2.1]; exact (C38_accepted c u x hu).1
  | element s C hs hC => exact E s C hs hC
  | tagUri t b h s hf => exact (F t b h s hf).1
  | binary t b h s hf => exact (F t _ h s hf).2.1 b rfl
  | hex t h b s hf => exact (F t b _ s hf).2.2.1 h rfl
  | base64 t s b h hf => exact (F t b h _ hf).2.2.2 s rfl

theorem elem_back {c : Cls} {u s : Str} {n : Int} {x : Scheme} (hu : c.new u = .ok x) (hs : x.gs1ElementString = .ok s)
    (hr : c.fromGs1ElementString s n = .ok x) : gs1ElementStringToGs1Element s n = .ok x := by
  rw [C37_dispatch c u x s hu hs, hr]

theorem elem_sent {c : Cls} {u s C : Str} {x : Scheme} (hu : c.new u = .ok x) (H : ∀ r, Sent x r → r = .ok x) (hs : x.gs1ElementString = .ok s)
    (hC : Prefix C x) : c.fromGs1ElementString s C.length = .ok x := by
  have h := H _ (.element x s C hs hC)
  rw [C37_dispatch c u x s hu hs] at h
  exact h

/-- The three binary forms, put together from the decoding and the dispatch. -/
theorem forms_back {X : Type} {inj : X → Scheme} {x : X} {B H S : Except Err Str} {b0 h0 s0 : Str} {fb fh fs : Str → Except Err X}
    (hd : (∀ b, B = .ok b → binaryToTagEncodable b = (fb b).map inj) ∧ (∀ h, H = .ok h → hexToTagEncodable h = (fh h).map inj) ∧
      (∀ s, S = .ok s → base64ToTagEncodable s = (fs s).map inj))
    (hB : B = .ok b0) (hH : H = .ok h0) (hS : S = .ok s0) (rb : fb b0 = .ok x) (rh : fh h0 = .ok x) (rs : fs s0 = .ok x) :
    (∀ b', B = .ok b' → binaryToTagEncodable b' = .ok (inj x)) ∧ (∀ h', H = .ok h' → hexToTagEncodable h' = .ok (inj x)) ∧
      (∀ s', S = .ok s' → base64ToTagEncodable s' = .ok (inj x)) := by
  subst hB hH hS
  refine ⟨fun b' hb => ?_, fun h' hh => ?_, fun s' hs => ?_⟩
  · rw [hd.1 b' hb]; cases hb; rw [rb]; rfl
  · rw [hd.2.1 h' hh]; cases hh; rw [rh]; rfl
  · rw [hd.2.2 s' hs]; cases hs; rw [rs]; rfl

/-- What is decoded is the object itself. -/
theorem decoded_eq {X : Type} {inj : X → Scheme} (hinj : ∀ a b, inj a = inj b → a = b) {x y : X} {t b0 : Str} {h s : Except Err Str}
    {fb : Str → Except Err X} (H : ∀ r, Sent (inj x) r → r = .ok (inj x)) (hf : Forms t (.ok b0) h s (inj x))
    (hd : binaryToTagEncodable b0 = (fb b0).map inj) (rb : fb b0 = .ok y) : y = x := by
  have h1 := H _ (.binary (inj x) t b0 h s hf)
  rw [hd, rb] at h1
  exact hinj _ _ (Except.ok.inj h1)

end Epc
