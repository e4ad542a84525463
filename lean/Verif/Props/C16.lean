/-
C16: tag URIs round-trip.  `from_tag_uri(x.tag_uri(coding, filter)) = x` whenever `tag_uri` returns.

Objects are compared as records of all attributes, which includes the URI.  False for GIAI (see below).
Generated by tools/gen_c16.py.
-/
import Verif.Lemmas.TagForm

namespace Epc
open Spec Re

/-- SGTIN tag URIs round-trip. -/
theorem C16_sgtin (u : Str) (x : SGTIN) (cs : SGTIN.Coding) (f : Fin 8) (t : Str)
    (hu : SGTIN.new u = .ok x) (ht : x.tagUri cs f = .ok t) : SGTIN.fromTagUri t = .ok x := by
  obtain ⟨b, rfl, rfl⟩ := SGTIN.tagUri_form hu ht
  exact SGTIN.fromTagUri_of_new (num_natStr _) hu

example : ((do let x ← SGTIN.new (py "urn:epc:id:sgtin:9521141.012345.1.2:3%2F"); x.tagUri .sgtin198 3) : Except Err Str).isOk = true := by decide +kernel

/-- SSCC tag URIs round-trip. -/
theorem C16_sscc (u : Str) (x : SSCC) (cs : SSCC.Coding) (f : Fin 8) (t : Str)
    (hu : SSCC.new u = .ok x) (ht : x.tagUri cs f = .ok t) : SSCC.fromTagUri t = .ok x := by
  obtain ⟨b, rfl, rfl⟩ := SSCC.tagUri_form hu ht
  exact SSCC.fromTagUri_of_new (num_natStr _) hu

example : ((do let x ← SSCC.new (py "urn:epc:id:sscc:9521141.1234567890"); x.tagUri .sscc96 3) : Except Err Str).isOk = true := by decide +kernel

/-- SGLN tag URIs round-trip. -/
theorem C16_sgln (u : Str) (x : SGLN) (cs : SGLN.Coding) (f : Fin 8) (t : Str)
    (hu : SGLN.new u = .ok x) (ht : x.tagUri cs f = .ok t) : SGLN.fromTagUri t = .ok x := by
  obtain ⟨b, rfl, rfl⟩ := SGLN.tagUri_form hu ht
  exact SGLN.fromTagUri_of_new (num_natStr _) hu

example : ((do let x ← SGLN.new (py "urn:epc:id:sgln:9521141.12345.5678"); x.tagUri .sgln96 3) : Except Err Str).isOk = true := by decide +kernel

/-- GRAI tag URIs round-trip. -/
theorem C16_grai (u : Str) (x : GRAI) (cs : GRAI.Coding) (f : Fin 8) (t : Str)
    (hu : GRAI.new u = .ok x) (ht : x.tagUri cs f = .ok t) : GRAI.fromTagUri t = .ok x := by
  obtain ⟨b, rfl, rfl⟩ := GRAI.tagUri_form hu ht
  exact GRAI.fromTagUri_of_new (num_natStr _) hu

example : ((do let x ← GRAI.new (py "urn:epc:id:grai:9521141.12345.a%22b"); x.tagUri .grai170 3) : Except Err Str).isOk = true := by decide +kernel

/-- GSRN tag URIs round-trip. -/
theorem C16_gsrn (u : Str) (x : GSRN) (cs : GSRN.Coding) (f : Fin 8) (t : Str)
    (hu : GSRN.new u = .ok x) (ht : x.tagUri cs f = .ok t) : GSRN.fromTagUri t = .ok x := by
  obtain ⟨b, rfl, rfl⟩ := GSRN.tagUri_form hu ht
  exact GSRN.fromTagUri_of_new (num_natStr _) hu

example : ((do let x ← GSRN.new (py "urn:epc:id:gsrn:9521141.1234567890"); x.tagUri .gsrn96 3) : Except Err Str).isOk = true := by decide +kernel

/-- GSRNP tag URIs round-trip. -/
theorem C16_gsrnp (u : Str) (x : GSRNP) (cs : GSRNP.Coding) (f : Fin 8) (t : Str)
    (hu : GSRNP.new u = .ok x) (ht : x.tagUri cs f = .ok t) : GSRNP.fromTagUri t = .ok x := by
  obtain ⟨b, rfl, rfl⟩ := GSRNP.tagUri_form hu ht
  exact GSRNP.fromTagUri_of_new (num_natStr _) hu

example : ((do let x ← GSRNP.new (py "urn:epc:id:gsrnp:9521141.1234567890"); x.tagUri .gsrnp96 3) : Except Err Str).isOk = true := by decide +kernel

/-- GDTI tag URIs round-trip. -/
theorem C16_gdti (u : Str) (x : GDTI) (cs : GDTI.Coding) (f : Fin 8) (t : Str)
    (hu : GDTI.new u = .ok x) (ht : x.tagUri cs f = .ok t) : GDTI.fromTagUri t = .ok x := by
  obtain ⟨b, rfl, rfl⟩ := GDTI.tagUri_form hu ht
  exact GDTI.fromTagUri_of_new (num_natStr _) hu

example : ((do let x ← GDTI.new (py "urn:epc:id:gdti:9521141.12345.ABC-1.2"); x.tagUri .gdti174 3) : Except Err Str).isOk = true := by decide +kernel

/-- CPI tag URIs round-trip. -/
theorem C16_cpi (u : Str) (x : CPI) (cs : CPI.Coding) (f : Fin 8) (t : Str)
    (hu : CPI.new u = .ok x) (ht : x.tagUri cs f = .ok t) : CPI.fromTagUri t = .ok x := by
  obtain ⟨b, rfl, rfl⟩ := CPI.tagUri_form hu ht
  exact CPI.fromTagUri_of_new (num_natStr _) hu

example : ((do let x ← CPI.new (py "urn:epc:id:cpi:9521141.5PQ7%2FZ43.12345"); x.tagUri .cpiVar 3) : Except Err Str).isOk = true := by decide +kernel

/-- SGCN tag URIs round-trip. -/
theorem C16_sgcn (u : Str) (x : SGCN) (cs : SGCN.Coding) (f : Fin 8) (t : Str)
    (hu : SGCN.new u = .ok x) (ht : x.tagUri cs f = .ok t) : SGCN.fromTagUri t = .ok x := by
  obtain ⟨b, rfl, rfl⟩ := SGCN.tagUri_form hu ht
  exact SGCN.fromTagUri_of_new (num_natStr _) hu

example : ((do let x ← SGCN.new (py "urn:epc:id:sgcn:9521141.67890.04711"); x.tagUri .sgcn96 3) : Except Err Str).isOk = true := by decide +kernel

/-- ITIP tag URIs round-trip. -/
theorem C16_itip (u : Str) (x : ITIP) (cs : ITIP.Coding) (f : Fin 8) (t : Str)
    (hu : ITIP.new u = .ok x) (ht : x.tagUri cs f = .ok t) : ITIP.fromTagUri t = .ok x := by
  obtain ⟨b, rfl, rfl⟩ := ITIP.tagUri_form hu ht
  exact ITIP.fromTagUri_of_new (num_natStr _) hu

example : ((do let x ← ITIP.new (py "urn:epc:id:itip:9521141.012345.02.04.a:1.2"); x.tagUri .itip212 3) : Except Err Str).isOk = true := by decide +kernel

/-- USDOD tag URIs round-trip. -/
theorem C16_usdod (u : Str) (x : USDOD) (cs : USDOD.Coding) (f : Fin 16) (t : Str)
    (hu : USDOD.new u = .ok x) (ht : x.tagUri cs f = .ok t) : USDOD.fromTagUri t = .ok x := by
  obtain ⟨b, rfl, rfl⟩ := USDOD.tagUri_form hu ht
  exact USDOD.fromTagUri_of_new (num_natStr _) hu

example : ((do let x ← USDOD.new (py "urn:epc:id:usdod:CAGEY.5678"); x.tagUri .usdod96 3) : Except Err Str).isOk = true := by decide +kernel

/-- ADI tag URIs round-trip. -/
theorem C16_adi (u : Str) (x : ADI) (cs : ADI.Coding) (f : Fin 64) (t : Str)
    (hu : ADI.new u = .ok x) (ht : x.tagUri cs f = .ok t) : ADI.fromTagUri t = .ok x := by
  obtain ⟨b, rfl, rfl⟩ := ADI.tagUri_form hu ht
  exact ADI.fromTagUri_of_new (num_natStr _) hu

example : ((do let x ← ADI.new (py "urn:epc:id:adi:35962.PQ7VZ4.M37GXB92"); x.tagUri .adiVar 3) : Except Err Str).isOk = true := by decide +kernel

/-- GID tag URIs round-trip (GID has no filter value). -/
theorem C16_gid (u : Str) (x : GID) (cs : GID.Coding) (t : Str)
    (hu : GID.new u = .ok x) (ht : x.tagUri cs = .ok t) : GID.fromTagUri t = .ok x := by
  obtain ⟨b, rfl, rfl⟩ := GID.tagUri_form hu ht
  exact GID.fromTagUri_of_new hu

example : ((do let x ← GID.new (py "urn:epc:id:gid:952056.2718.1414"); x.tagUri .gid96) : Except Err Str).isOk = true := by decide +kernel

/-- The claim is false for GIAI: `urn:epc:id:giai:9521141.1:2` is accepted, `tag_uri` drops everything from the colon on, and the
object read back has another URI. -/
theorem C16_giai_claim_false : ¬ ∀ (u : Str) (x : GIAI) (cs : GIAI.Coding) (f : Fin 8) (t : Str),
    GIAI.new u = .ok x → x.tagUri cs f = .ok t → GIAI.fromTagUri t = .ok x := by
  intro h
  have h1 : ∃ x, GIAI.new (py "urn:epc:id:giai:9521141.1:2") = .ok x ∧ x.tagUri .giai96 0 = .ok (py "urn:epc:tag:giai-96:0.9521141.1") ∧
      x.epcUri = py "urn:epc:id:giai:9521141.1:2" := by
    refine ⟨⟨py "urn:epc:id:giai:9521141.1:2", py "9521141", py "1", py "95211411"⟩, ?_, ?_, rfl⟩ <;> decide +kernel
  obtain ⟨x, hx, ht, hxu⟩ := h1
  have h2 := h _ x .giai96 0 _ hx ht
  have h3 : ∃ y, GIAI.fromTagUri (py "urn:epc:tag:giai-96:0.9521141.1") = .ok y ∧ y.epcUri = py "urn:epc:id:giai:9521141.1" := by
    refine ⟨⟨py "urn:epc:id:giai:9521141.1", py "9521141", py "1", py "95211411"⟩, ?_, rfl⟩; decide +kernel
  obtain ⟨y, hy, hyu⟩ := h3
  rw [hy] at h2
  injection h2 with h2
  rw [h2, hxu] at hyu
  revert hyu; decide

/-- GIAI tag URIs round-trip when the part of the URI after `urn:epc:id:giai:` contains no colon.  Missing: asset references with a
colon, for which it is false. -/
theorem C16_giai_partial (body : Str) (x : GIAI) (cs : GIAI.Coding) (f : Fin 8) (t : Str) (hc : ':' ∉ body)
    (hu : GIAI.new (py "urn:epc:id:giai:" ++ body) = .ok x) (ht : x.tagUri cs f = .ok t) : GIAI.fromTagUri t = .ok x := by
  obtain ⟨C, S, hC, hS, e, -, -, rfl⟩ := GIAI.tagUri_form hu ht
  have e' := List.append_cancel_left e
  subst e'
  have hS : ':' ∉ S := fun h => hc (by simp [h])
  rw [split_notMem hS]
  exact GIAI.fromTagUri_of_new (num_natStr _) hu

/-- For every GIAI the object read back has the same company prefix, asset reference and GS1 key; only the recorded URI may differ.
Missing: equality of the URI, which is false when the asset reference contains a colon. -/
theorem C16_giai_components_partial (u : Str) (x : GIAI) (cs : GIAI.Coding) (f : Fin 8) (t : Str)
    (hu : GIAI.new u = .ok x) (ht : x.tagUri cs f = .ok t) :
    ∃ y, GIAI.fromTagUri t = .ok y ∧ y.companyPref = x.companyPref ∧ y.assetRef = x.assetRef ∧ y.gs1Key = x.gs1Key := by
  obtain ⟨C, S, hC, hS, rfl, -, -, rfl⟩ := GIAI.tagUri_form hu ht
  obtain ⟨C', S', ⟨hC', hS'⟩, ⟨h1, h2, h3⟩, e, hx⟩ := GIAI.new_iff.1 hu
  have e' := List.append_cancel_left (as := py "urn:epc:id:giai:") e
  have e2 := append_sep_inj (Dec.no_dot hC.2) (Dec.no_dot hC'.2) e'
  obtain ⟨rfl, rfl⟩ := e2
  have hne : (split ':' S).headD [] ≠ [] := by
    intro hn
    rw [hn] at h2
    revert h2; decide
  have hS2 : Lang Rx.gs3a3 ((split ':' S).headD []) := gs3a3_head hS hne
  have hn2 : ':' ∉ (split ':' S).headD [] := by
    obtain ⟨a, l, hl⟩ := List.exists_cons_of_ne_nil (split_ne_nil ':' S)
    rw [hl]; exact mem_split (s := S) (by rw [hl]; simp)
  have hs3 : (split ':' ((split ':' S).headD [])).headD [] = (split ':' S).headD [] := by rw [split_notMem hn2]; rfl
  refine ⟨⟨py "urn:epc:id:giai" ++ ':' :: (C ++ '.' :: (split ':' S).headD []), C, (split ':' S).headD [], C ++ replaceUriEscapes ((split ':' S).headD [])⟩, ?_, ?_⟩
  · refine GIAI.fromTagUri_of_new (num_natStr _) (GIAI.new_iff.2 ⟨C, _, ⟨hC, hS2⟩, ?_, rfl, ?_⟩)
    · rw [hs3]; exact ⟨h1, h2, h3⟩
    · rw [hs3]; rfl
  · subst hx; exact ⟨rfl, rfl, rfl⟩

example : ((do let x ← GIAI.new (py "urn:epc:id:giai:9521141.32a%2F"); x.tagUri .giai202 3) : Except Err Str).isOk = true := by decide +kernel

end Epc
