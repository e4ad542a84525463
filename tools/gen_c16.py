#!/usr/bin/env python3
"""Generate lean/Verif/Lemmas/TagForm.lean and lean/Verif/Props/C16.lean (tag URI round trip, one theorem per scheme)."""
import os
ROOT = os.path.dirname(os.path.dirname(os.path.abspath(__file__)))
# class, conditional?, number of components, filter bound, example URI, coding for example
S = [("SGTIN", 1, 3, 8, "9521141.012345.1.2:3%2F", "sgtin198"), ("SSCC", 0, 2, 8, "9521141.1234567890", "sscc96"),
     ("SGLN", 1, 3, 8, "9521141.12345.5678", "sgln96"), ("GRAI", 1, 3, 8, "9521141.12345.a%22b", "grai170"),
     ("GSRN", 0, 2, 8, "9521141.1234567890", "gsrn96"), ("GSRNP", 0, 2, 8, "9521141.1234567890", "gsrnp96"),
     ("GDTI", 1, 3, 8, "9521141.12345.ABC-1.2", "gdti174"), ("CPI", 1, 3, 8, "9521141.5PQ7%2FZ43.12345", "cpiVar"),
     ("SGCN", 0, 3, 8, "9521141.67890.04711", "sgcn96"), ("ITIP", 1, 5, 8, "9521141.012345.02.04.a:1.2", "itip212"),
     ("USDOD", 0, 2, 16, "CAGEY.5678", "usdod96"), ("ADI", 0, 3, 64, "35962.PQ7VZ4.M37GXB92", "adiVar")]
lem = '''/-
Generated by tools/gen_c16.py.  What `tag_uri` returns, when it returns: the body of the pure identity URI behind the name of the
coding scheme and the filter value.
-/
import Verif.Lemmas.Serial

namespace Epc
open Spec Re
'''
prop = '''/-
C16: tag URIs round-trip.  `from_tag_uri(x.tag_uri(coding, filter)) = x` whenever `tag_uri` returns.

Objects are compared as records of all attributes, which includes the URI.  False for GIAI (see below).
Generated by tools/gen_c16.py.
-/
import Verif.Lemmas.TagForm

namespace Epc
open Spec Re
'''
for C, cond, n, fb, ex, exc in S:
    nm = C.lower()
    names = "C D I J K".split()[:n]
    us = ", ".join(["_"] * n)
    if cond:
        inv = "  unfold tagUri at ht\n  obtain ⟨bad, -, ht⟩ := bind_ok_iff.1 ht\n  split at ht\n  · cases ht\n  · injection ht with ht\n    subst ht\n    exact ⟨_, rfl, by simp [filterStr]⟩\n"
    else:
        inv = "  unfold tagUri at ht\n  injection ht with ht\n  subst ht\n  exact ⟨_, rfl, by simp [filterStr]⟩\n"
    lem += f'''
theorem {C}.tagUri_form {{u t : Str}} {{x : {C}}} {{cs : {C}.Coding}} {{f : Fin {fb}}} (hu : {C}.new u = .ok x) (ht : x.tagUri cs f = .ok t) :
    ∃ b, u = py "urn:epc:id:{nm}:" ++ b ∧ t = tagUriPrefix ++ cs.value ++ ':' :: (natStr f ++ '.' :: b) := by
  obtain ⟨{us}, _, _, rfl, rfl⟩ := {C}.new_iff.1 hu
{inv}'''
    prop += f'''
/-- {C} tag URIs round-trip. -/
theorem C16_{nm} (u : Str) (x : {C}) (cs : {C}.Coding) (f : Fin {fb}) (t : Str)
    (hu : {C}.new u = .ok x) (ht : x.tagUri cs f = .ok t) : {C}.fromTagUri t = .ok x := by
  obtain ⟨b, rfl, rfl⟩ := {C}.tagUri_form hu ht
  exact {C}.fromTagUri_of_new (num_natStr _) hu

example : ((do let x ← {C}.new (py "urn:epc:id:{nm}:{ex}"); x.tagUri .{exc} 3) : Except Err Str).isOk = true := by decide +kernel
'''
lem += '''
theorem GID.tagUri_form {u t : Str} {x : GID} {cs : GID.Coding} (hu : GID.new u = .ok x) (ht : x.tagUri cs = .ok t) :
    ∃ b, u = py "urn:epc:id:gid:" ++ b ∧ t = tagUriPrefix ++ GID.Coding.value .gid96 ++ ':' :: b := by
  obtain ⟨_, _, _, _, _, rfl, rfl⟩ := GID.new_iff.1 hu
  unfold tagUri at ht
  injection ht with ht
  subst ht
  exact ⟨_, rfl, by simp [GID.Coding.value]⟩

/-- For GIAI the tag URI carries the asset reference up to its first colon. -/
theorem GIAI.tagUri_form {u t : Str} {x : GIAI} {cs : GIAI.Coding} {f : Fin 8} (hu : GIAI.new u = .ok x) (ht : x.tagUri cs f = .ok t) :
    ∃ C S, (C ≠ [] ∧ Dec C) ∧ Lang Rx.gs3a3 S ∧ u = py "urn:epc:id:giai:" ++ (C ++ '.' :: S) ∧ x.companyPref = C ∧ x.assetRef = (split ':' S).headD [] ∧
      t = tagUriPrefix ++ cs.value ++ ':' :: (natStr f ++ '.' :: (C ++ '.' :: (split ':' S).headD [])) := by
  obtain ⟨C, S, ⟨hC, hS⟩, _, rfl, rfl⟩ := GIAI.new_iff.1 hu
  unfold tagUri at ht
  obtain ⟨bad, -, ht⟩ := bind_ok_iff.1 ht
  split at ht
  · cases ht
  · injection ht with ht
    subst ht
    exact ⟨C, S, hC, hS, rfl, rfl, rfl, by simp [filterStr]⟩

end Epc
'''
prop += '''
/-- GID tag URIs round-trip (GID has no filter value). -/
theorem C16_gid (u : Str) (x : GID) (cs : GID.Coding) (t : Str)
    (hu : GID.new u = .ok x) (ht : x.tagUri cs = .ok t) : GID.fromTagUri t = .ok x := by
  obtain ⟨b, rfl, rfl⟩ := GID.tagUri_form hu ht
  exact GID.fromTagUri_of_new hu

example : ((do let x ← GID.new (py "urn:epc:id:gid:952056.2718.1414"); x.tagUri .gid96) : Except Err Str).isOk = true := by decide +kernel

/-- The claim is false for GIAI: `urn:epc:id:giai:9521141.1:2` is accepted, `tag_uri` drops everything from the colon on, and the
object read back has another URI. -/
theorem C16_giai_claim_false : ¬ ∀ (u : Str) (x : GIAI) (cs : GIAI.Coding) (f : Fin 8) (t : Str),
    GIAI.new u = .ok x → x.tagUri cs f = .ok t → GIAI.fromTagUri t = .ok x := by
  intro h
  have h1 : ∃ x, GIAI.new (py "urn:epc:id:giai:9521141.1:2") = .ok x ∧ x.tagUri .giai96 0 = .ok (py "urn:epc:tag:giai-96:0.9521141.1") ∧
      x.epcUri = py "urn:epc:id:giai:9521141.1:2" := by
    refine ⟨⟨py "urn:epc:id:giai:9521141.1:2", py "9521141", py "1", py "95211411"⟩, ?_, ?_, rfl⟩ <;> decide +kernel
  obtain ⟨x, hx, ht, hxu⟩ := h1
  have h2 := h _ x .giai96 0 _ hx ht
  have h3 : ∃ y, GIAI.fromTagUri (py "urn:epc:tag:giai-96:0.9521141.1") = .ok y ∧ y.epcUri = py "urn:epc:id:giai:9521141.1" := by
    refine ⟨⟨py "urn:epc:id:giai:9521141.1", py "9521141", py "1", py "95211411"⟩, ?_, rfl⟩; decide +kernel
  obtain ⟨y, hy, hyu⟩ := h3
  rw [hy] at h2
  injection h2 with h2
  rw [h2, hxu] at hyu
  revert hyu; decide

/-- GIAI tag URIs round-trip when the part of the URI after `urn:epc:id:giai:` contains no colon.  Missing: asset references with a
colon, for which it is false. -/
theorem C16_giai_partial (body : Str) (x : GIAI) (cs : GIAI.Coding) (f : Fin 8) (t : Str) (hc : ':' ∉ body)
    (hu : GIAI.new (py "urn:epc:id:giai:" ++ body) = .ok x) (ht : x.tagUri cs f = .ok t) : GIAI.fromTagUri t = .ok x := by
  obtain ⟨C, S, hC, hS, e, -, -, rfl⟩ := GIAI.tagUri_form hu ht
  have e' := List.append_cancel_left e
  subst e'
  have hS : ':' ∉ S := fun h => hc (by simp [h])
  rw [split_notMem hS]
  exact GIAI.fromTagUri_of_new (num_natStr _) hu

/-- For every GIAI the object read back has the same company prefix, asset reference and GS1 key; only the recorded URI may differ.
Missing: equality of the URI, which is false when the asset reference contains a colon. -/
theorem C16_giai_components_partial (u : Str) (x : GIAI) (cs : GIAI.Coding) (f : Fin 8) (t : Str)
    (hu : GIAI.new u = .ok x) (ht : x.tagUri cs f = .ok t) :
    ∃ y, GIAI.fromTagUri t = .ok y ∧ y.companyPref = x.companyPref ∧ y.assetRef = x.assetRef ∧ y.gs1Key = x.gs1Key := by
  obtain ⟨C, S, hC, hS, rfl, -, -, rfl⟩ := GIAI.tagUri_form hu ht
  obtain ⟨C', S', ⟨hC', hS'⟩, ⟨h1, h2, h3⟩, e, hx⟩ := GIAI.new_iff.1 hu
  have e' := List.append_cancel_left (as := py "urn:epc:id:giai:") e
  have e2 := append_sep_inj (Dec.no_dot hC.2) (Dec.no_dot hC'.2) e'
  obtain ⟨rfl, rfl⟩ := e2
  have hne : (split ':' S).headD [] ≠ [] := by
    intro hn
    rw [hn] at h2
    revert h2; decide
  have hS2 : Lang Rx.gs3a3 ((split ':' S).headD []) := gs3a3_head hS hne
  have hn2 : ':' ∉ (split ':' S).headD [] := by
    obtain ⟨a, l, hl⟩ := List.exists_cons_of_ne_nil (split_ne_nil ':' S)
    rw [hl]; exact mem_split (s := S) (by rw [hl]; simp)
  have hs3 : (split ':' ((split ':' S).headD [])).headD [] = (split ':' S).headD [] := by rw [split_notMem hn2]; rfl
  refine ⟨⟨py "urn:epc:id:giai" ++ ':' :: (C ++ '.' :: (split ':' S).headD []), C, (split ':' S).headD [], C ++ replaceUriEscapes ((split ':' S).headD [])⟩, ?_, ?_⟩
  · refine GIAI.fromTagUri_of_new (num_natStr _) (GIAI.new_iff.2 ⟨C, _, ⟨hC, hS2⟩, ?_, rfl, ?_⟩)
    · rw [hs3]; exact ⟨h1, h2, h3⟩
    · rw [hs3]; rfl
  · subst hx; exact ⟨rfl, rfl, rfl⟩

example : ((do let x ← GIAI.new (py "urn:epc:id:giai:9521141.32a%2F"); x.tagUri .giai202 3) : Except Err Str).isOk = true := by decide +kernel

end Epc
'''
open(os.path.join(ROOT, "lean/Verif/Lemmas/TagForm.lean"), "w").write(lem)
open(os.path.join(ROOT, "lean/Verif/Props/C16.lean"), "w").write(prop)
