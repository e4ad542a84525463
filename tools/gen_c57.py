#!/usr/bin/env python3
"""Generate lean/Verif/Props/C57.lean: a tag URI determines coding scheme, filter value and EPC."""
import os
ROOT = os.path.dirname(os.path.dirname(os.path.abspath(__file__)))
S = [("SGTIN", 8, "sgtin198", "sgtin:9521141.012345.32a%2Fb"), ("SSCC", 8, "sscc96", "sscc:9521141.1234567890"), ("SGLN", 8, "sgln195", "sgln:9521141.12345.32a%2Fb"),
     ("GRAI", 8, "grai170", "grai:9521141.12345.32a%2Fb"), ("GSRN", 8, "gsrn96", "gsrn:9521141.1234567890"), ("GSRNP", 8, "gsrnp96", "gsrnp:9521141.1234567890"),
     ("GDTI", 8, "gdti174", "gdti:9521141.12345.32a%2Fb"), ("CPI", 8, "cpiVar", "cpi:9521141.5PQ7%2FZ43.12345"), ("SGCN", 8, "sgcn96", "sgcn:9521141.67890.04711"),
     ("ITIP", 8, "itip212", "itip:9521141.012345.01.02.mw133"), ("USDOD", 16, "usdod96", "usdod:2S194.12345678901"), ("ADI", 64, "adiVar", "adi:35962.PQ7VZ4.M37GXB92")]
o = '''/-
C57: a tag URI determines the class, the coding scheme, the filter value and the EPC it was made from.

The tag URIs of accepted objects are read back by the general parser as that very object (so objects of different classes never share a tag URI),
and two accepted objects of a class with the same tag URI are equal and were printed with the same coding scheme and filter value.
For GIAI this needs an asset reference without colon; without that condition the coding scheme, the filter value and the two components that
tag_uri prints are determined (C57_giai_partial) and the object is not (C57_giai_claim_false).
Generated by tools/gen_c57.py.
-/
import Verif.Props.C16
import Verif.Lemmas.ParseTag
import Verif.Lemmas.TagForm

namespace Epc
open Spec Re

private theorem sep_inj {s : Char} : ∀ {a a' b b' : Str}, s ∉ a → s ∉ a' → a ++ s :: b = a' ++ s :: b' → a = a' ∧ b = b'
  | [], [], _, _, _, _, h => by simp at h; exact ⟨rfl, h⟩
  | [], c :: _, _, _, _, h', h => by simp at h; exact absurd h.1 (fun e => h' (by simp [e]))
  | c :: _, [], _, _, h', _, h => by simp at h; exact absurd h.1 (fun e => h' (by simp [e]))
  | c :: a, d :: a', _, _, h1, h2, h => by
    simp at h h1 h2
    obtain ⟨e1, e2⟩ := sep_inj h1.2 h2.2 h.2
    exact ⟨by rw [h.1, e1], e2⟩

private theorem value_split {n n' a a' : Str} (hn : ':' ∉ n) (hn' : ':' ∉ n') (h : tagUriPrefix ++ n ++ ':' :: a = tagUriPrefix ++ n' ++ ':' :: a') :
    n = n' ∧ a = a' := by
  rw [List.append_assoc, List.append_assoc, List.append_cancel_left_eq] at h
  exact sep_inj hn hn' h

private theorem filter_split {f g : Nat} {b b' : Str} (h : natStr f ++ '.' :: b = natStr g ++ '.' :: b') : f = g ∧ b = b' := by
  have hd : ∀ n, '.' ∉ natStr n := fun n hm => absurd (Digits_natStr n '.' hm) (by decide)
  obtain ⟨h1, h2⟩ := sep_inj (hd f) (hd g) h
  exact ⟨by rw [← number_natStr f, ← number_natStr g, h1], h2⟩

'''
for X, k, c, ex in S:
    l = X.lower()
    o += f'''/-- {X}. -/
theorem C57_{l} (u : Str) (x : {X}) (cs : {X}.Coding) (f : Fin {k}) (t : Str) (hu : {X}.new u = .ok x) (ht : x.tagUri cs f = .ok t) :
    tagUriToTagEncodable t = .ok (.{l} x) ∧
    ∀ (v : Str) (y : {X}) (cs' : {X}.Coding) (g : Fin {k}), {X}.new v = .ok y → y.tagUri cs' g = .ok t → cs' = cs ∧ g = f ∧ y = x := by
  constructor
  · refine (tagUriToTagEncodable_iff t _).2 ⟨.{l}, ?_⟩
    show ({X}.fromTagUri t).map Scheme.{l} = _
    rw [C16_{l} u x cs f t hu ht]; rfl
  · intro v y cs' g hv hy
    obtain ⟨b, rfl, rfl⟩ := {X}.tagUri_form hu ht
    obtain ⟨b', rfl, e⟩ := {X}.tagUri_form hv hy
    have hc : ∀ c : {X}.Coding, ':' ∉ c.value := by intro c; cases c <;> decide
    obtain ⟨e1, e2⟩ := value_split (hc _) (hc _) e
    obtain ⟨e3, rfl⟩ := filter_split e2
    refine ⟨?_, (Fin.ext e3).symm, ?_⟩
    · revert e1; cases cs <;> cases cs' <;> decide
    · rw [hu] at hv; injection hv with hv; exact hv.symm

example : (({X}.new (py "urn:epc:id:{ex}")).bind fun x => x.tagUri .{c} 3).isOk = true := by decide +kernel

'''
o += '''/-- GID (no filter value). -/
theorem C57_gid (u : Str) (x : GID) (cs : GID.Coding) (t : Str) (hu : GID.new u = .ok x) (ht : x.tagUri cs = .ok t) :
    tagUriToTagEncodable t = .ok (.gid x) ∧
    ∀ (v : Str) (y : GID) (cs' : GID.Coding), GID.new v = .ok y → y.tagUri cs' = .ok t → cs' = cs ∧ y = x := by
  constructor
  · refine (tagUriToTagEncodable_iff t _).2 ⟨.gid, ?_⟩
    show (GID.fromTagUri t).map Scheme.gid = _
    rw [C16_gid u x cs t hu ht]; rfl
  · intro v y cs' hv hy
    obtain ⟨b, rfl, rfl⟩ := GID.tagUri_form hu ht
    obtain ⟨b', rfl, e⟩ := GID.tagUri_form hv hy
    obtain ⟨-, rfl⟩ := value_split (by decide) (by decide) e
    refine ⟨by cases cs; cases cs'; rfl, ?_⟩
    rw [hu] at hv; injection hv with hv; exact hv.symm

example : ((GID.new (py "urn:epc:id:gid:31415.271828.1414")).bind fun x => x.tagUri .gid96).isOk = true := by decide +kernel

/-- GIAI without colon in the URI body. -/
theorem C57_giai (body : Str) (x : GIAI) (cs : GIAI.Coding) (f : Fin 8) (t : Str) (hc : ':' ∉ body)
    (hu : GIAI.new (py "urn:epc:id:giai:" ++ body) = .ok x) (ht : x.tagUri cs f = .ok t) :
    tagUriToTagEncodable t = .ok (.giai x) ∧
    ∀ (body' : Str) (y : GIAI) (cs' : GIAI.Coding) (g : Fin 8), ':' ∉ body' → GIAI.new (py "urn:epc:id:giai:" ++ body') = .ok y →
      y.tagUri cs' g = .ok t → cs' = cs ∧ g = f ∧ y = x := by
  constructor
  · refine (tagUriToTagEncodable_iff t _).2 ⟨.giai, ?_⟩
    show (GIAI.fromTagUri t).map Scheme.giai = _
    rw [C16_giai_partial body x cs f t hc hu ht]; rfl
  · intro v y cs' g hc' hv hy
    have k1 := C16_giai_partial body x cs f t hc hu ht
    have k2 := C16_giai_partial v y cs' g t hc' hv hy
    rw [k1] at k2; injection k2 with k2; subst k2
    obtain ⟨C, S, _, _, _, _, _, rfl⟩ := GIAI.tagUri_form hu ht
    obtain ⟨C', S', _, _, _, _, _, e⟩ := GIAI.tagUri_form hv hy
    have hc : ∀ c : GIAI.Coding, ':' ∉ c.value := by intro c; cases c <;> decide
    obtain ⟨e1, e2⟩ := value_split (hc _) (hc _) e
    obtain ⟨e3, -⟩ := filter_split e2
    refine ⟨?_, (Fin.ext e3).symm, rfl⟩
    revert e1; cases cs <;> cases cs' <;> decide

example : ((GIAI.new (py "urn:epc:id:giai:9521141.32a%2Fb")).bind fun x => x.tagUri .giai202 3).isOk = true := by decide +kernel

/-- GIAI in general: what tag_uri prints is determined. -/
theorem C57_giai_partial (u v : Str) (x y : GIAI) (cs cs' : GIAI.Coding) (f g : Fin 8) (t : Str) (hu : GIAI.new u = .ok x) (ht : x.tagUri cs f = .ok t)
    (hv : GIAI.new v = .ok y) (hy : y.tagUri cs' g = .ok t) :
    cs' = cs ∧ g = f ∧ y.companyPref = x.companyPref ∧ y.assetRef = x.assetRef := by
  obtain ⟨C, S, hC, _, _, rfl, h2, rfl⟩ := GIAI.tagUri_form hu ht
  obtain ⟨C', S', hC', _, _, rfl, h2', e⟩ := GIAI.tagUri_form hv hy
  have hc : ∀ c : GIAI.Coding, ':' ∉ c.value := by intro c; cases c <;> decide
  obtain ⟨e1, e2⟩ := value_split (hc _) (hc _) e
  obtain ⟨e3, e4⟩ := filter_split e2
  have hdot : ∀ {C : Str}, Dec C → '.' ∉ C := fun h hm => absurd (h _ hm) (by decide)
  obtain ⟨e5, e6⟩ := sep_inj (hdot hC.2) (hdot hC'.2) e4
  refine ⟨?_, (Fin.ext e3).symm, e5.symm, ?_⟩
  · revert e1; cases cs <;> cases cs' <;> decide
  · rw [h2, h2', e6]

/-- GIAI: the same tag URI comes from different objects. -/
theorem C57_giai_claim_false : ¬ ∀ (u v : Str) (x y : GIAI) (cs : GIAI.Coding) (f : Fin 8) (t : Str),
    GIAI.new u = .ok x → x.tagUri cs f = .ok t → GIAI.new v = .ok y → y.tagUri cs f = .ok t → y = x := by
  intro h
  have e : ∃ x y t, GIAI.new (py "urn:epc:id:giai:9521141.12:3") = .ok x ∧ x.tagUri .giai202 0 = .ok t ∧ GIAI.new (py "urn:epc:id:giai:9521141.12") = .ok y ∧
      y.tagUri .giai202 0 = .ok t ∧ y ≠ x :=
    ⟨_, _, _, rfl, rfl, rfl, rfl, by decide⟩
  obtain ⟨x, y, t, h1, h2, h3, h4, h5⟩ := e
  exact h5 (h _ _ x y _ _ t h1 h2 h3 h4)

end Epc
'''
open(os.path.join(ROOT, 'lean/Verif/Props/C57.lean'), 'w').write(o)
