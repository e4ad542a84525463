#!/usr/bin/env python3
"""Generate lean/Verif/Props/C79.lean: from_tag_uri with includes_filter=False."""
import os
ROOT = os.path.dirname(os.path.dirname(os.path.abspath(__file__)))
o = '''/-
C79: `from_tag_uri(..., includes_filter=False)` reads a tag URI that has no filter value.
C80: with the flag the wrong way round, `from_tag_uri` returns no object for a tag URI that `tag_uri` wrote.

`fromTagUri X.new b t` is `X.from_tag_uri(t, includes_filter=b)`.
C79 is false for the 13 classes whose tag URIs have a filter value: the pattern for tag URIs demands it whatever the flag.
Generated by tools/gen_c79.py.
-/
import Verif.Lemmas.Layout
import Verif.Lemmas.SerialText
import Verif.Lemmas.TagForm

namespace Epc
open Spec Re

set_option linter.unusedVariables false

/-- The claim: if `urn:epc:id:NAME:BODY` is accepted, then `urn:epc:tag:NAME-SIZE:BODY`, read with `includes_filter=False`, is that object. -/
def C79Claim {X : Type} (new : Str → Except Err X) (name : Str) (sizes : List Str) : Prop :=
  ∀ size ∈ sizes, ∀ body x, new (py "urn:epc:id:" ++ name ++ ':' :: body) = .ok x →
    fromTagUri new false (py "urn:epc:tag:" ++ name ++ '-' :: size ++ ':' :: body) = .ok x

private theorem claim79_false {X : Type} {new : Str → Except Err X} {name : Str} {sizes : List Str} (size body : Str)
    (hs : size ∈ sizes) (h1 : (new (py "urn:epc:id:" ++ name ++ ':' :: body)).toBool = true)
    (h2 : (fromTagUri new false (py "urn:epc:tag:" ++ name ++ '-' :: size ++ ':' :: body)).toBool = false) : ¬ C79Claim new name sizes := by
  intro h
  cases e : new (py "urn:epc:id:" ++ name ++ ':' :: body) with
  | error e' => rw [e] at h1; cases h1
  | ok x => rw [h size hs body x e] at h2; cases h2

private theorem nofilter_ok {X : Type} {new : Str → Except Err X} {t : Str} {y : X} (h : fromTagUri new false t = .ok y) :
    ∃ n body rest, n ∈ tagNames ∧ t = tagUriPrefix ++ n ++ ':' :: (body ++ rest) ∧ ':' ∉ body ∧ (rest = [] ∨ rest.head? = some ':') ∧
      new (py "urn:epc:id:" ++ tagName n ++ ':' :: body) = .ok y := by
  cases hm : Rx.tagUri.matchPrefix t with
  | false => rw [fromTagUri_nomatch hm] at h; cases h
  | true =>
    obtain ⟨n, b, hn, rfl, -⟩ := tagUri_match hm
    rw [fromTagUri_nofilter (tagNames_facts hn).1, if_pos hm] at h
    obtain ⟨t, e, hc, ht⟩ := split_head_form ':' b
    exact ⟨n, _, t, hn, by rw [← e], hc, ht, h⟩

private theorem tagName_no_colon {n : Str} (hn : n ∈ tagNames) : ':' ∉ tagName n :=
  fun h => (tagNames_facts hn).1 (headD_split_mem h)

private theorem wrong_flag {X : Type} {new : Str → Except Err X} {n b : Str} {y : X} {k : Nat} (hn : ':' ∉ n) (hk : k < 100)
    (h : fromTagUri new false (tagUriPrefix ++ n ++ ':' :: (natStr k ++ '.' :: b)) = .ok y) :
    ∃ b', new (py "urn:epc:id:" ++ tagName n ++ ':' :: (natStr k ++ '.' :: b')) = .ok y ∧ (natStr k).length ≤ 2 ∧ '.' ∉ natStr k := by
  have hd : Dec (natStr k) := dec_natStr k
  cases hm : Rx.tagUri.matchPrefix (tagUriPrefix ++ n ++ ':' :: (natStr k ++ '.' :: b)) with
  | false => rw [fromTagUri_nomatch hm] at h; cases h
  | true =>
    rw [fromTagUri_nofilter hn, if_pos hm] at h
    refine ⟨(split ':' b).headD [], ?_, ?_, hd.no_dot⟩
    · rw [head_colon1 hd.no_colon] at h
      exact h
    · exact natStr_length_le (by decide) hk

'''
E = {  # class: name, sizes, counterexample body, coding list, arity bound
 "SGTIN": ("sgtin", ["96", "198"], "9521141.012345.4711", 8),
 "SSCC": ("sscc", ["96"], "9521141.1234567890", 8),
 "SGLN": ("sgln", ["96", "195"], "9521141.12345.4711", 8),
 "GRAI": ("grai", ["96", "170"], "9521141.12345.4711", 8),
 "GIAI": ("giai", ["96", "202"], "9521141.4711", 8),
 "GSRN": ("gsrn", ["96"], "9521141.1234567890", 8),
 "GSRNP": ("gsrnp", ["96"], "9521141.1234567890", 8),
 "GDTI": ("gdti", ["96", "174"], "9521141.12345.4711", 8),
 "CPI": ("cpi", ["96", "var"], "9521141.98765.4711", 8),
 "SGCN": ("sgcn", ["96"], "9521141.67890.04711", 8),
 "ITIP": ("itip", ["110", "212"], "9521141.012345.01.02.4711", 8),
 "USDOD": ("usdod", ["96"], "CAGEY.5678", 16),
 "ADI": ("adi", ["var"], "35962.PQ7VZ4.M37GXB92", 64),
}
for X, (x, sizes, body, nf) in E.items():
    sz = ", ".join(f'py "{s}"' for s in sizes)
    pat = " | ".join("rfl" for _ in sizes)
    mem = f"    obtain ⟨cs, rfl⟩ := {X}.tagNames_iff.1 ⟨hn, hnm⟩\n"
    o += f'''/-- {X}: the claim is false, e.g. for `urn:epc:tag:{x}-{sizes[0]}:{body}`. -/
theorem C79_{x}_claim_false : ¬ C79Claim {X}.new (py "{x}") [{sz}] :=
  claim79_false (py "{sizes[0]}") (py "{body}") (by decide) (by decide +kernel) (by decide +kernel)

/-- {X}: if an object is returned, then it is the one named by the text behind the coding scheme (up to a further colon).  Missing: that it is
returned. -/
theorem C79_{x}_partial (t : Str) (y : {X}) (h : fromTagUri {X}.new false t = .ok y) :
    ∃ size ∈ [{sz}], ∃ body rest, t = py "urn:epc:tag:{x}-" ++ size ++ ':' :: (body ++ rest) ∧ ':' ∉ body ∧
      (rest = [] ∨ rest.head? = some ':') ∧ {X}.new (py "urn:epc:id:{x}:" ++ body) = .ok y := by
  obtain ⟨n, body, rest, hn, rfl, hc, hr, h'⟩ := nofilter_ok h
  have hnm : tagName n = py "{x}" := by
    obtain ⟨-, b, e, -⟩ := {X}.uri_of_new h'
    simp only [List.append_assoc] at e
    exact (append_sep_inj (tagName_no_colon hn) (by decide) (List.append_cancel_left e)).1
  obtain ⟨cs, rfl⟩ := {X}.tagNames_iff.1 ⟨hn, hnm⟩
  rw [hnm] at h'
'''
    for i, s in enumerate(sizes):
        pass
    o += "  cases cs\n"
    for s in sizes:
        o += f'''  · exact ⟨py "{s}", by simp, body, rest, by simp [tagUriPrefix, {X}.Coding.value], hc, hr, by simpa using h'⟩
'''
    o += f'''
/-- {X}: no object with `includes_filter=False`. -/
theorem C80_{x} (u : Str) (x : {X}) (cs : {X}.Coding) (f : Fin {nf}) (t : Str) (hu : {X}.new u = .ok x) (ht : x.tagUri cs f = .ok t) :
    ∀ y, fromTagUri {X}.new false t ≠ .ok y := by
  intro y h
'''
    if X == "GIAI":
        o += f'''  obtain ⟨C₀, S₀, -, -, -, -, -, et⟩ := {X}.tagUri_form hu ht
  rw [et] at h
'''
    else:
        o += f'''  obtain ⟨b, -, rfl⟩ := {X}.tagUri_form hu ht
'''
    o += f'''  obtain ⟨b', h', hl, hd⟩ := wrong_flag (by cases cs <;> decide) (by omega) h
  have hnm : tagName cs.value = py "{x}" := by cases cs <;> rfl
  rw [hnm] at h'
'''
    if X in ("USDOD", "ADI"):
        comp = {"USDOD": "⟨C, S, ⟨hC, -⟩, -, e, -⟩", "ADI": "⟨C, D, S, ⟨hC, -⟩, -, e, -⟩"}[X]
        o += f'''  obtain {comp} := {X}.new_iff.1 h'
  have e1 := (append_sep_inj hd (cage_no_dot hC) (List.append_cancel_left (as := py "urn:epc:id:{x}:") e)).1
  have := ((lang_cage C).1 hC).1
  rw [← e1] at this
  omega

'''
    else:
        comp = {"SGTIN": "⟨C, I, S, ⟨⟨-, hC⟩, -⟩, H, e, -⟩"}
        o += f'''  have h6 : ∃ C r, Dec C ∧ 6 ≤ C.length ∧ natStr f ++ '.' :: b' = C ++ '.' :: r := by
    have hn := {X}.new_iff.1 h'
    first
      | (obtain ⟨C, A, B, D, S, ⟨⟨-, hC⟩, -⟩, H, e, -⟩ := hn; exact ⟨C, _, hC, by omega, List.append_cancel_left (as := py "urn:epc:id:{x}:") e⟩)
      | (obtain ⟨C, D, S, ⟨⟨-, hC⟩, -⟩, H, e, -⟩ := hn; exact ⟨C, _, hC, by omega, List.append_cancel_left (as := py "urn:epc:id:{x}:") e⟩)
      | (obtain ⟨C, S, ⟨⟨-, hC⟩, -⟩, H, e, -⟩ := hn; exact ⟨C, _, hC, by omega, List.append_cancel_left (as := py "urn:epc:id:{x}:") e⟩)
  obtain ⟨C, r, hC, h6, e⟩ := h6
  have e1 := (append_sep_inj hd hC.no_dot e).1
  rw [← e1] at h6
  omega

'''
o += '''/-- GID: no object with `includes_filter=True` (its tag URIs have no filter value and the default is False). -/
theorem C80_gid (u : Str) (x : GID) (cs : GID.Coding) (t : Str) (hu : GID.new u = .ok x) (ht : x.tagUri cs = .ok t) :
    ∀ y, fromTagUri GID.new true t ≠ .ok y := by
  intro y h
  obtain ⟨b, rfl, rfl⟩ := GID.tagUri_form hu ht
  obtain ⟨C, D, S, ⟨hC, hD, hS⟩, -, e, -⟩ := GID.new_iff.1 hu
  have e : b = C ++ '.' :: (D ++ '.' :: S) := List.append_cancel_left (as := py "urn:epc:id:gid:") e
  subst e
  rw [fromTagUri_filter (by decide) hC] at h
  split at h
  · obtain ⟨C', D', S', ⟨hC', hD', hS'⟩, -, e', -⟩ := GID.new_iff.1 h
    have e' := List.append_cancel_left (as := py "urn:epc:id:gid:") e'
    have e1 := (append_sep_inj (Num.dec hD).no_dot (Num.dec hC').no_dot e').2
    exact (Num.dec hS).no_dot (by rw [e1]; simp)
  · cases h

example : SGTIN.fromTagUri (py "urn:epc:tag:sgtin-96:3.9521141.012345.4711") = SGTIN.new (py "urn:epc:id:sgtin:9521141.012345.4711") ∧
    (SGTIN.new (py "urn:epc:id:sgtin:9521141.012345.4711")).toBool = true ∧
    ((do let x ← SGTIN.new (py "urn:epc:id:sgtin:9521141.012345.4711"); x.tagUri .sgtin96 3) : Except Err Str) =
      .ok (py "urn:epc:tag:sgtin-96:3.9521141.012345.4711") := by decide +kernel
-- the hypothesis of C79_sgtin_partial is met: a serial with a dot makes the company prefix pass for a filter value
example : (fromTagUri SGTIN.new false (py "urn:epc:tag:sgtin-96:9521141.012345.1.5")).toBool = true := by decide +kernel

end Epc
'''
open(os.path.join(ROOT, "lean/Verif/Props/C79.lean"), "w").write(o)
