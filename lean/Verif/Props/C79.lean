/-
C79: `from_tag_uri(..., includes_filter=False)` reads a tag URI that has no filter value.
C80: with the flag the wrong way round, `from_tag_uri` returns no object for a tag URI that `tag_uri` wrote.

`fromTagUri X.new b t` is `X.from_tag_uri(t, includes_filter=b)`.
C79 is false for the 13 classes whose tag URIs have a filter value: the pattern for tag URIs demands it whatever the flag.
Generated by tools/gen_c79.py.
-/
import Verif.Lemmas.Layout
import Verif.Lemmas.SerialText
import Verif.Lemmas.TagForm

namespace Epc
open Spec Re

set_option linter.unusedVariables false

/-- The claim: if `urn:epc:id:NAME:BODY` is accepted, then `urn:epc:tag:NAME-SIZE:BODY`, read with `includes_filter=False`, is that object. -/
def C79Claim {X : Type} (new : Str → Except Err X) (name : Str) (sizes : List Str) : Prop :=
  ∀ size ∈ sizes, ∀ body x, new (py "urn:epc:id:" ++ name ++ ':' :: body) = .ok x →
    fromTagUri new false (py "urn:epc:tag:" ++ name ++ '-' :: size ++ ':' :: body) = .ok x

private theorem claim79_false {X : Type} {new : Str → Except Err X} {name : Str} {sizes : List Str} (size body : Str)
    (hs : size ∈ sizes) (h1 : (new (py "urn:epc:id:" ++ name ++ ':' :: body)).toBool = true)
    (h2 : (fromTagUri new false (py "urn:epc:tag:" ++ name ++ '-' :: size ++ ':' :: body)).toBool = false) : ¬ C79Claim new name sizes := by
  intro h
  cases e : new (py "urn:epc:id:" ++ name ++ ':' :: body) with
  | error e' => rw [e] at h1; cases h1
  | ok x => rw [h size hs body x e] at h2; cases h2

private theorem nofilter_ok {X : Type} {new : Str → Except Err X} {t : Str} {y : X} (h : fromTagUri new false t = .ok y) :
    ∃ n body rest, n ∈ tagNames ∧ t = tagUriPrefix ++ n ++ ':' :: (body ++ rest) ∧ ':' ∉ body ∧ (rest = [] ∨ rest.head? = some ':') ∧
      new (py "urn:epc:id:" ++ tagName n ++ ':' :: body) = .ok y := by
  cases hm : Rx.tagUri.matchPrefix t with
  | false => rw [fromTagUri_nomatch hm] at h; cases h
  | true =>
    obtain ⟨n, b, hn, rfl, -⟩ := tagUri_match hm
    rw [fromTagUri_nofilter (tagNames_facts hn).1, if_pos hm] at h
    obtain ⟨t, e, hc, ht⟩ := split_head_form ':' b
    exact ⟨n, _, t, hn, by rw [← e], hc, ht, h⟩

private theorem tagName_no_colon {n : Str} (hn : n ∈ tagNames) : ':' ∉ tagName n :=
  fun h => (tagNames_facts hn).1 (headD_split_mem h)

private theorem wrong_flag {X : Type} {new : Str → Except Err X} {n b : Str} {y : X} {k : Nat} (hn : ':' ∉ n) (hk : k < 100)
    (h : fromTagUri new false (tagUriPrefix ++ n ++ ':' :: (natStr k ++ '.' :: b)) = .ok y) :
    ∃ b', new (py "urn:epc:id:" ++ tagName n ++ ':' :: (natStr k ++ '.' :: b')) = .ok y ∧ (natStr k).length ≤ 2 ∧ '.' ∉ natStr k := by
  have hd : Dec (natStr k) := dec_natStr k
  cases hm : Rx.tagUri.matchPrefix (tagUriPrefix ++ n ++ ':' :: (natStr k ++ '.' :: b)) with
  | false => rw [fromTagUri_nomatch hm] at h; cases h
  | true =>
    rw [fromTagUri_nofilter hn, if_pos hm] at h
    refine ⟨(split ':' b).headD [], ?_, ?_, hd.no_dot⟩
    · rw [head_colon1 hd.no_colon] at h
      exact h
    · exact natStr_length_le (by decide) hk

/-- SGTIN: the claim is false, e.g. for `urn:epc:tag:sgtin-96:9521141.012345.4711`. -/
theorem C79_sgtin_claim_false : ¬ C79Claim SGTIN.new (py "sgtin") [py "96", py "198"] :=
  claim79_false (py "96") (py "9521141.012345.4711") (by decide) (by decide +kernel) (by decide +kernel)

/-- SGTIN: if an object is returned, then it is the one named by the text behind the coding scheme (up to a further colon).  Missing: that it is
returned. -/
theorem C79_sgtin_partial (t : Str) (y : SGTIN) (h : fromTagUri SGTIN.new false t = .ok y) :
    ∃ size ∈ [py "96", py "198"], ∃ body rest, t = py "urn:epc:tag:sgtin-" ++ size ++ ':' :: (body ++ rest) ∧ ':' ∉ body ∧
      (rest = [] ∨ rest.head? = some ':') ∧ SGTIN.new (py "urn:epc:id:sgtin:" ++ body) = .ok y := by
  obtain ⟨n, body, rest, hn, rfl, hc, hr, h'⟩ := nofilter_ok h
  have hnm : tagName n = py "sgtin" := by
    obtain ⟨-, b, e, -⟩ := SGTIN.uri_of_new h'
    simp only [List.append_assoc] at e
    exact (append_sep_inj (tagName_no_colon hn) (by decide) (List.append_cancel_left e)).1
  obtain ⟨cs, rfl⟩ := SGTIN.tagNames_iff.1 ⟨hn, hnm⟩
  rw [hnm] at h'
  cases cs
  · exact ⟨py "96", by simp, body, rest, by simp [tagUriPrefix, SGTIN.Coding.value], hc, hr, by simpa using h'⟩
  · exact ⟨py "198", by simp, body, rest, by simp [tagUriPrefix, SGTIN.Coding.value], hc, hr, by simpa using h'⟩

/-- SGTIN: no object with `includes_filter=False`. -/
theorem C80_sgtin (u : Str) (x : SGTIN) (cs : SGTIN.Coding) (f : Fin 8) (t : Str) (hu : SGTIN.new u = .ok x) (ht : x.tagUri cs f = .ok t) :
    ∀ y, fromTagUri SGTIN.new false t ≠ .ok y := by
  intro y h
  obtain ⟨b, -, rfl⟩ := SGTIN.tagUri_form hu ht
  obtain ⟨b', h', hl, hd⟩ := wrong_flag (by cases cs <;> decide) (by omega) h
  have hnm : tagName cs.value = py "sgtin" := by cases cs <;> rfl
  rw [hnm] at h'
  have h6 : ∃ C r, Dec C ∧ 6 ≤ C.length ∧ natStr f ++ '.' :: b' = C ++ '.' :: r := by
    have hn := SGTIN.new_iff.1 h'
    first
      | (obtain ⟨C, A, B, D, S, ⟨⟨-, hC⟩, -⟩, H, e, -⟩ := hn; exact ⟨C, _, hC, by omega, List.append_cancel_left (as := py "urn:epc:id:sgtin:") e⟩)
      | (obtain ⟨C, D, S, ⟨⟨-, hC⟩, -⟩, H, e, -⟩ := hn; exact ⟨C, _, hC, by omega, List.append_cancel_left (as := py "urn:epc:id:sgtin:") e⟩)
      | (obtain ⟨C, S, ⟨⟨-, hC⟩, -⟩, H, e, -⟩ := hn; exact ⟨C, _, hC, by omega, List.append_cancel_left (as := py "urn:epc:id:sgtin:") e⟩)
  obtain ⟨C, r, hC, h6, e⟩ := h6
  have e1 := (append_sep_inj hd hC.no_dot e).1
  rw [← e1] at h6
  omega

/-- SSCC: the claim is false, e.g. for `urn:epc:tag:sscc-96:9521141.1234567890`. -/
theorem C79_sscc_claim_false : ¬ C79Claim SSCC.new (py "sscc") [py "96"] :=
  claim79_false (py "96") (py "9521141.1234567890") (by decide) (by decide +kernel) (by decide +kernel)

/-- SSCC: if an object is returned, then it is the one named by the text behind the coding scheme (up to a further colon).  Missing: that it is
returned. -/
theorem C79_sscc_partial (t : Str) (y : SSCC) (h : fromTagUri SSCC.new false t = .ok y) :
    ∃ size ∈ [py "96"], ∃ body rest, t = py "urn:epc:tag:sscc-" ++ size ++ ':' :: (body ++ rest) ∧ ':' ∉ body ∧
      (rest = [] ∨ rest.head? = some ':') ∧ SSCC.new (py "urn:epc:id:sscc:" ++ body) = .ok y := by
  obtain ⟨n, body, rest, hn, rfl, hc, hr, h'⟩ := nofilter_ok h
  have hnm : tagName n = py "sscc" := by
    obtain ⟨-, b, e, -⟩ := SSCC.uri_of_new h'
    simp only [List.append_assoc] at e
    exact (append_sep_inj (tagName_no_colon hn) (by decide) (List.append_cancel_left e)).1
  obtain ⟨cs, rfl⟩ := SSCC.tagNames_iff.1 ⟨hn, hnm⟩
  rw [hnm] at h'
  cases cs
  · exact ⟨py "96", by simp, body, rest, by simp [tagUriPrefix, SSCC.Coding.value], hc, hr, by simpa using h'⟩

/-- SSCC: no object with `includes_filter=False`. -/
theorem C80_sscc (u : Str) (x : SSCC) (cs : SSCC.Coding) (f : Fin 8) (t : Str) (hu : SSCC.new u = .ok x) (ht : x.tagUri cs f = .ok t) :
    ∀ y, fromTagUri SSCC.new false t ≠ .ok y := by
  intro y h
  obtain ⟨b, -, rfl⟩ := SSCC.tagUri_form hu ht
  obtain ⟨b', h', hl, hd⟩ := wrong_flag (by cases cs <;> decide) (by omega) h
  have hnm : tagName cs.value = py "sscc" := by cases cs <;> rfl
  rw [hnm] at h'
  have h6 : ∃ C r, Dec C ∧ 6 ≤ C.length ∧ natStr f ++ '.' :: b' = C ++ '.' :: r := by
    have hn := SSCC.new_iff.1 h'
    first
      | (obtain ⟨C, A, B, D, S, ⟨⟨-, hC⟩, -⟩, H, e, -⟩ := hn; exact ⟨C, _, hC, by omega, List.append_cancel_left (as := py "urn:epc:id:sscc:") e⟩)
      | (obtain ⟨C, D, S, ⟨⟨-, hC⟩, -⟩, H, e, -⟩ := hn; exact ⟨C, _, hC, by omega, List.append_cancel_left (as := py "urn:epc:id:sscc:") e⟩)
      | (obtain ⟨C, S, ⟨⟨-, hC⟩, -⟩, H, e, -⟩ := hn; exact ⟨C, _, hC, by omega, List.append_cancel_left (as := py "urn:epc:id:sscc:") e⟩)
  obtain ⟨C, r, hC, h6, e⟩ := h6
  have e1 := (append_sep_inj hd hC.no_dot e).1
  rw [← e1] at h6
  omega

/-- SGLN: the claim is false, e.g. for `urn:epc:tag:sgln-96:9521141.12345.4711`. -/
theorem C79_sgln_claim_false : ¬ C79Claim SGLN.new (py "sgln") [py "96", py "195"] :=
  claim79_false (py "96") (py "9521141.12345.4711") (by decide) (by decide +kernel) (by decide +kernel)

/-- SGLN: if an object is returned, then it is the one named by the text behind the coding scheme (up to a further colon).  Missing: that it is
returned. -/
theorem C79_sgln_partial (t : Str) (y : SGLN) (h : fromTagUri SGLN.new false t = .ok y) :
    ∃ size ∈ [py "96", py "195"], ∃ body rest, t = py "urn:epc:tag:sgln-" ++ size ++ ':' :: (body ++ rest) ∧ ':' ∉ body ∧
      (rest = [] ∨ rest.head? = some ':') ∧ SGLN.new (py "urn:epc:id:sgln:" ++ body) = .ok y := by
  obtain ⟨n, body, rest, hn, rfl, hc, hr, h'⟩ := nofilter_ok h
  have hnm : tagName n = py "sgln" := by
    obtain ⟨-, b, e, -⟩ := SGLN.uri_of_new h'
    simp only [List.append_assoc] at e
    exact (append_sep_inj (tagName_no_colon hn) (by decide) (List.append_cancel_left e)).1
  obtain ⟨cs, rfl⟩ := SGLN.tagNames_iff.1 ⟨hn, hnm⟩
  rw [hnm] at h'
  cases cs
  · exact ⟨py "96", by simp, body, rest, by simp [tagUriPrefix, SGLN.Coding.value], hc, hr, by simpa using h'⟩
  · exact ⟨py "195", by simp, body, rest, by simp [tagUriPrefix, SGLN.Coding.value], hc, hr, by simpa using h'⟩

/-- SGLN: no object with `includes_filter=False`. -/
theorem C80_sgln (u : Str) (x : SGLN) (cs : SGLN.Coding) (f : Fin 8) (t : Str) (hu : SGLN.new u = .ok x) (ht : x.tagUri cs f = .ok t) :
    ∀ y, fromTagUri SGLN.new false t ≠ .ok y := by
  intro y h
  obtain ⟨b, -, rfl⟩ := SGLN.tagUri_form hu ht
  obtain ⟨b', h', hl, hd⟩ := wrong_flag (by cases cs <;> decide) (by omega) h
  have hnm : tagName cs.value = py "sgln" := by cases cs <;> rfl
  rw [hnm] at h'
  have h6 : ∃ C r, Dec C ∧ 6 ≤ C.length ∧ natStr f ++ '.' :: b' = C ++ '.' :: r := by
    have hn := SGLN.new_iff.1 h'
    first
      | (obtain ⟨C, A, B, D, S, ⟨⟨-, hC⟩, -⟩, H, e, -⟩ := hn; exact ⟨C, _, hC, by omega, List.append_cancel_left (as := py "urn:epc:id:sgln:") e⟩)
      | (obtain ⟨C, D, S, ⟨⟨-, hC⟩, -⟩, H, e, -⟩ := hn; exact ⟨C, _, hC, by omega, List.append_cancel_left (as := py "urn:epc:id:sgln:") e⟩)
      | (obtain ⟨C, S, ⟨⟨-, hC⟩, -⟩, H, e, -⟩ := hn; exact ⟨C, _, hC, by omega, List.append_cancel_left (as := py "urn:epc:id:sgln:") e⟩)
  obtain ⟨C, r, hC, h6, e⟩ := h6
  have e1 := (append_sep_inj hd hC.no_dot e).1
  rw [← e1] at h6
  omega

/-- GRAI: the claim is false, e.g. for `urn:epc:tag:grai-96:9521141.12345.4711`. -/
theorem C79_grai_claim_false : ¬ C79Claim GRAI.new (py "grai") [py "96", py "170"] :=
  claim79_false (py "96") (py "9521141.12345.4711") (by decide) (by decide +kernel) (by decide +kernel)

/-- GRAI: if an object is returned, then it is the one named by the text behind the coding scheme (up to a further colon).  Missing: that it is
returned. -/
theorem C79_grai_partial (t : Str) (y : GRAI) (h : fromTagUri GRAI.new false t = .ok y) :
    ∃ size ∈ [py "96", py "170"], ∃ body rest, t = py "urn:epc:tag:grai-" ++ size ++ ':' :: (body ++ rest) ∧ ':' ∉ body ∧
      (rest = [] ∨ rest.head? = some ':') ∧ GRAI.new (py "urn:epc:id:grai:" ++ body) = .ok y := by
  obtain ⟨n, body, rest, hn, rfl, hc, hr, h'⟩ := nofilter_ok h
  have hnm : tagName n = py "grai" := by
    obtain ⟨-, b, e, -⟩ := GRAI.uri_of_new h'
    simp only [List.append_assoc] at e
    exact (append_sep_inj (tagName_no_colon hn) (by decide) (List.append_cancel_left e)).1
  obtain ⟨cs, rfl⟩ := GRAI.tagNames_iff.1 ⟨hn, hnm⟩
  rw [hnm] at h'
  cases cs
  · exact ⟨py "96", by simp, body, rest, by simp [tagUriPrefix, GRAI.Coding.value], hc, hr, by simpa using h'⟩
  · exact ⟨py "170", by simp, body, rest, by simp [tagUriPrefix, GRAI.Coding.value], hc, hr, by simpa using h'⟩

/-- GRAI: no object with `includes_filter=False`. -/
theorem C80_grai (u : Str) (x : GRAI) (cs : GRAI.Coding) (f : Fin 8) (t : Str) (hu : GRAI.new u = .ok x) (ht : x.tagUri cs f = .ok t) :
    ∀ y, fromTagUri GRAI.new false t ≠ .ok y := by
  intro y h
  obtain ⟨b, -, rfl⟩ := GRAI.tagUri_form hu ht
  obtain ⟨b', h', hl, hd⟩ := wrong_flag (by cases cs <;> decide) (by omega) h
  have hnm : tagName cs.value = py "grai" := by cases cs <;> rfl
  rw [hnm] at h'
  have h6 : ∃ C r, Dec C ∧ 6 ≤ C.length ∧ natStr f ++ '.' :: b' = C ++ '.' :: r := by
    have hn := GRAI.new_iff.1 h'
    first
      | (obtain ⟨C, A, B, D, S, ⟨⟨-, hC⟩, -⟩, H, e, -⟩ := hn; exact ⟨C, _, hC, by omega, List.append_cancel_left (as := py "urn:epc:id:grai:") e⟩)
      | (obtain ⟨C, D, S, ⟨⟨-, hC⟩, -⟩, H, e, -⟩ := hn; exact ⟨C, _, hC, by omega, List.append_cancel_left (as := py "urn:epc:id:grai:") e⟩)
      | (obtain ⟨C, S, ⟨⟨-, hC⟩, -⟩, H, e, -⟩ := hn; exact ⟨C, _, hC, by omega, List.append_cancel_left (as := py "urn:epc:id:grai:") e⟩)
  obtain ⟨C, r, hC, h6, e⟩ := h6
  have e1 := (append_sep_inj hd hC.no_dot e).1
  rw [← e1] at h6
  omega

/-- GIAI: the claim is false, e.g. for `urn:epc:tag:giai-96:9521141.4711`. -/
theorem C79_giai_claim_false : ¬ C79Claim GIAI.new (py "giai") [py "96", py "202"] :=
  claim79_false (py "96") (py "9521141.4711") (by decide) (by decide +kernel) (by decide +kernel)

/-- GIAI: if an object is returned, then it is the one named by the text behind the coding scheme (up to a further colon).  Missing: that it is
returned. -/
theorem C79_giai_partial (t : Str) (y : GIAI) (h : fromTagUri GIAI.new false t = .ok y) :
    ∃ size ∈ [py "96", py "202"], ∃ body rest, t = py "urn:epc:tag:giai-" ++ size ++ ':' :: (body ++ rest) ∧ ':' ∉ body ∧
      (rest = [] ∨ rest.head? = some ':') ∧ GIAI.new (py "urn:epc:id:giai:" ++ body) = .ok y := by
  obtain ⟨n, body, rest, hn, rfl, hc, hr, h'⟩ := nofilter_ok h
  have hnm : tagName n = py "giai" := by
    obtain ⟨-, b, e, -⟩ := GIAI.uri_of_new h'
    simp only [List.append_assoc] at e
    exact (append_sep_inj (tagName_no_colon hn) (by decide) (List.append_cancel_left e)).1
  obtain ⟨cs, rfl⟩ := GIAI.tagNames_iff.1 ⟨hn, hnm⟩
  rw [hnm] at h'
  cases cs
  · exact ⟨py "96", by simp, body, rest, by simp [tagUriPrefix, GIAI.Coding.value], hc, hr, by simpa using h'⟩
  · exact ⟨py "202", by simp, body, rest, by simp [tagUriPrefix, GIAI.Coding.value], hc, hr, by simpa using h'⟩

/-- GIAI: no object with `includes_filter=False`. -/
theorem C80_giai (u : Str) (x : GIAI) (cs : GIAI.Coding) (f : Fin 8) (t : Str) (hu : GIAI.new u = .ok x) (ht : x.tagUri cs f = .ok t) :
    ∀ y, fromTagUri GIAI.new false t ≠ .ok y := by
  intro y h
  obtain ⟨C₀, S₀, -, -, -, -, -, et⟩ := GIAI.tagUri_form hu ht
  rw [et] at h
  obtain ⟨b', h', hl, hd⟩ := wrong_flag (by cases cs <;> decide) (by omega) h
  have hnm : tagName cs.value = py "giai" := by cases cs <;> rfl
  rw [hnm] at h'
  have h6 : ∃ C r, Dec C ∧ 6 ≤ C.length ∧ natStr f ++ '.' :: b' = C ++ '.' :: r := by
    have hn := GIAI.new_iff.1 h'
    first
      | (obtain ⟨C, A, B, D, S, ⟨⟨-, hC⟩, -⟩, H, e, -⟩ := hn; exact ⟨C, _, hC, by omega, List.append_cancel_left (as := py "urn:epc:id:giai:") e⟩)
      | (obtain ⟨C, D, S, ⟨⟨-, hC⟩, -⟩, H, e, -⟩ := hn; exact ⟨C, _, hC, by omega, List.append_cancel_left (as := py "urn:epc:id:giai:") e⟩)
      | (obtain ⟨C, S, ⟨⟨-, hC⟩, -⟩, H, e, -⟩ := hn; exact ⟨C, _, hC, by omega, List.append_cancel_left (as := py "urn:epc:id:giai:") e⟩)
  obtain ⟨C, r, hC, h6, e⟩ := h6
  have e1 := (append_sep_inj hd hC.no_dot e).1
  rw [← e1] at h6
  omega

/-- GSRN: the claim is false, e.g. for `urn:epc:tag:gsrn-96:9521141.1234567890`. -/
theorem C79_gsrn_claim_false : ¬ C79Claim GSRN.new (py "gsrn") [py "96"] :=
  claim79_false (py "96") (py "9521141.1234567890") (by decide) (by decide +kernel) (by decide +kernel)

/-- GSRN: if an object is returned, then it is the one named by the text behind the coding scheme (up to a further colon).  Missing: that it is
returned. -/
theorem C79_gsrn_partial (t : Str) (y : GSRN) (h : fromTagUri GSRN.new false t = .ok y) :
    ∃ size ∈ [py "96"], ∃ body rest, t = py "urn:epc:tag:gsrn-" ++ size ++ ':' :: (body ++ rest) ∧ ':' ∉ body ∧
      (rest = [] ∨ rest.head? = some ':') ∧ GSRN.new (py "urn:epc:id:gsrn:" ++ body) = .ok y := by
  obtain ⟨n, body, rest, hn, rfl, hc, hr, h'⟩ := nofilter_ok h
  have hnm : tagName n = py "gsrn" := by
    obtain ⟨-, b, e, -⟩ := GSRN.uri_of_new h'
    simp only [List.append_assoc] at e
    exact (append_sep_inj (tagName_no_colon hn) (by decide) (List.append_cancel_left e)).1
  obtain ⟨cs, rfl⟩ := GSRN.tagNames_iff.1 ⟨hn, hnm⟩
  rw [hnm] at h'
  cases cs
  · exact ⟨py "96", by simp, body, rest, by simp [tagUriPrefix, GSRN.Coding.value], hc, hr, by simpa using h'⟩

/-- GSRN: no object with `includes_filter=False`. -/
theorem C80_gsrn (u : Str) (x : GSRN) (cs : GSRN.Coding) (f : Fin 8) (t : Str) (hu : GSRN.new u = .ok x) (ht : x.tagUri cs f = .ok t) :
    ∀ y, fromTagUri GSRN.new false t ≠ .ok y := by
  intro y h
  obtain ⟨b, -, rfl⟩ := GSRN.tagUri_form hu ht
  obtain ⟨b', h', hl, hd⟩ := wrong_flag (by cases cs <;> decide) (by omega) h
  have hnm : tagName cs.value = py "gsrn" := by cases cs <;> rfl
  rw [hnm] at h'
  have h6 : ∃ C r, Dec C ∧ 6 ≤ C.length ∧ natStr f ++ '.' :: b' = C ++ '.' :: r := by
    have hn := GSRN.new_iff.1 h'
    first
      | (obtain ⟨C, A, B, D, S, ⟨⟨-, hC⟩, -⟩, H, e, -⟩ := hn; exact ⟨C, _, hC, by omega, List.append_cancel_left (as := py "urn:epc:id:gsrn:") e⟩)
      | (obtain ⟨C, D, S, ⟨⟨-, hC⟩, -⟩, H, e, -⟩ := hn; exact ⟨C, _, hC, by omega, List.append_cancel_left (as := py "urn:epc:id:gsrn:") e⟩)
      | (obtain ⟨C, S, ⟨⟨-, hC⟩, -⟩, H, e, -⟩ := hn; exact ⟨C, _, hC, by omega, List.append_cancel_left (as := py "urn:epc:id:gsrn:") e⟩)
  obtain ⟨C, r, hC, h6, e⟩ := h6
  have e1 := (append_sep_inj hd hC.no_dot e).1
  rw [← e1] at h6
  omega

/-- GSRNP: the claim is false, e.g. for `urn:epc:tag:gsrnp-96:9521141.1234567890`. -/
theorem C79_gsrnp_claim_false : ¬ C79Claim GSRNP.new (py "gsrnp") [py "96"] :=
  claim79_false (py "96") (py "9521141.1234567890") (by decide) (by decide +kernel) (by decide +kernel)

/-- GSRNP: if an object is returned, then it is the one named by the text behind the coding scheme (up to a further colon).  Missing: that it is
returned. -/
theorem C79_gsrnp_partial (t : Str) (y : GSRNP) (h : fromTagUri GSRNP.new false t = .ok y) :
    ∃ size ∈ [py "96"], ∃ body rest, t = py "urn:epc:tag:gsrnp-" ++ size ++ ':' :: (body ++ rest) ∧ ':' ∉ body ∧
      (rest = [] ∨ rest.head? = some ':') ∧ GSRNP.new (py "urn:epc:id:gsrnp:" ++ body) = .ok y := by
  obtain ⟨n, body, rest, hn, rfl, hc, hr, h'⟩ := nofilter_ok h
  have hnm : tagName n = py "gsrnp" := by
    obtain ⟨-, b, e, -⟩ := GSRNP.uri_of_new h'
    simp only [List.append_assoc] at e
    exact (append_sep_inj (tagName_no_colon hn) (by decide) (List.append_cancel_left e)).1
  obtain ⟨cs, rfl⟩ := GSRNP.tagNames_iff.1 ⟨hn, hnm⟩
  rw [hnm] at h'
  cases cs
  · exact ⟨py "96", by simp, body, rest, by simp [tagUriPrefix, GSRNP.Coding.value], hc, hr, by simpa using h'⟩

/-- GSRNP: no object with `includes_filter=False`. -/
theorem C80_gsrnp (u : Str) (x : GSRNP) (cs : GSRNP.Coding) (f : Fin 8) (t : Str) (hu : GSRNP.new u = .ok x) (ht : x.tagUri cs f = .ok t) :
    ∀ y, fromTagUri GSRNP.new false t ≠ .ok y := by
  intro y h
  obtain ⟨b, -, rfl⟩ := GSRNP.tagUri_form hu ht
  obtain ⟨b', h', hl, hd⟩ := wrong_flag (by cases cs <;> decide) (by omega) h
  have hnm : tagName cs.value = py "gsrnp" := by cases cs <;> rfl
  rw [hnm] at h'
  have h6 : ∃ C r, Dec C ∧ 6 ≤ C.length ∧ natStr f ++ '.' :: b' = C ++ '.' :: r := by
    have hn := GSRNP.new_iff.1 h'
    first
      | (obtain ⟨C, A, B, D, S, ⟨⟨-, hC⟩, -⟩, H, e, -⟩ := hn; exact ⟨C, _, hC, by omega, List.append_cancel_left (as := py "urn:epc:id:gsrnp:") e⟩)
      | (obtain ⟨C, D, S, ⟨⟨-, hC⟩, -⟩, H, e, -⟩ := hn; exact ⟨C, _, hC, by omega, List.append_cancel_left (as := py "urn:epc:id:gsrnp:") e⟩)
      | (obtain ⟨C, S, ⟨⟨-, hC⟩, -⟩, H, e, -⟩ := hn; exact ⟨C, _, hC, by omega, List.append_cancel_left (as := py "urn:epc:id:gsrnp:") e⟩)
  obtain ⟨C, r, hC, h6, e⟩ := h6
  have e1 := (append_sep_inj hd hC.no_dot e).1
  rw [← e1] at h6
  omega

/-- GDTI: the claim is false, e.g. for `urn:epc:tag:gdti-96:9521141.12345.4711`. -/
theorem C79_gdti_claim_false : ¬ C79Claim GDTI.new (py "gdti") [py "96", py "174"] :=
  claim79_false (py "96") (py "9521141.12345.4711") (by decide) (by decide +kernel) (by decide +kernel)

/-- GDTI: if an object is returned, then it is the one named by the text behind the coding scheme (up to a further colon).  Missing: that it is
returned. -/
theorem C79_gdti_partial (t : Str) (y : GDTI) (h : fromTagUri GDTI.new false t = .ok y) :
    ∃ size ∈ [py "96", py "174"], ∃ body rest, t = py "urn:epc:tag:gdti-" ++ size ++ ':' :: (body ++ rest) ∧ ':' ∉ body ∧
      (rest = [] ∨ rest.head? = some ':') ∧ GDTI.new (py "urn:epc:id:gdti:" ++ body) = .ok y := by
  obtain ⟨n, body, rest, hn, rfl, hc, hr, h'⟩ := nofilter_ok h
  have hnm : tagName n = py "gdti" := by
    obtain ⟨-, b, e, -⟩ := GDTI.uri_of_new h'
    simp only [List.append_assoc] at e
    exact (append_sep_inj (tagName_no_colon hn) (by decide) (List.append_cancel_left e)).1
  obtain ⟨cs, rfl⟩ := GDTI.tagNames_iff.1 ⟨hn, hnm⟩
  rw [hnm] at h'
  cases cs
  · exact ⟨py "96", by simp, body, rest, by simp [tagUriPrefix, GDTI.Coding.value], hc, hr, by simpa using h'⟩
  · exact ⟨py "174", by simp, body, rest, by simp [tagUriPrefix, GDTI.Coding.value], hc, hr, by simpa using h'⟩

/-- GDTI: no object with `includes_filter=False`. -/
theorem C80_gdti (u : Str) (x : GDTI) (cs : GDTI.Coding) (f : Fin 8) (t : Str) (hu : GDTI.new u = .ok x) (ht : x.tagUri cs f = .ok t) :
    ∀ y, fromTagUri GDTI.new false t ≠ .ok y := by
  intro y h
  obtain ⟨b, -, rfl⟩ := GDTI.tagUri_form hu ht
  obtain ⟨b', h', hl, hd⟩ := wrong_flag (by cases cs <;> decide) (by omega) h
  have hnm : tagName cs.value = py "gdti" := by cases cs <;> rfl
  rw [hnm] at h'
  have h6 : ∃ C r, Dec C ∧ 6 ≤ C.length ∧ natStr f ++ '.' :: b' = C ++ '.' :: r := by
    have hn := GDTI.new_iff.1 h'
    first
      | (obtain ⟨C, A, B, D, S, ⟨⟨-, hC⟩, -⟩, H, e, -⟩ := hn; exact ⟨C, _, hC, by omega, List.append_cancel_left (as := py "urn:epc:id:gdti:") e⟩)
      | (obtain ⟨C, D, S, ⟨⟨-, hC⟩, -⟩, H, e, -⟩ := hn; exact ⟨C, _, hC, by omega, List.append_cancel_left (as := py "urn:epc:id:gdti:") e⟩)
      | (obtain ⟨C, S, ⟨⟨-, hC⟩, -⟩, H, e, -⟩ := hn; exact ⟨C, _, hC, by omega, List.append_cancel_left (as := py "urn:epc:id:gdti:") e⟩)
  obtain ⟨C, r, hC, h6, e⟩ := h6
  have e1 := (append_sep_inj hd hC.no_dot e).1
  rw [← e1] at h6
  omega

/-- CPI: the claim is false, e.g. for `urn:epc:tag:cpi-96:9521141.98765.4711`. -/
theorem C79_cpi_claim_false : ¬ C79Claim CPI.new (py "cpi") [py "96", py "var"] :=
  claim79_false (py "96") (py "9521141.98765.4711") (by decide) (by decide +kernel) (by decide +kernel)

/-- CPI: if an object is returned, then it is the one named by the text behind the coding scheme (up to a further colon).  Missing: that it is
returned. -/
theorem C79_cpi_partial (t : Str) (y : CPI) (h : fromTagUri CPI.new false t = .ok y) :
    ∃ size ∈ [py "96", py "var"], ∃ body rest, t = py "urn:epc:tag:cpi-" ++ size ++ ':' :: (body ++ rest) ∧ ':' ∉ body ∧
      (rest = [] ∨ rest.head? = some ':') ∧ CPI.new (py "urn:epc:id:cpi:" ++ body) = .ok y := by
  obtain ⟨n, body, rest, hn, rfl, hc, hr, h'⟩ := nofilter_ok h
  have hnm : tagName n = py "cpi" := by
    obtain ⟨-, b, e, -⟩ := CPI.uri_of_new h'
    simp only [List.append_assoc] at e
    exact (append_sep_inj (tagName_no_colon hn) (by decide) (List.append_cancel_left e)).1
  obtain ⟨cs, rfl⟩ := CPI.tagNames_iff.1 ⟨hn, hnm⟩
  rw [hnm] at h'
  cases cs
  · exact ⟨py "96", by simp, body, rest, by simp [tagUriPrefix, CPI.Coding.value], hc, hr, by simpa using h'⟩
  · exact ⟨py "var", by simp, body, rest, by simp [tagUriPrefix, CPI.Coding.value], hc, hr, by simpa using h'⟩

/-- CPI: no object with `includes_filter=False`. -/
theorem C80_cpi (u : Str) (x : CPI) (cs : CPI.Coding) (f : Fin 8) (t : Str) (hu : CPI.new u = .ok x) (ht : x.tagUri cs f = .ok t) :
    ∀ y, fromTagUri CPI.new false t ≠ .ok y := by
  intro y h
  obtain ⟨b, -, rfl⟩ := CPI.tagUri_form hu ht
  obtain ⟨b', h', hl, hd⟩ := wrong_flag (by cases cs <;> decide) (by omega) h
  have hnm : tagName cs.value = py "cpi" := by cases cs <;> rfl
  rw [hnm] at h'
  have h6 : ∃ C r, Dec C ∧ 6 ≤ C.length ∧ natStr f ++ '.' :: b' = C ++ '.' :: r := by
    have hn := CPI.new_iff.1 h'
    first
      | (obtain ⟨C, A, B, D, S, ⟨⟨-, hC⟩, -⟩, H, e, -⟩ := hn; exact ⟨C, _, hC, by omega, List.append_cancel_left (as := py "urn:epc:id:cpi:") e⟩)
      | (obtain ⟨C, D, S, ⟨⟨-, hC⟩, -⟩, H, e, -⟩ := hn; exact ⟨C, _, hC, by omega, List.append_cancel_left (as := py "urn:epc:id:cpi:") e⟩)
      | (obtain ⟨C, S, ⟨⟨-, hC⟩, -⟩, H, e, -⟩ := hn; exact ⟨C, _, hC, by omega, List.append_cancel_left (as := py "urn:epc:id:cpi:") e⟩)
  obtain ⟨C, r, hC, h6, e⟩ := h6
  have e1 := (append_sep_inj hd hC.no_dot e).1
  rw [← e1] at h6
  omega

/-- SGCN: the claim is false, e.g. for `urn:epc:tag:sgcn-96:9521141.67890.04711`. -/
theorem C79_sgcn_claim_false : ¬ C79Claim SGCN.new (py "sgcn") [py "96"] :=
  claim79_false (py "96") (py "9521141.67890.04711") (by decide) (by decide +kernel) (by decide +kernel)

/-- SGCN: if an object is returned, then it is the one named by the text behind the coding scheme (up to a further colon).  Missing: that it is
returned. -/
theorem C79_sgcn_partial (t : Str) (y : SGCN) (h : fromTagUri SGCN.new false t = .ok y) :
    ∃ size ∈ [py "96"], ∃ body rest, t = py "urn:epc:tag:sgcn-" ++ size ++ ':' :: (body ++ rest) ∧ ':' ∉ body ∧
      (rest = [] ∨ rest.head? = some ':') ∧ SGCN.new (py "urn:epc:id:sgcn:" ++ body) = .ok y := by
  obtain ⟨n, body, rest, hn, rfl, hc, hr, h'⟩ := nofilter_ok h
  have hnm : tagName n = py "sgcn" := by
    obtain ⟨-, b, e, -⟩ := SGCN.uri_of_new h'
    simp only [List.append_assoc] at e
    exact (append_sep_inj (tagName_no_colon hn) (by decide) (List.append_cancel_left e)).1
  obtain ⟨cs, rfl⟩ := SGCN.tagNames_iff.1 ⟨hn, hnm⟩
  rw [hnm] at h'
  cases cs
  · exact ⟨py "96", by simp, body, rest, by simp [tagUriPrefix, SGCN.Coding.value], hc, hr, by simpa using h'⟩

/-- SGCN: no object with `includes_filter=False`. -/
theorem C80_sgcn (u : Str) (x : SGCN) (cs : SGCN.Coding) (f : Fin 8) (t : Str) (hu : SGCN.new u = .ok x) (ht : x.tagUri cs f = .ok t) :
    ∀ y, fromTagUri SGCN.new false t ≠ .ok y := by
  intro y h
  obtain ⟨b, -, rfl⟩ := SGCN.tagUri_form hu ht
  obtain ⟨b', h', hl, hd⟩ := wrong_flag (by cases cs <;> decide) (by omega) h
  have hnm : tagName cs.value = py "sgcn" := by cases cs <;> rfl
  rw [hnm] at h'
  have h6 : ∃ C r, Dec C ∧ 6 ≤ C.length ∧ natStr f ++ '.' :: b' = C ++ '.' :: r := by
    have hn := SGCN.new_iff.1 h'
    first
      | (obtain ⟨C, A, B, D, S, ⟨⟨-, hC⟩, -⟩, H, e, -⟩ := hn; exact ⟨C, _, hC, by omega, List.append_cancel_left (as := py "urn:epc:id:sgcn:") e⟩)
      | (obtain ⟨C, D, S, ⟨⟨-, hC⟩, -⟩, H, e, -⟩ := hn; exact ⟨C, _, hC, by omega, List.append_cancel_left (as := py "urn:epc:id:sgcn:") e⟩)
      | (obtain ⟨C, S, ⟨⟨-, hC⟩, -⟩, H, e, -⟩ := hn; exact ⟨C, _, hC, by omega, List.append_cancel_left (as := py "urn:epc:id:sgcn:") e⟩)
  obtain ⟨C, r, hC, h6, e⟩ := h6
  have e1 := (append_sep_inj hd hC.no_dot e).1
  rw [← e1] at h6
  omega

/-- ITIP: the claim is false, e.g. for `urn:epc:tag:itip-110:9521141.012345.01.02.4711`. -/
theorem C79_itip_claim_false : ¬ C79Claim ITIP.new (py "itip") [py "110", py "212"] :=
  claim79_false (py "110") (py "9521141.012345.01.02.4711") (by decide) (by decide +kernel) (by decide +kernel)

/-- ITIP: if an object is returned, then it is the one named by the text behind the coding scheme (up to a further colon).  Missing: that it is
returned. -/
theorem C79_itip_partial (t : Str) (y : ITIP) (h : fromTagUri ITIP.new false t = .ok y) :
    ∃ size ∈ [py "110", py "212"], ∃ body rest, t = py "urn:epc:tag:itip-" ++ size ++ ':' :: (body ++ rest) ∧ ':' ∉ body ∧
      (rest = [] ∨ rest.head? = some ':') ∧ ITIP.new (py "urn:epc:id:itip:" ++ body) = .ok y := by
  obtain ⟨n, body, rest, hn, rfl, hc, hr, h'⟩ := nofilter_ok h
  have hnm : tagName n = py "itip" := by
    obtain ⟨-, b, e, -⟩ := ITIP.uri_of_new h'
    simp only [List.append_assoc] at e
    exact (append_sep_inj (tagName_no_colon hn) (by decide) (List.append_cancel_left e)).1
  obtain ⟨cs, rfl⟩ := ITIP.tagNames_iff.1 ⟨hn, hnm⟩
  rw [hnm] at h'
  cases cs
  · exact ⟨py "110", by simp, body, rest, by simp [tagUriPrefix, ITIP.Coding.value], hc, hr, by simpa using h'⟩
  · exact ⟨py "212", by simp, body, rest, by simp [tagUriPrefix, ITIP.Coding.value], hc, hr, by simpa using h'⟩

/-- ITIP: no object with `includes_filter=False`. -/
theorem C80_itip (u : Str) (x : ITIP) (cs : ITIP.Coding) (f : Fin 8) (t : Str) (hu : ITIP.new u = .ok x) (ht : x.tagUri cs f = .ok t) :
    ∀ y, fromTagUri ITIP.new false t ≠ .ok y := by
  intro y h
  obtain ⟨b, -, rfl⟩ := ITIP.tagUri_form hu ht
  obtain ⟨b', h', hl, hd⟩ := wrong_flag (by cases cs <;> decide) (by omega) h
  have hnm : tagName cs.value = py "itip" := by cases cs <;> rfl
  rw [hnm] at h'
  have h6 : ∃ C r, Dec C ∧ 6 ≤ C.length ∧ natStr f ++ '.' :: b' = C ++ '.' :: r := by
    have hn := ITIP.new_iff.1 h'
    first
      | (obtain ⟨C, A, B, D, S, ⟨⟨-, hC⟩, -⟩, H, e, -⟩ := hn; exact ⟨C, _, hC, by omega, List.append_cancel_left (as := py "urn:epc:id:itip:") e⟩)
      | (obtain ⟨C, D, S, ⟨⟨-, hC⟩, -⟩, H, e, -⟩ := hn; exact ⟨C, _, hC, by omega, List.append_cancel_left (as := py "urn:epc:id:itip:") e⟩)
      | (obtain ⟨C, S, ⟨⟨-, hC⟩, -⟩, H, e, -⟩ := hn; exact ⟨C, _, hC, by omega, List.append_cancel_left (as := py "urn:epc:id:itip:") e⟩)
  obtain ⟨C, r, hC, h6, e⟩ := h6
  have e1 := (append_sep_inj hd hC.no_dot e).1
  rw [← e1] at h6
  omega

/-- USDOD: the claim is false, e.g. for `urn:epc:tag:usdod-96:CAGEY.5678`. -/
theorem C79_usdod_claim_false : ¬ C79Claim USDOD.new (py "usdod") [py "96"] :=
  claim79_false (py "96") (py "CAGEY.5678") (by decide) (by decide +kernel) (by decide +kernel)

/-- USDOD: if an object is returned, then it is the one named by the text behind the coding scheme (up to a further colon).  Missing: that it is
returned. -/
theorem C79_usdod_partial (t : Str) (y : USDOD) (h : fromTagUri USDOD.new false t = .ok y) :
    ∃ size ∈ [py "96"], ∃ body rest, t = py "urn:epc:tag:usdod-" ++ size ++ ':' :: (body ++ rest) ∧ ':' ∉ body ∧
      (rest = [] ∨ rest.head? = some ':') ∧ USDOD.new (py "urn:epc:id:usdod:" ++ body) = .ok y := by
  obtain ⟨n, body, rest, hn, rfl, hc, hr, h'⟩ := nofilter_ok h
  have hnm : tagName n = py "usdod" := by
    obtain ⟨-, b, e, -⟩ := USDOD.uri_of_new h'
    simp only [List.append_assoc] at e
    exact (append_sep_inj (tagName_no_colon hn) (by decide) (List.append_cancel_left e)).1
  obtain ⟨cs, rfl⟩ := USDOD.tagNames_iff.1 ⟨hn, hnm⟩
  rw [hnm] at h'
  cases cs
  · exact ⟨py "96", by simp, body, rest, by simp [tagUriPrefix, USDOD.Coding.value], hc, hr, by simpa using h'⟩

/-- USDOD: no object with `includes_filter=False`. -/
theorem C80_usdod (u : Str) (x : USDOD) (cs : USDOD.Coding) (f : Fin 16) (t : Str) (hu : USDOD.new u = .ok x) (ht : x.tagUri cs f = .ok t) :
    ∀ y, fromTagUri USDOD.new false t ≠ .ok y := by
  intro y h
  obtain ⟨b, -, rfl⟩ := USDOD.tagUri_form hu ht
  obtain ⟨b', h', hl, hd⟩ := wrong_flag (by cases cs <;> decide) (by omega) h
  have hnm : tagName cs.value = py "usdod" := by cases cs <;> rfl
  rw [hnm] at h'
  obtain ⟨C, S, ⟨hC, -⟩, -, e, -⟩ := USDOD.new_iff.1 h'
  have e1 := (append_sep_inj hd (cage_no_dot hC) (List.append_cancel_left (as := py "urn:epc:id:usdod:") e)).1
  have := ((lang_cage C).1 hC).1
  rw [← e1] at this
  omega

/-- ADI: the claim is false, e.g. for `urn:epc:tag:adi-var:35962.PQ7VZ4.M37GXB92`. -/
theorem C79_adi_claim_false : ¬ C79Claim ADI.new (py "adi") [py "var"] :=
  claim79_false (py "var") (py "35962.PQ7VZ4.M37GXB92") (by decide) (by decide +kernel) (by decide +kernel)

/-- ADI: if an object is returned, then it is the one named by the text behind the coding scheme (up to a further colon).  Missing: that it is
returned. -/
theorem C79_adi_partial (t : Str) (y : ADI) (h : fromTagUri ADI.new false t = .ok y) :
    ∃ size ∈ [py "var"], ∃ body rest, t = py "urn:epc:tag:adi-" ++ size ++ ':' :: (body ++ rest) ∧ ':' ∉ body ∧
      (rest = [] ∨ rest.head? = some ':') ∧ ADI.new (py "urn:epc:id:adi:" ++ body) = .ok y := by
  obtain ⟨n, body, rest, hn, rfl, hc, hr, h'⟩ := nofilter_ok h
  have hnm : tagName n = py "adi" := by
    obtain ⟨-, b, e, -⟩ := ADI.uri_of_new h'
    simp only [List.append_assoc] at e
    exact (append_sep_inj (tagName_no_colon hn) (by decide) (List.append_cancel_left e)).1
  obtain ⟨cs, rfl⟩ := ADI.tagNames_iff.1 ⟨hn, hnm⟩
  rw [hnm] at h'
  cases cs
  · exact ⟨py "var", by simp, body, rest, by simp [tagUriPrefix, ADI.Coding.value], hc, hr, by simpa using h'⟩

/-- ADI: no object with `includes_filter=False`. -/
theorem C80_adi (u : Str) (x : ADI) (cs : ADI.Coding) (f : Fin 64) (t : Str) (hu : ADI.new u = .ok x) (ht : x.tagUri cs f = .ok t) :
    ∀ y, fromTagUri ADI.new false t ≠ .ok y := by
  intro y h
  obtain ⟨b, -, rfl⟩ := ADI.tagUri_form hu ht
  obtain ⟨b', h', hl, hd⟩ := wrong_flag (by cases cs <;> decide) (by omega) h
  have hnm : tagName cs.value = py "adi" := by cases cs <;> rfl
  rw [hnm] at h'
  obtain ⟨C, D, S, ⟨hC, -⟩, -, e, -⟩ := ADI.new_iff.1 h'
  have e1 := (append_sep_inj hd (cage_no_dot hC) (List.append_cancel_left (as := py "urn:epc:id:adi:") e)).1
  have := ((lang_cage C).1 hC).1
  rw [← e1] at this
  omega

/-- GID: no object with `includes_filter=True` (its tag URIs have no filter value and the default is False). -/
theorem C80_gid (u : Str) (x : GID) (cs : GID.Coding) (t : Str) (hu : GID.new u = .ok x) (ht : x.tagUri cs = .ok t) :
    ∀ y, fromTagUri GID.new true t ≠ .ok y := by
  intro y h
  obtain ⟨b, rfl, rfl⟩ := GID.tagUri_form hu ht
  obtain ⟨C, D, S, ⟨hC, hD, hS⟩, -, e, -⟩ := GID.new_iff.1 hu
  have e : b = C ++ '.' :: (D ++ '.' :: S) := List.append_cancel_left (as := py "urn:epc:id:gid:") e
  subst e
  rw [fromTagUri_filter (by decide) hC] at h
  split at h
  · obtain ⟨C', D', S', ⟨hC', hD', hS'⟩, -, e', -⟩ := GID.new_iff.1 h
    have e' := List.append_cancel_left (as := py "urn:epc:id:gid:") e'
    have e1 := (append_sep_inj (Num.dec hD).no_dot (Num.dec hC').no_dot e').2
    exact (Num.dec hS).no_dot (by rw [e1]; simp)
  · cases h

example : SGTIN.fromTagUri (py "urn:epc:tag:sgtin-96:3.9521141.012345.4711") = SGTIN.new (py "urn:epc:id:sgtin:9521141.012345.4711") ∧
    (SGTIN.new (py "urn:epc:id:sgtin:9521141.012345.4711")).toBool = true ∧
    ((do let x ← SGTIN.new (py "urn:epc:id:sgtin:9521141.012345.4711"); x.tagUri .sgtin96 3) : Except Err Str) =
      .ok (py "urn:epc:tag:sgtin-96:3.9521141.012345.4711") := by decide +kernel
-- the hypothesis of C79_sgtin_partial is met: a serial with a dot makes the company prefix pass for a filter value
example : (fromTagUri SGTIN.new false (py "urn:epc:tag:sgtin-96:9521141.012345.1.5")).toBool = true := by decide +kernel

end Epc
