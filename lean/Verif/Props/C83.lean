import Verif.Spec.Span
import Verif.Lemmas.Span
import Verif.Model.Parsers

/-!
C83: how long the texts of the API are.  For every class the shortest and the longest EPC URI the constructor accepts, tag URI an object
writes and element string an object writes, with a text of either length.  The one exception: the URIs a GIAI object may be constructed from
have no longest one, because the constructor leaves what follows a colon unread (its tag URIs and element strings are bounded all the same).
-/
set_option linter.unusedSimpArgs false

namespace Epc

open Spec

/-- SGTIN: the EPC URIs. -/
theorem C83_sgtin_uri : Span (fun u => ∃ x, SGTIN.new u = .ok x) 33 92 := by
  refine ⟨?_, ⟨py "urn:epc:id:sgtin:012345.1234567.1", ok_of_toBool (by decide +kernel), by decide +kernel⟩,
    py "urn:epc:id:sgtin:012345.1234567.%25%25%25%25%25%25%25%25%25%25%25%25%25%25%25%25%25%25%25%25", ok_of_toBool (by decide +kernel), by decide +kernel⟩
  rintro u ⟨x, hu⟩
  obtain ⟨C, I, S, ⟨_, _, hS⟩, ⟨hl, hl2, _, hl3⟩, rfl, rfl⟩ := SGTIN.new_iff.1 hu
  have hp : (py "urn:epc:id:sgtin").length = 16 := by decide
  have hs := length_unescape_ge S
  have hs2 := length_replaceUriEscapes_le S
  have hs3 := gs3a3_pos hS
  simp only [List.length_append, List.length_cons, List.length_nil, hp] at *
  omega

/-- SGTIN: the tag URIs. -/
theorem C83_sgtin_tag : Span (fun t => ∃ u x cs f, SGTIN.new u = .ok x ∧ x.tagUri cs f = .ok t) 39 99 := by
  refine ⟨?_, by
      obtain ⟨t, x, hu, ht, hl⟩ := written_of (n := SGTIN.new) (f := fun x => x.tagUri .sgtin96 0) (u := py "urn:epc:id:sgtin:012345.1234567.1") (k := 39) (by decide +kernel)
      exact ⟨t, ⟨_, x, .sgtin96, 0, hu, ht⟩, hl⟩, by
      obtain ⟨t, x, hu, ht, hl⟩ := written_of (n := SGTIN.new) (f := fun x => x.tagUri .sgtin198 0) (u := py "urn:epc:id:sgtin:012345.1234567.%25%25%25%25%25%25%25%25%25%25%25%25%25%25%25%25%25%25%25%25") (k := 99) (by decide +kernel)
      exact ⟨t, ⟨_, x, .sgtin198, 0, hu, ht⟩, hl⟩⟩
  rintro t ⟨u, x, cs, f, hu, ht⟩
  obtain ⟨b, rfl, rfl⟩ := SGTIN.tagUri_form hu ht
  have hb := (C83_sgtin_uri).1 _ ⟨x, hu⟩
  have hp : (py "urn:epc:id:sgtin:").length = 17 := by decide
  have hv : 8 ≤ cs.value.length ∧ cs.value.length ≤ 9 := by cases cs <;> decide
  have ht : tagUriPrefix.length = 12 := by decide
  have hf := natStr_len1 (n := f) (by omega)
  simp only [List.length_append, List.length_cons, List.length_nil, hp, ht] at *
  omega

/-- SGTIN: the element strings. -/
theorem C83_sgtin_element : Span (fun s => ∃ u x, SGTIN.new u = .ok x ∧ x.gs1ElementString = .ok s) 23 42 := by
  refine ⟨?_, by
      obtain ⟨s, x, hu, hs, hl⟩ := written_of (n := SGTIN.new) (f := SGTIN.gs1ElementString) (u := py "urn:epc:id:sgtin:012345.1234567.1") (k := 23) (by decide +kernel)
      exact ⟨s, ⟨_, x, hu, hs⟩, hl⟩, by
      obtain ⟨s, x, hu, hs, hl⟩ := written_of (n := SGTIN.new) (f := SGTIN.gs1ElementString) (u := py "urn:epc:id:sgtin:012345.1234567.%25%25%25%25%25%25%25%25%25%25%25%25%25%25%25%25%25%25%25%25") (k := 42) (by decide +kernel)
      exact ⟨s, ⟨_, x, hu, hs⟩, hl⟩⟩
  rintro s ⟨u, x, hu, hs⟩
  obtain ⟨C, I, S, ⟨_, _, hS⟩, ⟨hl, hl2, _, hl3⟩, rfl, rfl⟩ := SGTIN.new_iff.1 hu
  injection hs with hs
  subst hs
  have hs := length_unescape_ge S
  have hs2 := length_replaceUriEscapes_le S
  have hs3 := gs3a3_pos hS
  have p0 : (py "(01)").length = 4 := by decide
  have p1 : (py "(21)").length = 4 := by decide
  simp only [List.length_append, List.length_cons, List.length_nil, p0, p1, length_uCheck, length_keyBody, length_padLeft] at *
  omega

/-- SSCC: the EPC URIs. -/
theorem C83_sscc_uri : Span (fun u => ∃ x, SSCC.new u = .ok x) 34 34 := by
  refine ⟨?_, ⟨py "urn:epc:id:sscc:012345.12345678901", ok_of_toBool (by decide +kernel), by decide +kernel⟩,
    py "urn:epc:id:sscc:012345.12345678901", ok_of_toBool (by decide +kernel), by decide +kernel⟩
  rintro u ⟨x, hu⟩
  obtain ⟨C, I, _, ⟨hl, hl2⟩, rfl, rfl⟩ := SSCC.new_iff.1 hu
  have hp : (py "urn:epc:id:sscc").length = 15 := by decide
  simp only [List.length_append, List.length_cons, List.length_nil, hp] at *
  omega

/-- SSCC: the tag URIs. -/
theorem C83_sscc_tag : Span (fun t => ∃ u x cs f, SSCC.new u = .ok x ∧ x.tagUri cs f = .ok t) 40 40 := by
  refine ⟨?_, by
      obtain ⟨t, x, hu, ht, hl⟩ := written_of (n := SSCC.new) (f := fun x => x.tagUri .sscc96 0) (u := py "urn:epc:id:sscc:012345.12345678901") (k := 40) (by decide +kernel)
      exact ⟨t, ⟨_, x, .sscc96, 0, hu, ht⟩, hl⟩, by
      obtain ⟨t, x, hu, ht, hl⟩ := written_of (n := SSCC.new) (f := fun x => x.tagUri .sscc96 0) (u := py "urn:epc:id:sscc:012345.12345678901") (k := 40) (by decide +kernel)
      exact ⟨t, ⟨_, x, .sscc96, 0, hu, ht⟩, hl⟩⟩
  rintro t ⟨u, x, cs, f, hu, ht⟩
  obtain ⟨b, rfl, rfl⟩ := SSCC.tagUri_form hu ht
  have hb := (C83_sscc_uri).1 _ ⟨x, hu⟩
  have hp : (py "urn:epc:id:sscc:").length = 16 := by decide
  have hv : 7 ≤ cs.value.length ∧ cs.value.length ≤ 7 := by cases cs <;> decide
  have ht : tagUriPrefix.length = 12 := by decide
  have hf := natStr_len1 (n := f) (by omega)
  simp only [List.length_append, List.length_cons, List.length_nil, hp, ht] at *
  omega

/-- SSCC: the element strings. -/
theorem C83_sscc_element : Span (fun s => ∃ u x, SSCC.new u = .ok x ∧ x.gs1ElementString = .ok s) 22 22 := by
  refine ⟨?_, by
      obtain ⟨s, x, hu, hs, hl⟩ := written_of (n := SSCC.new) (f := SSCC.gs1ElementString) (u := py "urn:epc:id:sscc:012345.12345678901") (k := 22) (by decide +kernel)
      exact ⟨s, ⟨_, x, hu, hs⟩, hl⟩, by
      obtain ⟨s, x, hu, hs, hl⟩ := written_of (n := SSCC.new) (f := SSCC.gs1ElementString) (u := py "urn:epc:id:sscc:012345.12345678901") (k := 22) (by decide +kernel)
      exact ⟨s, ⟨_, x, hu, hs⟩, hl⟩⟩
  rintro s ⟨u, x, hu, hs⟩
  obtain ⟨C, I, _, ⟨hl, hl2⟩, rfl, rfl⟩ := SSCC.new_iff.1 hu
  injection hs with hs
  subst hs
  have p0 : (py "(00)").length = 4 := by decide
  simp only [List.length_append, List.length_cons, List.length_nil, p0, length_uCheck, length_keyBody, length_padLeft] at *
  omega

/-- GSRN: the EPC URIs. -/
theorem C83_gsrn_uri : Span (fun u => ∃ x, GSRN.new u = .ok x) 34 34 := by
  refine ⟨?_, ⟨py "urn:epc:id:gsrn:012345.12345678901", ok_of_toBool (by decide +kernel), by decide +kernel⟩,
    py "urn:epc:id:gsrn:012345.12345678901", ok_of_toBool (by decide +kernel), by decide +kernel⟩
  rintro u ⟨x, hu⟩
  obtain ⟨C, I, _, ⟨hl, hl2⟩, rfl, rfl⟩ := GSRN.new_iff.1 hu
  have hp : (py "urn:epc:id:gsrn").length = 15 := by decide
  simp only [List.length_append, List.length_cons, List.length_nil, hp] at *
  omega

/-- GSRN: the tag URIs. -/
theorem C83_gsrn_tag : Span (fun t => ∃ u x cs f, GSRN.new u = .ok x ∧ x.tagUri cs f = .ok t) 40 40 := by
  refine ⟨?_, by
      obtain ⟨t, x, hu, ht, hl⟩ := written_of (n := GSRN.new) (f := fun x => x.tagUri .gsrn96 0) (u := py "urn:epc:id:gsrn:012345.12345678901") (k := 40) (by decide +kernel)
      exact ⟨t, ⟨_, x, .gsrn96, 0, hu, ht⟩, hl⟩, by
      obtain ⟨t, x, hu, ht, hl⟩ := written_of (n := GSRN.new) (f := fun x => x.tagUri .gsrn96 0) (u := py "urn:epc:id:gsrn:012345.12345678901") (k := 40) (by decide +kernel)
      exact ⟨t, ⟨_, x, .gsrn96, 0, hu, ht⟩, hl⟩⟩
  rintro t ⟨u, x, cs, f, hu, ht⟩
  obtain ⟨b, rfl, rfl⟩ := GSRN.tagUri_form hu ht
  have hb := (C83_gsrn_uri).1 _ ⟨x, hu⟩
  have hp : (py "urn:epc:id:gsrn:").length = 16 := by decide
  have hv : 7 ≤ cs.value.length ∧ cs.value.length ≤ 7 := by cases cs <;> decide
  have ht : tagUriPrefix.length = 12 := by decide
  have hf := natStr_len1 (n := f) (by omega)
  simp only [List.length_append, List.length_cons, List.length_nil, hp, ht] at *
  omega

/-- GSRN: the element strings. -/
theorem C83_gsrn_element : Span (fun s => ∃ u x, GSRN.new u = .ok x ∧ x.gs1ElementString = .ok s) 24 24 := by
  refine ⟨?_, by
      obtain ⟨s, x, hu, hs, hl⟩ := written_of (n := GSRN.new) (f := GSRN.gs1ElementString) (u := py "urn:epc:id:gsrn:012345.12345678901") (k := 24) (by decide +kernel)
      exact ⟨s, ⟨_, x, hu, hs⟩, hl⟩, by
      obtain ⟨s, x, hu, hs, hl⟩ := written_of (n := GSRN.new) (f := GSRN.gs1ElementString) (u := py "urn:epc:id:gsrn:012345.12345678901") (k := 24) (by decide +kernel)
      exact ⟨s, ⟨_, x, hu, hs⟩, hl⟩⟩
  rintro s ⟨u, x, hu, hs⟩
  obtain ⟨C, I, _, ⟨hl, hl2⟩, rfl, rfl⟩ := GSRN.new_iff.1 hu
  injection hs with hs
  subst hs
  have p0 : (py "(8018)").length = 6 := by decide
  simp only [List.length_append, List.length_cons, List.length_nil, p0, length_uCheck, length_keyBody, length_padLeft] at *
  omega

/-- GSRNP: the EPC URIs. -/
theorem C83_gsrnp_uri : Span (fun u => ∃ x, GSRNP.new u = .ok x) 35 35 := by
  refine ⟨?_, ⟨py "urn:epc:id:gsrnp:012345.12345678901", ok_of_toBool (by decide +kernel), by decide +kernel⟩,
    py "urn:epc:id:gsrnp:012345.12345678901", ok_of_toBool (by decide +kernel), by decide +kernel⟩
  rintro u ⟨x, hu⟩
  obtain ⟨C, I, _, ⟨hl, hl2⟩, rfl, rfl⟩ := GSRNP.new_iff.1 hu
  have hp : (py "urn:epc:id:gsrnp").length = 16 := by decide
  simp only [List.length_append, List.length_cons, List.length_nil, hp] at *
  omega

/-- GSRNP: the tag URIs. -/
theorem C83_gsrnp_tag : Span (fun t => ∃ u x cs f, GSRNP.new u = .ok x ∧ x.tagUri cs f = .ok t) 41 41 := by
  refine ⟨?_, by
      obtain ⟨t, x, hu, ht, hl⟩ := written_of (n := GSRNP.new) (f := fun x => x.tagUri .gsrnp96 0) (u := py "urn:epc:id:gsrnp:012345.12345678901") (k := 41) (by decide +kernel)
      exact ⟨t, ⟨_, x, .gsrnp96, 0, hu, ht⟩, hl⟩, by
      obtain ⟨t, x, hu, ht, hl⟩ := written_of (n := GSRNP.new) (f := fun x => x.tagUri .gsrnp96 0) (u := py "urn:epc:id:gsrnp:012345.12345678901") (k := 41) (by decide +kernel)
      exact ⟨t, ⟨_, x, .gsrnp96, 0, hu, ht⟩, hl⟩⟩
  rintro t ⟨u, x, cs, f, hu, ht⟩
  obtain ⟨b, rfl, rfl⟩ := GSRNP.tagUri_form hu ht
  have hb := (C83_gsrnp_uri).1 _ ⟨x, hu⟩
  have hp : (py "urn:epc:id:gsrnp:").length = 17 := by decide
  have hv : 8 ≤ cs.value.length ∧ cs.value.length ≤ 8 := by cases cs <;> decide
  have ht : tagUriPrefix.length = 12 := by decide
  have hf := natStr_len1 (n := f) (by omega)
  simp only [List.length_append, List.length_cons, List.length_nil, hp, ht] at *
  omega

/-- GSRNP: the element strings. -/
theorem C83_gsrnp_element : Span (fun s => ∃ u x, GSRNP.new u = .ok x ∧ x.gs1ElementString = .ok s) 24 24 := by
  refine ⟨?_, by
      obtain ⟨s, x, hu, hs, hl⟩ := written_of (n := GSRNP.new) (f := GSRNP.gs1ElementString) (u := py "urn:epc:id:gsrnp:012345.12345678901") (k := 24) (by decide +kernel)
      exact ⟨s, ⟨_, x, hu, hs⟩, hl⟩, by
      obtain ⟨s, x, hu, hs, hl⟩ := written_of (n := GSRNP.new) (f := GSRNP.gs1ElementString) (u := py "urn:epc:id:gsrnp:012345.12345678901") (k := 24) (by decide +kernel)
      exact ⟨s, ⟨_, x, hu, hs⟩, hl⟩⟩
  rintro s ⟨u, x, hu, hs⟩
  obtain ⟨C, I, _, ⟨hl, hl2⟩, rfl, rfl⟩ := GSRNP.new_iff.1 hu
  injection hs with hs
  subst hs
  have p0 : (py "(8017)").length = 6 := by decide
  simp only [List.length_append, List.length_cons, List.length_nil, p0, length_uCheck, length_keyBody, length_padLeft] at *
  omega

/-- PGLN: the EPC URIs. -/
theorem C83_pgln_uri : Span (fun u => ∃ x, PGLN.new u = .ok x) 29 29 := by
  refine ⟨?_, ⟨py "urn:epc:id:pgln:012345.123456", ok_of_toBool (by decide +kernel), by decide +kernel⟩,
    py "urn:epc:id:pgln:012345.123456", ok_of_toBool (by decide +kernel), by decide +kernel⟩
  rintro u ⟨x, hu⟩
  obtain ⟨C, I, _, ⟨hl, hl2⟩, rfl, rfl⟩ := PGLN.new_iff.1 hu
  have hp : (py "urn:epc:id:pgln").length = 15 := by decide
  simp only [List.length_append, List.length_cons, List.length_nil, hp] at *
  omega

/-- PGLN: the element strings. -/
theorem C83_pgln_element : Span (fun s => ∃ u x, PGLN.new u = .ok x ∧ x.gs1ElementString = .ok s) 18 18 := by
  refine ⟨?_, by
      obtain ⟨s, x, hu, hs, hl⟩ := written_of (n := PGLN.new) (f := PGLN.gs1ElementString) (u := py "urn:epc:id:pgln:012345.123456") (k := 18) (by decide +kernel)
      exact ⟨s, ⟨_, x, hu, hs⟩, hl⟩, by
      obtain ⟨s, x, hu, hs, hl⟩ := written_of (n := PGLN.new) (f := PGLN.gs1ElementString) (u := py "urn:epc:id:pgln:012345.123456") (k := 18) (by decide +kernel)
      exact ⟨s, ⟨_, x, hu, hs⟩, hl⟩⟩
  rintro s ⟨u, x, hu, hs⟩
  obtain ⟨C, I, _, ⟨hl, hl2⟩, rfl, rfl⟩ := PGLN.new_iff.1 hu
  injection hs with hs
  subst hs
  have p0 : (py "(417)").length = 5 := by decide
  simp only [List.length_append, List.length_cons, List.length_nil, p0, length_uCheck, length_keyBody, length_padLeft] at *
  omega

/-- GSIN: the EPC URIs. -/
theorem C83_gsin_uri : Span (fun u => ∃ x, GSIN.new u = .ok x) 33 33 := by
  refine ⟨?_, ⟨py "urn:epc:id:gsin:012345.1234567890", ok_of_toBool (by decide +kernel), by decide +kernel⟩,
    py "urn:epc:id:gsin:012345.1234567890", ok_of_toBool (by decide +kernel), by decide +kernel⟩
  rintro u ⟨x, hu⟩
  obtain ⟨C, I, _, ⟨hl, hl2⟩, rfl, rfl⟩ := GSIN.new_iff.1 hu
  have hp : (py "urn:epc:id:gsin").length = 15 := by decide
  simp only [List.length_append, List.length_cons, List.length_nil, hp] at *
  omega

/-- GSIN: the element strings. -/
theorem C83_gsin_element : Span (fun s => ∃ u x, GSIN.new u = .ok x ∧ x.gs1ElementString = .ok s) 22 22 := by
  refine ⟨?_, by
      obtain ⟨s, x, hu, hs, hl⟩ := written_of (n := GSIN.new) (f := GSIN.gs1ElementString) (u := py "urn:epc:id:gsin:012345.1234567890") (k := 22) (by decide +kernel)
      exact ⟨s, ⟨_, x, hu, hs⟩, hl⟩, by
      obtain ⟨s, x, hu, hs, hl⟩ := written_of (n := GSIN.new) (f := GSIN.gs1ElementString) (u := py "urn:epc:id:gsin:012345.1234567890") (k := 22) (by decide +kernel)
      exact ⟨s, ⟨_, x, hu, hs⟩, hl⟩⟩
  rintro s ⟨u, x, hu, hs⟩
  obtain ⟨C, I, _, ⟨hl, hl2⟩, rfl, rfl⟩ := GSIN.new_iff.1 hu
  injection hs with hs
  subst hs
  have p0 : (py "(402)").length = 5 := by decide
  simp only [List.length_append, List.length_cons, List.length_nil, p0, length_uCheck, length_keyBody, length_padLeft] at *
  omega

/-- SGLN: the EPC URIs. -/
theorem C83_sgln_uri : Span (fun u => ∃ x, SGLN.new u = .ok x) 31 90 := by
  refine ⟨?_, ⟨py "urn:epc:id:sgln:012345.123456.1", ok_of_toBool (by decide +kernel), by decide +kernel⟩,
    py "urn:epc:id:sgln:012345.123456.%25%25%25%25%25%25%25%25%25%25%25%25%25%25%25%25%25%25%25%25", ok_of_toBool (by decide +kernel), by decide +kernel⟩
  rintro u ⟨x, hu⟩
  obtain ⟨C, I, S, ⟨_, _, hS⟩, ⟨hl, hl2, _, hl3⟩, rfl, rfl⟩ := SGLN.new_iff.1 hu
  have hp : (py "urn:epc:id:sgln").length = 15 := by decide
  have hS' := gs3a3_ne_nil hS
  have hs := length_unescape_ge S
  have hs2 := length_replaceUriEscapes_le S
  have hs3 := gs3a3_pos hS
  have hs4 := unescape_pos hS'
  simp only [List.length_append, List.length_cons, List.length_nil, hp] at *
  omega

/-- SGLN: the tag URIs. -/
theorem C83_sgln_tag : Span (fun t => ∃ u x cs f, SGLN.new u = .ok x ∧ x.tagUri cs f = .ok t) 37 97 := by
  refine ⟨?_, by
      obtain ⟨t, x, hu, ht, hl⟩ := written_of (n := SGLN.new) (f := fun x => x.tagUri .sgln96 0) (u := py "urn:epc:id:sgln:012345.123456.1") (k := 37) (by decide +kernel)
      exact ⟨t, ⟨_, x, .sgln96, 0, hu, ht⟩, hl⟩, by
      obtain ⟨t, x, hu, ht, hl⟩ := written_of (n := SGLN.new) (f := fun x => x.tagUri .sgln195 0) (u := py "urn:epc:id:sgln:012345.123456.%25%25%25%25%25%25%25%25%25%25%25%25%25%25%25%25%25%25%25%25") (k := 97) (by decide +kernel)
      exact ⟨t, ⟨_, x, .sgln195, 0, hu, ht⟩, hl⟩⟩
  rintro t ⟨u, x, cs, f, hu, ht⟩
  obtain ⟨b, rfl, rfl⟩ := SGLN.tagUri_form hu ht
  have hb := (C83_sgln_uri).1 _ ⟨x, hu⟩
  have hp : (py "urn:epc:id:sgln:").length = 16 := by decide
  have hv : 7 ≤ cs.value.length ∧ cs.value.length ≤ 8 := by cases cs <;> decide
  have ht : tagUriPrefix.length = 12 := by decide
  have hf := natStr_len1 (n := f) (by omega)
  simp only [List.length_append, List.length_cons, List.length_nil, hp, ht] at *
  omega

/-- SGLN: the element strings. -/
theorem C83_sgln_element : Span (fun s => ∃ u x, SGLN.new u = .ok x ∧ x.gs1ElementString = .ok s) 24 43 := by
  refine ⟨?_, by
      obtain ⟨s, x, hu, hs, hl⟩ := written_of (n := SGLN.new) (f := SGLN.gs1ElementString) (u := py "urn:epc:id:sgln:012345.123456.1") (k := 24) (by decide +kernel)
      exact ⟨s, ⟨_, x, hu, hs⟩, hl⟩, by
      obtain ⟨s, x, hu, hs, hl⟩ := written_of (n := SGLN.new) (f := SGLN.gs1ElementString) (u := py "urn:epc:id:sgln:012345.123456.%25%25%25%25%25%25%25%25%25%25%25%25%25%25%25%25%25%25%25%25") (k := 43) (by decide +kernel)
      exact ⟨s, ⟨_, x, hu, hs⟩, hl⟩⟩
  rintro s ⟨u, x, hu, hs⟩
  obtain ⟨C, I, S, ⟨_, _, hS⟩, ⟨hl, hl2, _, hl3⟩, rfl, rfl⟩ := SGLN.new_iff.1 hu
  injection hs with hs
  subst hs
  have hS' := gs3a3_ne_nil hS
  have hs := length_unescape_ge S
  have hs2 := length_replaceUriEscapes_le S
  have hs3 := gs3a3_pos hS
  have hs4 := unescape_pos hS'
  have p0 : (py "(414)").length = 5 := by decide
  have p1 : (py "(254)").length = 5 := by decide
  simp only [List.length_append, List.length_cons, List.length_nil, p0, p1, length_uCheck, length_keyBody, length_padLeft] at *
  omega

/-- GRAI: the EPC URIs. -/
theorem C83_grai_uri : Span (fun u => ∃ x, GRAI.new u = .ok x) 31 46 := by
  refine ⟨?_, ⟨py "urn:epc:id:grai:012345.123456.1", ok_of_toBool (by decide +kernel), by decide +kernel⟩,
    py "urn:epc:id:grai:012345.123456.abcdefghijklmnop", ok_of_toBool (by decide +kernel), by decide +kernel⟩
  rintro u ⟨x, hu⟩
  obtain ⟨C, I, S, ⟨_, _, hS⟩, ⟨hl, hl2, _, hl3⟩, rfl, rfl⟩ := GRAI.new_iff.1 hu
  have hp : (py "urn:epc:id:grai").length = 15 := by decide
  have hS' := gs3a3_ne_nil hS
  have hs := length_unescape_ge S
  have hs2 := length_replaceUriEscapes_le S
  have hs3 := gs3a3_pos hS
  have hs4 := unescape_pos hS'
  simp only [List.length_append, List.length_cons, List.length_nil, hp] at *
  omega

/-- GRAI: the tag URIs. -/
theorem C83_grai_tag : Span (fun t => ∃ u x cs f, GRAI.new u = .ok x ∧ x.tagUri cs f = .ok t) 37 53 := by
  refine ⟨?_, by
      obtain ⟨t, x, hu, ht, hl⟩ := written_of (n := GRAI.new) (f := fun x => x.tagUri .grai96 0) (u := py "urn:epc:id:grai:012345.123456.1") (k := 37) (by decide +kernel)
      exact ⟨t, ⟨_, x, .grai96, 0, hu, ht⟩, hl⟩, by
      obtain ⟨t, x, hu, ht, hl⟩ := written_of (n := GRAI.new) (f := fun x => x.tagUri .grai170 0) (u := py "urn:epc:id:grai:012345.123456.abcdefghijklmnop") (k := 53) (by decide +kernel)
      exact ⟨t, ⟨_, x, .grai170, 0, hu, ht⟩, hl⟩⟩
  rintro t ⟨u, x, cs, f, hu, ht⟩
  obtain ⟨b, rfl, rfl⟩ := GRAI.tagUri_form hu ht
  have hb := (C83_grai_uri).1 _ ⟨x, hu⟩
  have hp : (py "urn:epc:id:grai:").length = 16 := by decide
  have hv : 7 ≤ cs.value.length ∧ cs.value.length ≤ 8 := by cases cs <;> decide
  have ht : tagUriPrefix.length = 12 := by decide
  have hf := natStr_len1 (n := f) (by omega)
  simp only [List.length_append, List.length_cons, List.length_nil, hp, ht] at *
  omega

/-- GRAI: the element strings. -/
theorem C83_grai_element : Span (fun s => ∃ u x, GRAI.new u = .ok x ∧ x.gs1ElementString = .ok s) 21 36 := by
  refine ⟨?_, by
      obtain ⟨s, x, hu, hs, hl⟩ := written_of (n := GRAI.new) (f := GRAI.gs1ElementString) (u := py "urn:epc:id:grai:012345.123456.1") (k := 21) (by decide +kernel)
      exact ⟨s, ⟨_, x, hu, hs⟩, hl⟩, by
      obtain ⟨s, x, hu, hs, hl⟩ := written_of (n := GRAI.new) (f := GRAI.gs1ElementString) (u := py "urn:epc:id:grai:012345.123456.abcdefghijklmnop") (k := 36) (by decide +kernel)
      exact ⟨s, ⟨_, x, hu, hs⟩, hl⟩⟩
  rintro s ⟨u, x, hu, hs⟩
  obtain ⟨C, I, S, ⟨_, _, hS⟩, ⟨hl, hl2, _, hl3⟩, rfl, rfl⟩ := GRAI.new_iff.1 hu
  injection hs with hs
  subst hs
  have hS' := gs3a3_ne_nil hS
  have hs := length_unescape_ge S
  have hs2 := length_replaceUriEscapes_le S
  have hs3 := gs3a3_pos hS
  have hs4 := unescape_pos hS'
  have p0 : (py "(8003)0").length = 7 := by decide
  simp only [List.length_append, List.length_cons, List.length_nil, p0, length_uCheck, length_keyBody, length_padLeft] at *
  omega

/-- GDTI: the EPC URIs. -/
theorem C83_gdti_uri : Span (fun u => ∃ x, GDTI.new u = .ok x) 31 47 := by
  refine ⟨?_, ⟨py "urn:epc:id:gdti:012345.123456.1", ok_of_toBool (by decide +kernel), by decide +kernel⟩,
    py "urn:epc:id:gdti:012345.123456.abcdefghijklmnopq", ok_of_toBool (by decide +kernel), by decide +kernel⟩
  rintro u ⟨x, hu⟩
  obtain ⟨C, I, S, ⟨_, _, hS⟩, ⟨hl, hl2, _, hl3⟩, rfl, rfl⟩ := GDTI.new_iff.1 hu
  have hp : (py "urn:epc:id:gdti").length = 15 := by decide
  have hS' := gs3a3_ne_nil hS
  have hs := length_unescape_ge S
  have hs2 := length_replaceUriEscapes_le S
  have hs3 := gs3a3_pos hS
  have hs4 := unescape_pos hS'
  simp only [List.length_append, List.length_cons, List.length_nil, hp] at *
  omega

/-- GDTI: the tag URIs. -/
theorem C83_gdti_tag : Span (fun t => ∃ u x cs f, GDTI.new u = .ok x ∧ x.tagUri cs f = .ok t) 37 54 := by
  refine ⟨?_, by
      obtain ⟨t, x, hu, ht, hl⟩ := written_of (n := GDTI.new) (f := fun x => x.tagUri .gdti96 0) (u := py "urn:epc:id:gdti:012345.123456.1") (k := 37) (by decide +kernel)
      exact ⟨t, ⟨_, x, .gdti96, 0, hu, ht⟩, hl⟩, by
      obtain ⟨t, x, hu, ht, hl⟩ := written_of (n := GDTI.new) (f := fun x => x.tagUri .gdti174 0) (u := py "urn:epc:id:gdti:012345.123456.abcdefghijklmnopq") (k := 54) (by decide +kernel)
      exact ⟨t, ⟨_, x, .gdti174, 0, hu, ht⟩, hl⟩⟩
  rintro t ⟨u, x, cs, f, hu, ht⟩
  obtain ⟨b, rfl, rfl⟩ := GDTI.tagUri_form hu ht
  have hb := (C83_gdti_uri).1 _ ⟨x, hu⟩
  have hp : (py "urn:epc:id:gdti:").length = 16 := by decide
  have hv : 7 ≤ cs.value.length ∧ cs.value.length ≤ 8 := by cases cs <;> decide
  have ht : tagUriPrefix.length = 12 := by decide
  have hf := natStr_len1 (n := f) (by omega)
  simp only [List.length_append, List.length_cons, List.length_nil, hp, ht] at *
  omega

/-- GDTI: the element strings. -/
theorem C83_gdti_element : Span (fun s => ∃ u x, GDTI.new u = .ok x ∧ x.gs1ElementString = .ok s) 19 35 := by
  refine ⟨?_, by
      obtain ⟨s, x, hu, hs, hl⟩ := written_of (n := GDTI.new) (f := GDTI.gs1ElementString) (u := py "urn:epc:id:gdti:012345.123456.1") (k := 19) (by decide +kernel)
      exact ⟨s, ⟨_, x, hu, hs⟩, hl⟩, by
      obtain ⟨s, x, hu, hs, hl⟩ := written_of (n := GDTI.new) (f := GDTI.gs1ElementString) (u := py "urn:epc:id:gdti:012345.123456.abcdefghijklmnopq") (k := 35) (by decide +kernel)
      exact ⟨s, ⟨_, x, hu, hs⟩, hl⟩⟩
  rintro s ⟨u, x, hu, hs⟩
  obtain ⟨C, I, S, ⟨_, _, hS⟩, ⟨hl, hl2, _, hl3⟩, rfl, rfl⟩ := GDTI.new_iff.1 hu
  injection hs with hs
  subst hs
  have hS' := gs3a3_ne_nil hS
  have hs := length_unescape_ge S
  have hs2 := length_replaceUriEscapes_le S
  have hs3 := gs3a3_pos hS
  have hs4 := unescape_pos hS'
  have p0 : (py "(253)").length = 5 := by decide
  simp only [List.length_append, List.length_cons, List.length_nil, p0, length_uCheck, length_keyBody, length_padLeft] at *
  omega

/-- SGCN: the EPC URIs. -/
theorem C83_sgcn_uri : Span (fun u => ∃ x, SGCN.new u = .ok x) 31 42 := by
  refine ⟨?_, ⟨py "urn:epc:id:sgcn:012345.123456.1", ok_of_toBool (by decide +kernel), by decide +kernel⟩,
    py "urn:epc:id:sgcn:012345.123456.123456789012", ok_of_toBool (by decide +kernel), by decide +kernel⟩
  rintro u ⟨x, hu⟩
  obtain ⟨C, I, S, ⟨_, _, hS⟩, ⟨hl, hl2, hl3⟩, rfl, rfl⟩ := SGCN.new_iff.1 hu
  have hp : (py "urn:epc:id:sgcn").length = 15 := by decide
  have hs3 := List.length_pos_iff.2 hS.1
  simp only [List.length_append, List.length_cons, List.length_nil, hp] at *
  omega

/-- SGCN: the tag URIs. -/
theorem C83_sgcn_tag : Span (fun t => ∃ u x cs f, SGCN.new u = .ok x ∧ x.tagUri cs f = .ok t) 37 48 := by
  refine ⟨?_, by
      obtain ⟨t, x, hu, ht, hl⟩ := written_of (n := SGCN.new) (f := fun x => x.tagUri .sgcn96 0) (u := py "urn:epc:id:sgcn:012345.123456.1") (k := 37) (by decide +kernel)
      exact ⟨t, ⟨_, x, .sgcn96, 0, hu, ht⟩, hl⟩, by
      obtain ⟨t, x, hu, ht, hl⟩ := written_of (n := SGCN.new) (f := fun x => x.tagUri .sgcn96 0) (u := py "urn:epc:id:sgcn:012345.123456.123456789012") (k := 48) (by decide +kernel)
      exact ⟨t, ⟨_, x, .sgcn96, 0, hu, ht⟩, hl⟩⟩
  rintro t ⟨u, x, cs, f, hu, ht⟩
  obtain ⟨b, rfl, rfl⟩ := SGCN.tagUri_form hu ht
  have hb := (C83_sgcn_uri).1 _ ⟨x, hu⟩
  have hp : (py "urn:epc:id:sgcn:").length = 16 := by decide
  have hv : 7 ≤ cs.value.length ∧ cs.value.length ≤ 7 := by cases cs <;> decide
  have ht : tagUriPrefix.length = 12 := by decide
  have hf := natStr_len1 (n := f) (by omega)
  simp only [List.length_append, List.length_cons, List.length_nil, hp, ht] at *
  omega

/-- SGCN: the element strings. -/
theorem C83_sgcn_element : Span (fun s => ∃ u x, SGCN.new u = .ok x ∧ x.gs1ElementString = .ok s) 19 30 := by
  refine ⟨?_, by
      obtain ⟨s, x, hu, hs, hl⟩ := written_of (n := SGCN.new) (f := SGCN.gs1ElementString) (u := py "urn:epc:id:sgcn:012345.123456.1") (k := 19) (by decide +kernel)
      exact ⟨s, ⟨_, x, hu, hs⟩, hl⟩, by
      obtain ⟨s, x, hu, hs, hl⟩ := written_of (n := SGCN.new) (f := SGCN.gs1ElementString) (u := py "urn:epc:id:sgcn:012345.123456.123456789012") (k := 30) (by decide +kernel)
      exact ⟨s, ⟨_, x, hu, hs⟩, hl⟩⟩
  rintro s ⟨u, x, hu, hs⟩
  obtain ⟨C, I, S, ⟨_, _, hS⟩, ⟨hl, hl2, hl3⟩, rfl, rfl⟩ := SGCN.new_iff.1 hu
  injection hs with hs
  subst hs
  have hs3 := List.length_pos_iff.2 hS.1
  have p0 : (py "(255)").length = 5 := by decide
  simp only [List.length_append, List.length_cons, List.length_nil, p0, length_uCheck, length_keyBody, length_padLeft] at *
  omega

/-- GINC: the EPC URIs. -/
theorem C83_ginc_uri : Span (fun u => ∃ x, GINC.new u = .ok x) 24 95 := by
  refine ⟨?_, ⟨py "urn:epc:id:ginc:012345.1", ok_of_toBool (by decide +kernel), by decide +kernel⟩,
    py "urn:epc:id:ginc:012345.%25%25%25%25%25%25%25%25%25%25%25%25%25%25%25%25%25%25%25%25%25%25%25%25", ok_of_toBool (by decide +kernel), by decide +kernel⟩
  rintro u ⟨x, hu⟩
  obtain ⟨C, S, ⟨_, hS⟩, ⟨hl, _, hl2, hl3⟩, rfl, rfl⟩ := GINC.new_iff.1 hu
  have hp : (py "urn:epc:id:ginc").length = 15 := by decide
  have hs := length_unescape_ge S
  have hs2 := length_replaceUriEscapes_le S
  have hs3 := gs3a3_pos hS
  simp only [List.length_append, List.length_cons, List.length_nil, hp] at *
  omega

/-- GINC: the element strings. -/
theorem C83_ginc_element : Span (fun s => ∃ u x, GINC.new u = .ok x ∧ x.gs1ElementString = .ok s) 12 35 := by
  refine ⟨?_, by
      obtain ⟨s, x, hu, hs, hl⟩ := written_of (n := GINC.new) (f := GINC.gs1ElementString) (u := py "urn:epc:id:ginc:012345.1") (k := 12) (by decide +kernel)
      exact ⟨s, ⟨_, x, hu, hs⟩, hl⟩, by
      obtain ⟨s, x, hu, hs, hl⟩ := written_of (n := GINC.new) (f := GINC.gs1ElementString) (u := py "urn:epc:id:ginc:012345.%25%25%25%25%25%25%25%25%25%25%25%25%25%25%25%25%25%25%25%25%25%25%25%25") (k := 35) (by decide +kernel)
      exact ⟨s, ⟨_, x, hu, hs⟩, hl⟩⟩
  rintro s ⟨u, x, hu, hs⟩
  obtain ⟨C, S, ⟨_, hS⟩, ⟨hl, _, hl2, hl3⟩, rfl, rfl⟩ := GINC.new_iff.1 hu
  injection hs with hs
  subst hs
  have hs := length_unescape_ge S
  have hs2 := length_replaceUriEscapes_le S
  have hs3 := gs3a3_pos hS
  have p0 : (py "(401)").length = 5 := by decide
  simp only [List.length_append, List.length_cons, List.length_nil, p0, length_uCheck, length_keyBody, length_padLeft] at *
  omega

/-- CPI: the EPC URIs. -/
theorem C83_cpi_uri : Span (fun u => ∃ x, CPI.new u = .ok x) 25 59 := by
  refine ⟨?_, ⟨py "urn:epc:id:cpi:012345.A.1", ok_of_toBool (by decide +kernel), by decide +kernel⟩,
    py "urn:epc:id:cpi:012345.ABCDEFGHIJKLMNOPQRSTUVWX.123456789012", ok_of_toBool (by decide +kernel), by decide +kernel⟩
  rintro u ⟨x, hu⟩
  obtain ⟨C, D, S, ⟨_, hD, hS⟩, ⟨hl, hl2, hl3⟩, rfl, rfl⟩ := CPI.new_iff.1 hu
  have hp : (py "urn:epc:id:cpi").length = 14 := by decide
  have hs := length_replaceCpi_le D
  have hs2 := length_replaceCpi_pos (cpref_ne_nil hD)
  have hs3 := num_pos hS
  have hs4 := List.length_pos_iff.2 (cpref_ne_nil hD)
  simp only [List.length_append, List.length_cons, List.length_nil, hp] at *
  omega

/-- CPI: the tag URIs. -/
theorem C83_cpi_tag : Span (fun t => ∃ u x cs f, CPI.new u = .ok x ∧ x.tagUri cs f = .ok t) 31 66 := by
  refine ⟨?_, by
      obtain ⟨t, x, hu, ht, hl⟩ := written_of (n := CPI.new) (f := fun x => x.tagUri .cpi96 0) (u := py "urn:epc:id:cpi:012345.1.1") (k := 31) (by decide +kernel)
      exact ⟨t, ⟨_, x, .cpi96, 0, hu, ht⟩, hl⟩, by
      obtain ⟨t, x, hu, ht, hl⟩ := written_of (n := CPI.new) (f := fun x => x.tagUri .cpiVar 0) (u := py "urn:epc:id:cpi:012345.ABCDEFGHIJKLMNOPQRSTUVWX.123456789012") (k := 66) (by decide +kernel)
      exact ⟨t, ⟨_, x, .cpiVar, 0, hu, ht⟩, hl⟩⟩
  rintro t ⟨u, x, cs, f, hu, ht⟩
  obtain ⟨b, rfl, rfl⟩ := CPI.tagUri_form hu ht
  have hb := (C83_cpi_uri).1 _ ⟨x, hu⟩
  have hp : (py "urn:epc:id:cpi:").length = 15 := by decide
  have hv : 6 ≤ cs.value.length ∧ cs.value.length ≤ 7 := by cases cs <;> decide
  have ht : tagUriPrefix.length = 12 := by decide
  have hf := natStr_len1 (n := f) (by omega)
  simp only [List.length_append, List.length_cons, List.length_nil, hp, ht] at *
  omega

/-- CPI: the element strings. -/
theorem C83_cpi_element : Span (fun s => ∃ u x, CPI.new u = .ok x ∧ x.gs1ElementString = .ok s) 20 54 := by
  refine ⟨?_, by
      obtain ⟨s, x, hu, hs, hl⟩ := written_of (n := CPI.new) (f := CPI.gs1ElementString) (u := py "urn:epc:id:cpi:012345.A.1") (k := 20) (by decide +kernel)
      exact ⟨s, ⟨_, x, hu, hs⟩, hl⟩, by
      obtain ⟨s, x, hu, hs, hl⟩ := written_of (n := CPI.new) (f := CPI.gs1ElementString) (u := py "urn:epc:id:cpi:012345.ABCDEFGHIJKLMNOPQRSTUVWX.123456789012") (k := 54) (by decide +kernel)
      exact ⟨s, ⟨_, x, hu, hs⟩, hl⟩⟩
  rintro s ⟨u, x, hu, hs⟩
  obtain ⟨C, D, S, ⟨_, hD, hS⟩, ⟨hl, hl2, hl3⟩, rfl, rfl⟩ := CPI.new_iff.1 hu
  injection hs with hs
  subst hs
  have hs := length_replaceCpi_le D
  have hs2 := length_replaceCpi_pos (cpref_ne_nil hD)
  have hs3 := num_pos hS
  have hs4 := List.length_pos_iff.2 (cpref_ne_nil hD)
  have p0 : (py "(8010)").length = 6 := by decide
  have p1 : (py "(8011)").length = 6 := by decide
  simp only [List.length_append, List.length_cons, List.length_nil, p0, p1, length_uCheck, length_keyBody, length_padLeft] at *
  omega

/-- ITIP: the EPC URIs. -/
theorem C83_itip_uri : Span (fun u => ∃ x, ITIP.new u = .ok x) 38 97 := by
  refine ⟨?_, ⟨py "urn:epc:id:itip:012345.1234567.01.02.1", ok_of_toBool (by decide +kernel), by decide +kernel⟩,
    py "urn:epc:id:itip:012345.1234567.01.02.%25%25%25%25%25%25%25%25%25%25%25%25%25%25%25%25%25%25%25%25", ok_of_toBool (by decide +kernel), by decide +kernel⟩
  rintro u ⟨x, hu⟩
  obtain ⟨C, I, A, B, S, ⟨_, _, _, _, hS⟩, ⟨hl, hl2, _, hl3⟩, rfl, rfl⟩ := ITIP.new_iff.1 hu
  have hp : (py "urn:epc:id:itip").length = 15 := by decide
  have hs := length_unescape_ge S
  have hs2 := length_replaceUriEscapes_le S
  have hs3 := gs3a3_pos hS
  simp only [List.length_append, List.length_cons, List.length_nil, hp] at *
  omega

/-- ITIP: the tag URIs. -/
theorem C83_itip_tag : Span (fun t => ∃ u x cs f, ITIP.new u = .ok x ∧ x.tagUri cs f = .ok t) 45 104 := by
  refine ⟨?_, by
      obtain ⟨t, x, hu, ht, hl⟩ := written_of (n := ITIP.new) (f := fun x => x.tagUri .itip110 0) (u := py "urn:epc:id:itip:012345.1234567.01.02.1") (k := 45) (by decide +kernel)
      exact ⟨t, ⟨_, x, .itip110, 0, hu, ht⟩, hl⟩, by
      obtain ⟨t, x, hu, ht, hl⟩ := written_of (n := ITIP.new) (f := fun x => x.tagUri .itip212 0) (u := py "urn:epc:id:itip:012345.1234567.01.02.%25%25%25%25%25%25%25%25%25%25%25%25%25%25%25%25%25%25%25%25") (k := 104) (by decide +kernel)
      exact ⟨t, ⟨_, x, .itip212, 0, hu, ht⟩, hl⟩⟩
  rintro t ⟨u, x, cs, f, hu, ht⟩
  obtain ⟨b, rfl, rfl⟩ := ITIP.tagUri_form hu ht
  have hb := (C83_itip_uri).1 _ ⟨x, hu⟩
  have hp : (py "urn:epc:id:itip:").length = 16 := by decide
  have hv : 8 ≤ cs.value.length ∧ cs.value.length ≤ 8 := by cases cs <;> decide
  have ht : tagUriPrefix.length = 12 := by decide
  have hf := natStr_len1 (n := f) (by omega)
  simp only [List.length_append, List.length_cons, List.length_nil, hp, ht] at *
  omega

/-- ITIP: the element strings. -/
theorem C83_itip_element : Span (fun s => ∃ u x, ITIP.new u = .ok x ∧ x.gs1ElementString = .ok s) 29 48 := by
  refine ⟨?_, by
      obtain ⟨s, x, hu, hs, hl⟩ := written_of (n := ITIP.new) (f := ITIP.gs1ElementString) (u := py "urn:epc:id:itip:012345.1234567.01.02.1") (k := 29) (by decide +kernel)
      exact ⟨s, ⟨_, x, hu, hs⟩, hl⟩, by
      obtain ⟨s, x, hu, hs, hl⟩ := written_of (n := ITIP.new) (f := ITIP.gs1ElementString) (u := py "urn:epc:id:itip:012345.1234567.01.02.%25%25%25%25%25%25%25%25%25%25%25%25%25%25%25%25%25%25%25%25") (k := 48) (by decide +kernel)
      exact ⟨s, ⟨_, x, hu, hs⟩, hl⟩⟩
  rintro s ⟨u, x, hu, hs⟩
  obtain ⟨C, I, A, B, S, ⟨_, _, _, _, hS⟩, ⟨hl, hl2, _, hl3⟩, rfl, rfl⟩ := ITIP.new_iff.1 hu
  unfold ITIP.gs1ElementString at hs
  obtain ⟨i, hi, hs⟩ := bind_ok_iff.1 hs
  obtain ⟨k, hk, hs⟩ := bind_ok_iff.1 hs
  have hi := getIdx_pos hi
  have hk := checksum_len hk
  injection hs with hs
  subst hs
  have hs := length_unescape_ge S
  have hs2 := length_replaceUriEscapes_le S
  have hs3 := gs3a3_pos hS
  have p0 : (py "(8006)").length = 6 := by decide
  have p1 : (py "(21)").length = 4 := by decide
  simp only [List.length_append, List.length_cons, List.length_nil, List.length_drop, p0, p1] at *
  omega

/-- UPUI: the EPC URIs. -/
theorem C83_upui_uri : Span (fun u => ∃ x, UPUI.new u = .ok x) 32 115 := by
  refine ⟨?_, ⟨py "urn:epc:id:upui:012345.1234567.1", ok_of_toBool (by decide +kernel), by decide +kernel⟩,
    py "urn:epc:id:upui:012345.1234567.%25%25%25%25%25%25%25%25%25%25%25%25%25%25%25%25%25%25%25%25%25%25%25%25%25%25%25%25", ok_of_toBool (by decide +kernel), by decide +kernel⟩
  rintro u ⟨x, hu⟩
  obtain ⟨C, I, S, ⟨_, _, hS⟩, ⟨hl, _, hl3⟩, rfl, rfl⟩ := UPUI.new_iff.1 hu
  have hp : (py "urn:epc:id:upui").length = 15 := by decide
  have hs := length_unescape_ge S
  have hs2 := length_replaceUriEscapes_le S
  have hs3 := gs3a3_pos hS
  simp only [List.length_append, List.length_cons, List.length_nil, hp] at *
  omega

/-- UPUI: the element strings. -/
theorem C83_upui_element : Span (fun s => ∃ u x, UPUI.new u = .ok x ∧ x.gs1ElementString = .ok s) 24 51 := by
  refine ⟨?_, by
      obtain ⟨s, x, hu, hs, hl⟩ := written_of (n := UPUI.new) (f := UPUI.gs1ElementString) (u := py "urn:epc:id:upui:012345.1234567.1") (k := 24) (by decide +kernel)
      exact ⟨s, ⟨_, x, hu, hs⟩, hl⟩, by
      obtain ⟨s, x, hu, hs, hl⟩ := written_of (n := UPUI.new) (f := UPUI.gs1ElementString) (u := py "urn:epc:id:upui:012345.1234567.%25%25%25%25%25%25%25%25%25%25%25%25%25%25%25%25%25%25%25%25%25%25%25%25%25%25%25%25") (k := 51) (by decide +kernel)
      exact ⟨s, ⟨_, x, hu, hs⟩, hl⟩⟩
  rintro s ⟨u, x, hu, hs⟩
  obtain ⟨C, I, S, ⟨_, _, hS⟩, ⟨hl, _, hl3⟩, rfl, rfl⟩ := UPUI.new_iff.1 hu
  unfold UPUI.gs1ElementString at hs
  obtain ⟨i, hi, hs⟩ := bind_ok_iff.1 hs
  obtain ⟨k, hk, hs⟩ := bind_ok_iff.1 hs
  have hi := getIdx_pos hi
  have hk := checksum_len hk
  injection hs with hs
  subst hs
  have hs := length_unescape_ge S
  have hs2 := length_replaceUriEscapes_le S
  have hs3 := gs3a3_pos hS
  have p0 : (py "(01)").length = 4 := by decide
  have p1 : (py "(235)").length = 5 := by decide
  simp only [List.length_append, List.length_cons, List.length_nil, List.length_drop, p0, p1] at *
  omega

/-- LGTIN: the class URIs. -/
theorem C83_lgtin_uri : Span (fun u => ∃ x, LGTIN.new u = .ok x) 36 95 := by
  refine ⟨?_, ⟨py "urn:epc:class:lgtin:012345.1234567.1", ok_of_toBool (by decide +kernel), by decide +kernel⟩,
    py "urn:epc:class:lgtin:012345.1234567.%25%25%25%25%25%25%25%25%25%25%25%25%25%25%25%25%25%25%25%25", ok_of_toBool (by decide +kernel), by decide +kernel⟩
  rintro u ⟨x, hu⟩
  obtain ⟨C, I, S, ⟨_, _, hS⟩, ⟨hl, hl2, _, hl3⟩, rfl, rfl⟩ := LGTIN.new_iff.1 hu
  have hp : (py "urn:epc:class:lgtin").length = 19 := by decide
  have hs := length_unescape_ge S
  have hs2 := length_replaceUriEscapes_le S
  have hs3 := gs3a3_pos hS
  simp only [List.length_append, List.length_cons, List.length_nil, hp] at *
  omega

/-- LGTIN: the element strings. -/
theorem C83_lgtin_element : Span (fun s => ∃ u x, LGTIN.new u = .ok x ∧ x.gs1ElementString = .ok s) 23 42 := by
  refine ⟨?_, by
      obtain ⟨s, x, hu, hs, hl⟩ := written_of (n := LGTIN.new) (f := LGTIN.gs1ElementString) (u := py "urn:epc:class:lgtin:012345.1234567.1") (k := 23) (by decide +kernel)
      exact ⟨s, ⟨_, x, hu, hs⟩, hl⟩, by
      obtain ⟨s, x, hu, hs, hl⟩ := written_of (n := LGTIN.new) (f := LGTIN.gs1ElementString) (u := py "urn:epc:class:lgtin:012345.1234567.%25%25%25%25%25%25%25%25%25%25%25%25%25%25%25%25%25%25%25%25") (k := 42) (by decide +kernel)
      exact ⟨s, ⟨_, x, hu, hs⟩, hl⟩⟩
  rintro s ⟨u, x, hu, hs⟩
  obtain ⟨C, I, S, ⟨_, _, hS⟩, ⟨hl, hl2, _, hl3⟩, rfl, rfl⟩ := LGTIN.new_iff.1 hu
  injection hs with hs
  subst hs
  have hs := length_unescape_ge S
  have hs2 := length_replaceUriEscapes_le S
  have hs3 := gs3a3_pos hS
  have p0 : (py "(01)").length = 4 := by decide
  have p1 : (py "(10)").length = 4 := by decide
  simp only [List.length_append, List.length_cons, List.length_nil, p0, p1, length_uCheck, length_keyBody, length_padLeft] at *
  omega

/-- GID: the EPC URIs. -/
theorem C83_gid_uri : Span (fun u => ∃ x, GID.new u = .ok x) 20 45 := by
  refine ⟨?_, ⟨py "urn:epc:id:gid:1.2.3", ok_of_toBool (by decide +kernel), by decide +kernel⟩,
    py "urn:epc:id:gid:268435455.16777215.68719476735", ok_of_toBool (by decide +kernel), by decide +kernel⟩
  rintro u ⟨x, hu⟩
  obtain ⟨C, D, S, ⟨hC, hD, hS⟩, ⟨hl, hl2, hl3⟩, rfl, rfl⟩ := GID.new_iff.1 hu
  have hp : (py "urn:epc:id:gid").length = 14 := by decide
  have h1 := num_length (k := 9) (by decide) hC (Nat.lt_trans hl (by decide))
  have h2 := num_length (k := 8) (by decide) hD (Nat.lt_trans hl2 (by decide))
  have h3 := num_length (k := 11) (by decide) hS (Nat.lt_trans hl3 (by decide))
  have h4 := num_pos hC
  have h5 := num_pos hD
  have h6 := num_pos hS
  simp only [List.length_append, List.length_cons, List.length_nil, hp] at *
  omega

/-- GID: the tag URIs. -/
theorem C83_gid_tag : Span (fun t => ∃ u x cs, GID.new u = .ok x ∧ x.tagUri cs = .ok t) 24 49 := by
  refine ⟨?_, by
      obtain ⟨t, x, hu, ht, hl⟩ := written_of (n := GID.new) (f := fun x => x.tagUri .gid96) (u := py "urn:epc:id:gid:1.2.3") (k := 24) (by decide +kernel)
      exact ⟨t, ⟨_, x, .gid96, hu, ht⟩, hl⟩, by
      obtain ⟨t, x, hu, ht, hl⟩ := written_of (n := GID.new) (f := fun x => x.tagUri .gid96) (u := py "urn:epc:id:gid:268435455.16777215.68719476735") (k := 49) (by decide +kernel)
      exact ⟨t, ⟨_, x, .gid96, hu, ht⟩, hl⟩⟩
  rintro t ⟨u, x, cs, hu, ht⟩
  obtain ⟨b, rfl, rfl⟩ := GID.tagUri_form (cs := cs) hu ht
  have hb := (C83_gid_uri).1 _ ⟨x, hu⟩
  have hp : (py "urn:epc:id:gid:").length = 15 := by decide
  have hv : 6 ≤ (GID.Coding.value .gid96).length ∧ (GID.Coding.value .gid96).length ≤ 6 := by cases cs <;> decide
  have ht : tagUriPrefix.length = 12 := by decide
  simp only [List.length_append, List.length_cons, List.length_nil, hp, ht] at *
  omega

/-- USDOD: the EPC URIs. -/
theorem C83_usdod_uri : Span (fun u => ∃ x, USDOD.new u = .ok x) 24 35 := by
  refine ⟨?_, ⟨py "urn:epc:id:usdod:2S194.1", ok_of_toBool (by decide +kernel), by decide +kernel⟩,
    py "urn:epc:id:usdod:2S1944.68719476735", ok_of_toBool (by decide +kernel), by decide +kernel⟩
  rintro u ⟨x, hu⟩
  obtain ⟨C, S, ⟨hC, hS⟩, hl, rfl, rfl⟩ := USDOD.new_iff.1 hu
  have hp : (py "urn:epc:id:usdod").length = 16 := by decide
  have h1 := ((lang_cage C).1 hC).1
  have h3 := num_length (k := 11) (by decide) hS (Nat.lt_trans hl (by decide))
  have h6 := num_pos hS
  simp only [List.length_append, List.length_cons, List.length_nil, hp] at *
  omega

/-- USDOD: the tag URIs. -/
theorem C83_usdod_tag : Span (fun t => ∃ u x cs f, USDOD.new u = .ok x ∧ x.tagUri cs f = .ok t) 30 42 := by
  refine ⟨?_, by
      obtain ⟨t, x, hu, ht, hl⟩ := written_of (n := USDOD.new) (f := fun x => x.tagUri .usdod96 0) (u := py "urn:epc:id:usdod:2S194.1") (k := 30) (by decide +kernel)
      exact ⟨t, ⟨_, x, .usdod96, 0, hu, ht⟩, hl⟩, by
      obtain ⟨t, x, hu, ht, hl⟩ := written_of (n := USDOD.new) (f := fun x => x.tagUri .usdod96 10) (u := py "urn:epc:id:usdod:2S1944.68719476735") (k := 42) (by decide +kernel)
      exact ⟨t, ⟨_, x, .usdod96, 10, hu, ht⟩, hl⟩⟩
  rintro t ⟨u, x, cs, f, hu, ht⟩
  obtain ⟨b, rfl, rfl⟩ := USDOD.tagUri_form hu ht
  have hb := (C83_usdod_uri).1 _ ⟨x, hu⟩
  have hp : (py "urn:epc:id:usdod:").length = 17 := by decide
  have hv : 8 ≤ cs.value.length ∧ cs.value.length ≤ 8 := by cases cs <;> decide
  have ht : tagUriPrefix.length = 12 := by decide
  have hf := natStr_len2 (n := f) (by omega)
  simp only [List.length_append, List.length_cons, List.length_nil, hp, ht] at *
  omega

/-- ADI: the EPC URIs. -/
theorem C83_adi_uri : Span (fun u => ∃ x, ADI.new u = .ok x) 23 209 := by
  refine ⟨?_, ⟨py "urn:epc:id:adi:2S194..1", ok_of_toBool (by decide +kernel), by decide +kernel⟩,
    py "urn:epc:id:adi:2S1944.%2F%2F%2F%2F%2F%2F%2F%2F%2F%2F%2F%2F%2F%2F%2F%2F%2F%2F%2F%2F%2F%2F%2F%2F%2F%2F%2F%2F%2F%2F%2F%2F.%23%2F%2F%2F%2F%2F%2F%2F%2F%2F%2F%2F%2F%2F%2F%2F%2F%2F%2F%2F%2F%2F%2F%2F%2F%2F%2F%2F%2F%2F", ok_of_toBool (by decide +kernel), by decide +kernel⟩
  rintro u ⟨x, hu⟩
  obtain ⟨C, D, S, ⟨hC, hD, hS⟩, ⟨hl, hl2, hl3⟩, rfl, rfl⟩ := ADI.new_iff.1 hu
  have hp : (py "urn:epc:id:adi").length = 14 := by decide
  have h1 := ((lang_cage C).1 hC).1
  have h2 := length_slash_ge D
  have h3 := length_hash_slash_ge S
  have h6 := adiSerial_pos hS
  simp only [List.length_append, List.length_cons, List.length_nil, hp] at *
  omega

/-- ADI: the tag URIs. -/
theorem C83_adi_tag : Span (fun t => ∃ u x cs f, ADI.new u = .ok x ∧ x.tagUri cs f = .ok t) 30 217 := by
  refine ⟨?_, by
      obtain ⟨t, x, hu, ht, hl⟩ := written_of (n := ADI.new) (f := fun x => x.tagUri .adiVar 0) (u := py "urn:epc:id:adi:2S194..1") (k := 30) (by decide +kernel)
      exact ⟨t, ⟨_, x, .adiVar, 0, hu, ht⟩, hl⟩, by
      obtain ⟨t, x, hu, ht, hl⟩ := written_of (n := ADI.new) (f := fun x => x.tagUri .adiVar 10) (u := py "urn:epc:id:adi:2S1944.%2F%2F%2F%2F%2F%2F%2F%2F%2F%2F%2F%2F%2F%2F%2F%2F%2F%2F%2F%2F%2F%2F%2F%2F%2F%2F%2F%2F%2F%2F%2F%2F.%23%2F%2F%2F%2F%2F%2F%2F%2F%2F%2F%2F%2F%2F%2F%2F%2F%2F%2F%2F%2F%2F%2F%2F%2F%2F%2F%2F%2F%2F") (k := 217) (by decide +kernel)
      exact ⟨t, ⟨_, x, .adiVar, 10, hu, ht⟩, hl⟩⟩
  rintro t ⟨u, x, cs, f, hu, ht⟩
  obtain ⟨b, rfl, rfl⟩ := ADI.tagUri_form hu ht
  have hb := (C83_adi_uri).1 _ ⟨x, hu⟩
  have hp : (py "urn:epc:id:adi:").length = 15 := by decide
  have hv : 7 ≤ cs.value.length ∧ cs.value.length ≤ 7 := by cases cs <;> decide
  have ht : tagUriPrefix.length = 12 := by decide
  have hf := natStr_len2 (n := f) (by omega)
  simp only [List.length_append, List.length_cons, List.length_nil, hp, ht] at *
  omega

/-- BIC: the EPC URIs. -/
theorem C83_bic_uri : Span (fun u => ∃ x, BIC.new u = .ok x) 26 26 := by
  refine ⟨?_, ⟨py "urn:epc:id:bic:CSQU3054383", ok_of_toBool (by decide +kernel), by decide +kernel⟩,
    py "urn:epc:id:bic:CSQU3054383", ok_of_toBool (by decide +kernel), by decide +kernel⟩
  rintro u ⟨x, hu⟩
  obtain ⟨o, c, d, ⟨hl, _, hl2, _⟩, rfl, rfl⟩ := BIC.new_iff.1 hu
  have hp : (py "urn:epc:id:bic").length = 14 := by decide
  have h1 := hl.1
  simp only [List.length_append, List.length_cons, List.length_nil, hp] at *
  omega

/-- IMOVN: the EPC URIs. -/
theorem C83_imovn_uri : Span (fun u => ∃ x, IMOVN.new u = .ok x) 24 24 := by
  refine ⟨?_, ⟨py "urn:epc:id:imovn:9176187", ok_of_toBool (by decide +kernel), by decide +kernel⟩,
    py "urn:epc:id:imovn:9176187", ok_of_toBool (by decide +kernel), by decide +kernel⟩
  rintro u ⟨x, hu⟩
  obtain ⟨d, hl, rfl, rfl⟩ := IMOVN.new_iff.1 hu
  have hp : (py "urn:epc:id:imovn").length = 16 := by decide
  have h1 := hl.1
  simp only [List.length_append, List.length_cons, List.length_nil, hp] at *
  omega

/-- GIAI: no URI is the longest one. -/
theorem C83_giai_uri : (∀ u x, GIAI.new u = .ok x → 24 ≤ u.length) ∧ (∃ u x, GIAI.new u = .ok x ∧ u.length = 24) ∧
    ∀ n, ∃ u x, GIAI.new u = .ok x ∧ n ≤ u.length := by
  refine ⟨fun u x hu => ?_, ?_, fun n => ?_⟩
  · obtain ⟨C, S, ⟨_, hS⟩, ⟨hl, _, _⟩, rfl, rfl⟩ := GIAI.new_iff.1 hu
    have hs := gs3a3_pos hS
    have hp : (py "urn:epc:id:giai").length = 15 := by decide
    simp only [List.length_append, List.length_cons, hp]
    omega
  · obtain ⟨x, hx⟩ := ok_of_toBool (r := GIAI.new (py "urn:epc:id:giai:012345.1")) (by decide +kernel)
    exact ⟨_, x, hx, by decide⟩
  · have hS : Re.Lang Rx.gs3a3 ('1' :: ':' :: List.replicate n '1') := gs3a3_run n
    have hh : (split ':' ('1' :: ':' :: List.replicate n '1')).headD [] = ['1'] := rfl
    refine ⟨_, _, GIAI.new_iff.2 ⟨py "012345", _, ⟨⟨by decide, by unfold Dec; decide +kernel⟩, hS⟩, ⟨by decide, by rw [hh]; decide +kernel, by rw [hh]; decide⟩, rfl, rfl⟩, ?_⟩
    simp only [List.length_append, List.length_cons, List.length_replicate]
    omega

/-- GIAI: the tag URIs. -/
theorem C83_giai_tag : Span (fun t => ∃ u x cs f, GIAI.new u = .ok x ∧ x.tagUri cs f = .ok t) 30 54 := by
  refine ⟨?_, by
      obtain ⟨t, x, hu, ht, hl⟩ := written_of (n := GIAI.new) (f := fun x => x.tagUri .giai96 0) (u := py "urn:epc:id:giai:012345.1") (k := 30) (by decide +kernel)
      exact ⟨t, ⟨_, x, .giai96, 0, hu, ht⟩, hl⟩, by
      obtain ⟨t, x, hu, ht, hl⟩ := written_of (n := GIAI.new) (f := fun x => x.tagUri .giai202 0) (u := py "urn:epc:id:giai:012345.abcdefghijklmnopqrstuvwx") (k := 54) (by decide +kernel)
      exact ⟨t, ⟨_, x, .giai202, 0, hu, ht⟩, hl⟩⟩
  rintro t ⟨u, x, cs, f, hu, ht⟩
  obtain ⟨C, S, hC, hS, rfl, e1, e2, rfl⟩ := GIAI.tagUri_form hu ht
  obtain ⟨C', S', ⟨_, hS'⟩, ⟨hl, hv, hl2⟩, _, rfl⟩ := GIAI.new_iff.1 hu
  dsimp only at e1 e2
  subst e1
  rw [← e2]
  have h0 := verify_pos hv
  have hv : 7 ≤ cs.value.length ∧ cs.value.length ≤ 8 := by cases cs <;> decide
  have ht : tagUriPrefix.length = 12 := by decide
  have hf := natStr_len1 (n := f) (by omega)
  simp only [List.length_append, List.length_cons, ht] at *
  omega

/-- GIAI: the element strings. -/
theorem C83_giai_element : Span (fun s => ∃ u x, GIAI.new u = .ok x ∧ x.gs1ElementString = .ok s) 13 36 := by
  refine ⟨?_, by
      obtain ⟨s, x, hu, hs, hl⟩ := written_of (n := GIAI.new) (f := GIAI.gs1ElementString) (u := py "urn:epc:id:giai:012345.1") (k := 13) (by decide +kernel)
      exact ⟨s, ⟨_, x, hu, hs⟩, hl⟩, by
      obtain ⟨s, x, hu, hs, hl⟩ := written_of (n := GIAI.new) (f := GIAI.gs1ElementString) (u := py "urn:epc:id:giai:012345.abcdefghijklmnopqrstuvwx") (k := 36) (by decide +kernel)
      exact ⟨s, ⟨_, x, hu, hs⟩, hl⟩⟩
  rintro s ⟨u, x, hu, hs⟩
  obtain ⟨C, S, ⟨_, hS⟩, ⟨hl, hv, hl2⟩, rfl, rfl⟩ := GIAI.new_iff.1 hu
  injection hs with hs
  subst hs
  have h0 := unescape_pos (List.length_pos_iff.1 (verify_pos hv))
  have h1 := length_replaceUriEscapes_le ((split ':' S).headD [])
  have p0 : (py "(8004)").length = 6 := by decide
  simp only [List.length_append, p0] at *
  omega

end Epc
