/-
C15: every TDS-conformant serial is accepted.

False: `verify_gs3a3_component` only recognises escapes of two decimal digits.  Proved for every scheme: exactly which canonical serials
of admissible length are accepted (`LoneLetterEscapes`, Verif/Spec/Digits.lean), in particular all those without `/`, `<`, `>`, `?`.
-/
import Verif.Lemmas.Verify

namespace Epc
open Spec Re

/-- The claim is false: the serial `/xyz`, canonically written `%2Fxyz`, is refused by SGTIN. -/
theorem C15_claim_false : ¬ ∀ raw : Str, raw ≠ [] → (∀ c ∈ raw, c ∈ gs82) → raw.length ≤ 20 →
    ∃ x, SGTIN.new (py "urn:epc:id:sgtin:9521141.012345." ++ escape raw) = .ok x := by
  intro h
  obtain ⟨x, hx⟩ := h (py "/xyz") (by decide) (by decide) (by decide)
  have : SGTIN.new (py "urn:epc:id:sgtin:9521141.012345." ++ escape (py "/xyz")) = .error .value := by decide +kernel
  rw [this] at hx
  cases hx

/-- The condition holds for a text without the four characters, and it is not just that. -/
theorem C15_condition_plain (raw : Str) (h : ∀ c ∈ raw, c ∉ py "/<>?") : LoneLetterEscapes raw := loneLetter_of_none h

example : LoneLetterEscapes (py "a/b\"?&") ∧ ¬ LoneLetterEscapes (py "/b") := by
  constructor
  · rw [← segsOk_iff]
    refine ⟨?_, ?_⟩
    · intro c t e hl
      simp only [segs, isDE] at e
      revert e
      simp [List.cons.injEq]
      rintro rfl
      exact absurd hl (by decide)
    · intro p hp
      have : p = ('"', py "?") ∨ p = ('&', []) := by simpa [segs, isDE] using hp
      rcases this with rfl | rfl
      · intro c t e _; injection e with e e'; exact e'.symm
      · intro c t e; cases e
  · intro h
    have := h [] '/' ['b'] rfl (by decide) (.inl rfl)
    revert this
    simp

/-- SGTIN. -/
theorem C15_sgtin_partial (C I raw : Str) (hC : Digits C) (hI : Digits I) (h1 : 6 ≤ C.length) (h2 : C.length ≤ 12) (h3 : C.length + I.length = 13)
    (hne : raw ≠ []) (hr : ∀ c ∈ raw, c ∈ gs82) (hl : raw.length ≤ 20) :
    (∃ x, SGTIN.new (py "urn:epc:id:sgtin:" ++ joinWith '.' [C, I, escape raw]) = .ok x) ↔ LoneLetterEscapes raw := by
  rw [← verify_escape_iff hr hne]
  have hCne : C ≠ [] := by rintro rfl; simp at h1
  have hIne : I ≠ [] := by rintro rfl; simp at h3; omega
  constructor
  · rintro ⟨x, h⟩
    obtain ⟨C', I', S', ⟨hC', hI', hS'⟩, hc, hu, _⟩ := SGTIN.new_iff.1 h
    have := uri3_inj (q := py "urn:epc:id:sgtin") (dec_of_digits hC).no_dot (dec_of_digits hI).no_dot hC'.2.no_dot hI'.2.no_dot hu
    obtain ⟨rfl, rfl, rfl⟩ := this
    exact hc.2.2.1
  · intro hv
    exact ⟨_, SGTIN.new_iff.2 ⟨C, I, escape raw, ⟨⟨hCne, dec_of_digits hC⟩, ⟨hIne, dec_of_digits hI⟩, gs3a3_escape hr hne⟩,
      ⟨h3, ⟨h1, h2⟩, hv, by rw [replaceUriEscapes_escape]; exact List.length_pos_iff.2 hne, by rw [replaceUriEscapes_escape]; exact hl⟩, rfl, rfl⟩⟩

/-- LGTIN. -/
theorem C15_lgtin_partial (C I raw : Str) (hC : Digits C) (hI : Digits I) (h1 : 6 ≤ C.length) (h2 : C.length ≤ 12) (h3 : C.length + I.length = 13)
    (hne : raw ≠ []) (hr : ∀ c ∈ raw, c ∈ gs82) (hl : raw.length ≤ 20) :
    (∃ x, LGTIN.new (py "urn:epc:class:lgtin:" ++ joinWith '.' [C, I, escape raw]) = .ok x) ↔ LoneLetterEscapes raw := by
  rw [← verify_escape_iff hr hne]
  have hCne : C ≠ [] := by rintro rfl; simp at h1
  have hIne : I ≠ [] := by rintro rfl; simp at h3; omega
  constructor
  · rintro ⟨x, h⟩
    obtain ⟨C', I', S', ⟨hC', hI', hS'⟩, hc, hu, _⟩ := LGTIN.new_iff.1 h
    have := uri3_inj (q := py "urn:epc:class:lgtin") (dec_of_digits hC).no_dot (dec_of_digits hI).no_dot hC'.2.no_dot hI'.2.no_dot hu
    obtain ⟨rfl, rfl, rfl⟩ := this
    exact hc.2.2.1
  · intro hv
    exact ⟨_, LGTIN.new_iff.2 ⟨C, I, escape raw, ⟨⟨hCne, dec_of_digits hC⟩, ⟨hIne, dec_of_digits hI⟩, gs3a3_escape hr hne⟩,
      ⟨h3, ⟨h1, h2⟩, hv, by rw [replaceUriEscapes_escape]; exact List.length_pos_iff.2 hne, by rw [replaceUriEscapes_escape]; exact hl⟩, rfl, rfl⟩⟩

/-- SGLN. -/
theorem C15_sgln_partial (C I raw : Str) (hC : Digits C) (hI : Digits I) (h1 : 6 ≤ C.length) (h2 : C.length ≤ 12) (h3 : C.length + I.length = 12)
    (hne : raw ≠ []) (hr : ∀ c ∈ raw, c ∈ gs82) (hl : raw.length ≤ 20) :
    (∃ x, SGLN.new (py "urn:epc:id:sgln:" ++ joinWith '.' [C, I, escape raw]) = .ok x) ↔ LoneLetterEscapes raw := by
  rw [← verify_escape_iff hr hne]
  have hCne : C ≠ [] := by rintro rfl; simp at h1
  constructor
  · rintro ⟨x, h⟩
    obtain ⟨C', I', S', ⟨hC', hI', hS'⟩, hc, hu, _⟩ := SGLN.new_iff.1 h
    have := uri3_inj (q := py "urn:epc:id:sgln") (dec_of_digits hC).no_dot (dec_of_digits hI).no_dot hC'.2.no_dot hI'.no_dot hu
    obtain ⟨rfl, rfl, rfl⟩ := this
    exact hc.2.2.1
  · intro hv
    exact ⟨_, SGLN.new_iff.2 ⟨C, I, escape raw, ⟨⟨hCne, dec_of_digits hC⟩, dec_of_digits hI, gs3a3_escape hr hne⟩,
      ⟨h3, ⟨h1, h2⟩, hv, by rw [replaceUriEscapes_escape]; exact hl⟩, rfl, rfl⟩⟩

/-- GRAI. -/
theorem C15_grai_partial (C I raw : Str) (hC : Digits C) (hI : Digits I) (h1 : 6 ≤ C.length) (h2 : C.length ≤ 12) (h3 : C.length + I.length = 12)
    (hne : raw ≠ []) (hr : ∀ c ∈ raw, c ∈ gs82) (hl : (escape raw).length ≤ 16) :
    (∃ x, GRAI.new (py "urn:epc:id:grai:" ++ joinWith '.' [C, I, escape raw]) = .ok x) ↔ LoneLetterEscapes raw := by
  rw [← verify_escape_iff hr hne]
  have hCne : C ≠ [] := by rintro rfl; simp at h1
  constructor
  · rintro ⟨x, h⟩
    obtain ⟨C', I', S', ⟨hC', hI', hS'⟩, hc, hu, _⟩ := GRAI.new_iff.1 h
    have := uri3_inj (q := py "urn:epc:id:grai") (dec_of_digits hC).no_dot (dec_of_digits hI).no_dot hC'.2.no_dot hI'.no_dot hu
    obtain ⟨rfl, rfl, rfl⟩ := this
    exact hc.2.2.1
  · intro hv
    exact ⟨_, GRAI.new_iff.2 ⟨C, I, escape raw, ⟨⟨hCne, dec_of_digits hC⟩, dec_of_digits hI, gs3a3_escape hr hne⟩,
      ⟨h3, ⟨h1, h2⟩, hv, hl⟩, rfl, rfl⟩⟩

/-- GDTI. -/
theorem C15_gdti_partial (C I raw : Str) (hC : Digits C) (hI : Digits I) (h1 : 6 ≤ C.length) (h2 : C.length ≤ 12) (h3 : C.length + I.length = 12)
    (hne : raw ≠ []) (hr : ∀ c ∈ raw, c ∈ gs82) (hl : (escape raw).length ≤ 17) :
    (∃ x, GDTI.new (py "urn:epc:id:gdti:" ++ joinWith '.' [C, I, escape raw]) = .ok x) ↔ LoneLetterEscapes raw := by
  rw [← verify_escape_iff hr hne]
  have hCne : C ≠ [] := by rintro rfl; simp at h1
  constructor
  · rintro ⟨x, h⟩
    obtain ⟨C', I', S', ⟨hC', hI', hS'⟩, hc, hu, _⟩ := GDTI.new_iff.1 h
    have := uri3_inj (q := py "urn:epc:id:gdti") (dec_of_digits hC).no_dot (dec_of_digits hI).no_dot hC'.2.no_dot hI'.no_dot hu
    obtain ⟨rfl, rfl, rfl⟩ := this
    exact hc.2.2.1
  · intro hv
    exact ⟨_, GDTI.new_iff.2 ⟨C, I, escape raw, ⟨⟨hCne, dec_of_digits hC⟩, dec_of_digits hI, gs3a3_escape hr hne⟩,
      ⟨h3, ⟨h1, h2⟩, hv, hl⟩, rfl, rfl⟩⟩

/-- UPUI. -/
theorem C15_upui_partial (C I raw : Str) (hC : Digits C) (hI : Digits I) (h1 : 6 ≤ C.length) (h2 : C.length ≤ 12) (h3 : C.length + I.length = 13)
    (hne : raw ≠ []) (hr : ∀ c ∈ raw, c ∈ gs82) (hl : raw.length ≤ 28) :
    (∃ x, UPUI.new (py "urn:epc:id:upui:" ++ joinWith '.' [C, I, escape raw]) = .ok x) ↔ LoneLetterEscapes raw := by
  rw [← verify_escape_iff hr hne]
  have hCne : C ≠ [] := by rintro rfl; simp at h1
  constructor
  · rintro ⟨x, h⟩
    obtain ⟨C', I', S', ⟨hC', hI', hS'⟩, hc, hu, _⟩ := UPUI.new_iff.1 h
    have := uri3_inj (q := py "urn:epc:id:upui") (dec_of_digits hC).no_dot (dec_of_digits hI).no_dot hC'.2.no_dot hI'.no_dot hu
    obtain ⟨rfl, rfl, rfl⟩ := this
    exact hc.2.1
  · intro hv
    exact ⟨_, UPUI.new_iff.2 ⟨C, I, escape raw, ⟨⟨hCne, dec_of_digits hC⟩, dec_of_digits hI, gs3a3_escape hr hne⟩,
      ⟨h3, hv, by rw [replaceUriEscapes_escape]; exact List.length_pos_iff.2 hne, by rw [replaceUriEscapes_escape]; exact hl⟩, rfl, rfl⟩⟩

/-- ITIP. -/
theorem C15_itip_partial (C I A B raw : Str) (hC : Digits C) (hI : Digits I) (hA : Digits A) (hB : Digits B)
    (h1 : 6 ≤ C.length) (h2 : C.length ≤ 12) (h3 : C.length + I.length = 13) (h4 : A.length = 2) (h5 : B.length = 2)
    (hne : raw ≠ []) (hr : ∀ c ∈ raw, c ∈ gs82) (hl : raw.length ≤ 20) :
    (∃ x, ITIP.new (py "urn:epc:id:itip:" ++ joinWith '.' [C, I, A, B, escape raw]) = .ok x) ↔ LoneLetterEscapes raw := by
  rw [← verify_escape_iff hr hne]
  have hCne : C ≠ [] := by rintro rfl; simp at h1
  have hIne : I ≠ [] := by rintro rfl; simp at h3; omega
  have hAne : A ≠ [] := by rintro rfl; simp at h4
  have hBne : B ≠ [] := by rintro rfl; simp at h5
  constructor
  · rintro ⟨x, h⟩
    obtain ⟨C', I', A', B', S', ⟨hC', hI', hA', hB', hS'⟩, hc, hu, _⟩ := ITIP.new_iff.1 h
    have e := List.append_cancel_left (as := py "urn:epc:id:itip:") hu
    have e1 := append_sep_inj (dec_of_digits hC).no_dot hC'.2.no_dot e
    have e2 := append_sep_inj (dec_of_digits hI).no_dot hI'.2.no_dot e1.2
    have e3 := append_sep_inj (dec_of_digits hA).no_dot hA'.2.no_dot e2.2
    have e4 := append_sep_inj (dec_of_digits hB).no_dot hB'.2.no_dot e3.2
    rw [show escape raw = S' from e4.2]
    exact hc.2.2.1
  · intro hv
    exact ⟨_, ITIP.new_iff.2 ⟨C, I, A, B, escape raw, ⟨⟨hCne, dec_of_digits hC⟩, ⟨hIne, dec_of_digits hI⟩, ⟨hAne, dec_of_digits hA⟩,
      ⟨hBne, dec_of_digits hB⟩, gs3a3_escape hr hne⟩, ⟨by omega, ⟨h1, h2⟩, hv, by rw [replaceUriEscapes_escape]; exact List.length_pos_iff.2 hne,
        by rw [replaceUriEscapes_escape]; exact hl⟩, rfl, rfl⟩⟩

/-- GINC. -/
theorem C15_ginc_partial (C raw : Str) (hC : Digits C) (h1 : 6 ≤ C.length) (h2 : C.length ≤ 12)
    (hne : raw ≠ []) (hr : ∀ c ∈ raw, c ∈ gs82) (hl : C.length + raw.length ≤ 30) :
    (∃ x, GINC.new (py "urn:epc:id:ginc:" ++ joinWith '.' [C, escape raw]) = .ok x) ↔ LoneLetterEscapes raw := by
  rw [← verify_escape_iff hr hne]
  have hCne : C ≠ [] := by rintro rfl; simp at h1
  constructor
  · rintro ⟨x, h⟩
    obtain ⟨C', S', ⟨hC', hS'⟩, hc, hu, _⟩ := GINC.new_iff.1 h
    obtain ⟨rfl, e⟩ := append_sep_inj (dec_of_digits hC).no_dot hC'.2.no_dot (List.append_cancel_left (as := py "urn:epc:id:ginc:") hu)
    rw [show escape raw = S' from e]
    exact hc.2.1
  · intro hv
    refine ⟨_, GINC.new_iff.2 ⟨C, escape raw, ⟨⟨hCne, dec_of_digits hC⟩, gs3a3_escape hr hne⟩, ⟨⟨h1, h2⟩, hv, ?_, ?_⟩, rfl, rfl⟩⟩
    · rw [replaceUriEscapes_escape]; exact fun h => hne (List.length_eq_zero_iff.1 h)
    · rw [replaceUriEscapes_escape]; exact hl

/-- GIAI, for an asset reference without colon (see C11 for what happens with a colon). -/
theorem C15_giai_partial (C raw : Str) (hC : Digits C) (h1 : 6 ≤ C.length) (h2 : C.length ≤ 12)
    (hne : raw ≠ []) (hr : ∀ c ∈ raw, c ∈ gs82) (hcol : ':' ∉ raw) (hl : C.length + (escape raw).length ≤ 30) :
    (∃ x, GIAI.new (py "urn:epc:id:giai:" ++ joinWith '.' [C, escape raw]) = .ok x) ↔ LoneLetterEscapes raw := by
  rw [← verify_escape_iff hr hne]
  have hCne : C ≠ [] := by rintro rfl; simp at h1
  have hsp : (split ':' (escape raw)).headD [] = escape raw := by rw [split_notMem (escape_no_colon hcol)]; rfl
  constructor
  · rintro ⟨x, h⟩
    obtain ⟨C', S', ⟨hC', hS'⟩, hc, hu, _⟩ := GIAI.new_iff.1 h
    obtain ⟨rfl, e⟩ := append_sep_inj (dec_of_digits hC).no_dot hC'.2.no_dot (List.append_cancel_left (as := py "urn:epc:id:giai:") hu)
    rw [← show escape raw = S' from e, hsp] at hc
    exact hc.2.1
  · intro hv
    refine ⟨_, GIAI.new_iff.2 ⟨C, escape raw, ⟨⟨hCne, dec_of_digits hC⟩, gs3a3_escape hr hne⟩, ⟨⟨h1, h2⟩, ?_, ?_⟩, rfl, rfl⟩⟩
    · rw [hsp]; exact hv
    · rw [hsp]; exact hl

end Epc
