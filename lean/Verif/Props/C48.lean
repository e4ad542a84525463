/-
C48: exactly which URIs the schemes with a free-form serial accept.

Two theorems for each scheme.  `C48_x`: a URI whose serial is the canonical form of some text over the GS1 character set is accepted if
and only if the numeric components have the documented lengths, the text is not empty and not too long, and the text meets the
restriction `LoneLetterEscapes` (C15).  `C48_x_form`: nothing that does not even look like a URI of the scheme is accepted.
-/
import Verif.Lemmas.SerialText

namespace Epc
open Spec Re

/-- SGTIN: company prefix and item reference are digits, 13 together, the company prefix has 6 to 12 of them;
the serial has 1 to 20 characters. -/
theorem C48_sgtin (C I raw : Str) (hC : '.' ∉ C) (hI : '.' ∉ I) (hr : ∀ c ∈ raw, c ∈ gs82) :
    (∃ x, SGTIN.new (py "urn:epc:id:sgtin:" ++ joinWith '.' [C, I, escape raw]) = .ok x) ↔
      UDigits C ∧ UDigits I ∧ (6 ≤ C.length ∧ C.length ≤ 12 ∧ C.length + I.length = 13) ∧ raw ≠ [] ∧ raw.length ≤ 20 ∧ LoneLetterEscapes raw := by
  simp only [uDigits_iff]
  constructor
  · rintro ⟨x, h⟩
    obtain ⟨C', I', S', ⟨⟨hCne, hC'⟩, ⟨hIne, hI'⟩, hS'⟩, ⟨h3, ⟨h1, h2⟩, hv, hp, hl⟩, hu, _⟩ := SGTIN.new_iff.1 h
    have := uri3_inj (q := py "urn:epc:id:sgtin") hC hI hC'.no_dot hI'.no_dot hu
    obtain ⟨rfl, rfl, this⟩ := this
    have hS : escape raw = S' := this
    subst hS
    have hne : raw ≠ [] := by rintro rfl; exact gs3a3_ne_nil hS' rfl
    rw [replaceUriEscapes_escape] at hl
    exact ⟨hC', hI', ⟨h1, h2, h3⟩, hne, hl, (verify_escape_iff hr hne).1 hv⟩
  · rintro ⟨hC', hI', ⟨h1, h2, h3⟩, hne, hl, hv⟩
    have hCne : C ≠ [] := by rintro rfl; simp at h1
    have hIne : I ≠ [] := by rintro rfl; simp at h3; omega
    have hl' := hl
    rw [← replaceUriEscapes_escape raw] at hl
    have hp : 1 ≤ (replaceUriEscapes (escape raw)).length := by rw [replaceUriEscapes_escape]; exact List.length_pos_iff.2 hne
    have hv := (verify_escape_iff hr hne).2 hv
    exact ⟨_, SGTIN.new_iff.2 ⟨C, I, escape raw, ⟨⟨hCne, hC'⟩, ⟨hIne, hI'⟩, gs3a3_escape hr hne⟩, ⟨h3, ⟨h1, h2⟩, hv, hp, hl⟩, rfl, rfl⟩⟩

/-- SGTIN: the form of everything that is accepted. -/
theorem C48_sgtin_form (u : Str) (x : SGTIN) (h : SGTIN.new u = .ok x) :
    ∃ C I S, u = py "urn:epc:id:sgtin:" ++ joinWith '.' [C, I, S] ∧ UDigits C ∧ UDigits I ∧ (6 ≤ C.length ∧ C.length ≤ 12 ∧ C.length + I.length = 13) ∧ SerialText S ∧ DigitEscapes S := by
  simp only [uDigits_iff]
  obtain ⟨C, I, S, ⟨⟨hCne, hC⟩, ⟨_, hI⟩, hS⟩, ⟨h3, ⟨h1, h2⟩, hv, hp, hl⟩, hu, _⟩ := SGTIN.new_iff.1 h
  exact ⟨C, I, S, hu, hC, hI, ⟨h1, h2, h3⟩, serialText_of_lang hS, digitEscapes_of_verify hv⟩

/-- LGTIN: company prefix and item reference are digits, 13 together, the company prefix has 6 to 12 of them;
the serial has 1 to 20 characters. -/
theorem C48_lgtin (C I raw : Str) (hC : '.' ∉ C) (hI : '.' ∉ I) (hr : ∀ c ∈ raw, c ∈ gs82) :
    (∃ x, LGTIN.new (py "urn:epc:class:lgtin:" ++ joinWith '.' [C, I, escape raw]) = .ok x) ↔
      UDigits C ∧ UDigits I ∧ (6 ≤ C.length ∧ C.length ≤ 12 ∧ C.length + I.length = 13) ∧ raw ≠ [] ∧ raw.length ≤ 20 ∧ LoneLetterEscapes raw := by
  simp only [uDigits_iff]
  constructor
  · rintro ⟨x, h⟩
    obtain ⟨C', I', S', ⟨⟨hCne, hC'⟩, ⟨hIne, hI'⟩, hS'⟩, ⟨h3, ⟨h1, h2⟩, hv, hp, hl⟩, hu, _⟩ := LGTIN.new_iff.1 h
    have := uri3_inj (q := py "urn:epc:class:lgtin") hC hI hC'.no_dot hI'.no_dot hu
    obtain ⟨rfl, rfl, this⟩ := this
    have hS : escape raw = S' := this
    subst hS
    have hne : raw ≠ [] := by rintro rfl; exact gs3a3_ne_nil hS' rfl
    rw [replaceUriEscapes_escape] at hl
    exact ⟨hC', hI', ⟨h1, h2, h3⟩, hne, hl, (verify_escape_iff hr hne).1 hv⟩
  · rintro ⟨hC', hI', ⟨h1, h2, h3⟩, hne, hl, hv⟩
    have hCne : C ≠ [] := by rintro rfl; simp at h1
    have hIne : I ≠ [] := by rintro rfl; simp at h3; omega
    have hl' := hl
    rw [← replaceUriEscapes_escape raw] at hl
    have hp : 1 ≤ (replaceUriEscapes (escape raw)).length := by rw [replaceUriEscapes_escape]; exact List.length_pos_iff.2 hne
    have hv := (verify_escape_iff hr hne).2 hv
    exact ⟨_, LGTIN.new_iff.2 ⟨C, I, escape raw, ⟨⟨hCne, hC'⟩, ⟨hIne, hI'⟩, gs3a3_escape hr hne⟩, ⟨h3, ⟨h1, h2⟩, hv, hp, hl⟩, rfl, rfl⟩⟩

/-- LGTIN: the form of everything that is accepted. -/
theorem C48_lgtin_form (u : Str) (x : LGTIN) (h : LGTIN.new u = .ok x) :
    ∃ C I S, u = py "urn:epc:class:lgtin:" ++ joinWith '.' [C, I, S] ∧ UDigits C ∧ UDigits I ∧ (6 ≤ C.length ∧ C.length ≤ 12 ∧ C.length + I.length = 13) ∧ SerialText S ∧ DigitEscapes S := by
  simp only [uDigits_iff]
  obtain ⟨C, I, S, ⟨⟨hCne, hC⟩, ⟨_, hI⟩, hS⟩, ⟨h3, ⟨h1, h2⟩, hv, hp, hl⟩, hu, _⟩ := LGTIN.new_iff.1 h
  exact ⟨C, I, S, hu, hC, hI, ⟨h1, h2, h3⟩, serialText_of_lang hS, digitEscapes_of_verify hv⟩

/-- SGLN: company prefix and location reference are digits, 12 together, the company prefix has 6 to 12 of them;
the serial has 1 to 20 characters. -/
theorem C48_sgln (C I raw : Str) (hC : '.' ∉ C) (hI : '.' ∉ I) (hr : ∀ c ∈ raw, c ∈ gs82) :
    (∃ x, SGLN.new (py "urn:epc:id:sgln:" ++ joinWith '.' [C, I, escape raw]) = .ok x) ↔
      UDigits C ∧ UDigits I ∧ (6 ≤ C.length ∧ C.length ≤ 12 ∧ C.length + I.length = 12) ∧ raw ≠ [] ∧ raw.length ≤ 20 ∧ LoneLetterEscapes raw := by
  simp only [uDigits_iff]
  constructor
  · rintro ⟨x, h⟩
    obtain ⟨C', I', S', ⟨⟨hCne, hC'⟩, hI', hS'⟩, ⟨h3, ⟨h1, h2⟩, hv, hl⟩, hu, _⟩ := SGLN.new_iff.1 h
    have := uri3_inj (q := py "urn:epc:id:sgln") hC hI hC'.no_dot hI'.no_dot hu
    obtain ⟨rfl, rfl, this⟩ := this
    have hS : escape raw = S' := this
    subst hS
    have hne : raw ≠ [] := by rintro rfl; exact gs3a3_ne_nil hS' rfl
    rw [replaceUriEscapes_escape] at hl
    exact ⟨hC', hI', ⟨h1, h2, h3⟩, hne, hl, (verify_escape_iff hr hne).1 hv⟩
  · rintro ⟨hC', hI', ⟨h1, h2, h3⟩, hne, hl, hv⟩
    have hCne : C ≠ [] := by rintro rfl; simp at h1
    skip
    have hl' := hl
    rw [← replaceUriEscapes_escape raw] at hl
    skip
    have hv := (verify_escape_iff hr hne).2 hv
    exact ⟨_, SGLN.new_iff.2 ⟨C, I, escape raw, ⟨⟨hCne, hC'⟩, hI', gs3a3_escape hr hne⟩, ⟨h3, ⟨h1, h2⟩, hv, hl⟩, rfl, rfl⟩⟩

/-- SGLN: the form of everything that is accepted. -/
theorem C48_sgln_form (u : Str) (x : SGLN) (h : SGLN.new u = .ok x) :
    ∃ C I S, u = py "urn:epc:id:sgln:" ++ joinWith '.' [C, I, S] ∧ UDigits C ∧ UDigits I ∧ (6 ≤ C.length ∧ C.length ≤ 12 ∧ C.length + I.length = 12) ∧ SerialText S ∧ DigitEscapes S := by
  simp only [uDigits_iff]
  obtain ⟨C, I, S, ⟨⟨hCne, hC⟩, hI, hS⟩, ⟨h3, ⟨h1, h2⟩, hv, hl⟩, hu, _⟩ := SGLN.new_iff.1 h
  exact ⟨C, I, S, hu, hC, hI, ⟨h1, h2, h3⟩, serialText_of_lang hS, digitEscapes_of_verify hv⟩

/-- GRAI: company prefix and asset type are digits, 12 together, the company prefix has 6 to 12 of them;
the serial has 1 to 16 characters, counted in its escaped form. -/
theorem C48_grai (C I raw : Str) (hC : '.' ∉ C) (hI : '.' ∉ I) (hr : ∀ c ∈ raw, c ∈ gs82) :
    (∃ x, GRAI.new (py "urn:epc:id:grai:" ++ joinWith '.' [C, I, escape raw]) = .ok x) ↔
      UDigits C ∧ UDigits I ∧ (6 ≤ C.length ∧ C.length ≤ 12 ∧ C.length + I.length = 12) ∧ raw ≠ [] ∧ (escape raw).length ≤ 16 ∧ LoneLetterEscapes raw := by
  simp only [uDigits_iff]
  constructor
  · rintro ⟨x, h⟩
    obtain ⟨C', I', S', ⟨⟨hCne, hC'⟩, hI', hS'⟩, ⟨h3, ⟨h1, h2⟩, hv, hl⟩, hu, _⟩ := GRAI.new_iff.1 h
    have := uri3_inj (q := py "urn:epc:id:grai") hC hI hC'.no_dot hI'.no_dot hu
    obtain ⟨rfl, rfl, this⟩ := this
    have hS : escape raw = S' := this
    subst hS
    have hne : raw ≠ [] := by rintro rfl; exact gs3a3_ne_nil hS' rfl
    skip
    exact ⟨hC', hI', ⟨h1, h2, h3⟩, hne, hl, (verify_escape_iff hr hne).1 hv⟩
  · rintro ⟨hC', hI', ⟨h1, h2, h3⟩, hne, hl, hv⟩
    have hCne : C ≠ [] := by rintro rfl; simp at h1
    skip
    have hl' := hl
    skip
    skip
    have hv := (verify_escape_iff hr hne).2 hv
    exact ⟨_, GRAI.new_iff.2 ⟨C, I, escape raw, ⟨⟨hCne, hC'⟩, hI', gs3a3_escape hr hne⟩, ⟨h3, ⟨h1, h2⟩, hv, hl⟩, rfl, rfl⟩⟩

/-- GRAI: the form of everything that is accepted. -/
theorem C48_grai_form (u : Str) (x : GRAI) (h : GRAI.new u = .ok x) :
    ∃ C I S, u = py "urn:epc:id:grai:" ++ joinWith '.' [C, I, S] ∧ UDigits C ∧ UDigits I ∧ (6 ≤ C.length ∧ C.length ≤ 12 ∧ C.length + I.length = 12) ∧ SerialText S ∧ DigitEscapes S := by
  simp only [uDigits_iff]
  obtain ⟨C, I, S, ⟨⟨hCne, hC⟩, hI, hS⟩, ⟨h3, ⟨h1, h2⟩, hv, hl⟩, hu, _⟩ := GRAI.new_iff.1 h
  exact ⟨C, I, S, hu, hC, hI, ⟨h1, h2, h3⟩, serialText_of_lang hS, digitEscapes_of_verify hv⟩

/-- GDTI: company prefix and document type are digits, 12 together, the company prefix has 6 to 12 of them;
the serial has 1 to 17 characters, counted in its escaped form. -/
theorem C48_gdti (C I raw : Str) (hC : '.' ∉ C) (hI : '.' ∉ I) (hr : ∀ c ∈ raw, c ∈ gs82) :
    (∃ x, GDTI.new (py "urn:epc:id:gdti:" ++ joinWith '.' [C, I, escape raw]) = .ok x) ↔
      UDigits C ∧ UDigits I ∧ (6 ≤ C.length ∧ C.length ≤ 12 ∧ C.length + I.length = 12) ∧ raw ≠ [] ∧ (escape raw).length ≤ 17 ∧ LoneLetterEscapes raw := by
  simp only [uDigits_iff]
  constructor
  · rintro ⟨x, h⟩
    obtain ⟨C', I', S', ⟨⟨hCne, hC'⟩, hI', hS'⟩, ⟨h3, ⟨h1, h2⟩, hv, hl⟩, hu, _⟩ := GDTI.new_iff.1 h
    have := uri3_inj (q := py "urn:epc:id:gdti") hC hI hC'.no_dot hI'.no_dot hu
    obtain ⟨rfl, rfl, this⟩ := this
    have hS : escape raw = S' := this
    subst hS
    have hne : raw ≠ [] := by rintro rfl; exact gs3a3_ne_nil hS' rfl
    skip
    exact ⟨hC', hI', ⟨h1, h2, h3⟩, hne, hl, (verify_escape_iff hr hne).1 hv⟩
  · rintro ⟨hC', hI', ⟨h1, h2, h3⟩, hne, hl, hv⟩
    have hCne : C ≠ [] := by rintro rfl; simp at h1
    skip
    have hl' := hl
    skip
    skip
    have hv := (verify_escape_iff hr hne).2 hv
    exact ⟨_, GDTI.new_iff.2 ⟨C, I, escape raw, ⟨⟨hCne, hC'⟩, hI', gs3a3_escape hr hne⟩, ⟨h3, ⟨h1, h2⟩, hv, hl⟩, rfl, rfl⟩⟩

/-- GDTI: the form of everything that is accepted. -/
theorem C48_gdti_form (u : Str) (x : GDTI) (h : GDTI.new u = .ok x) :
    ∃ C I S, u = py "urn:epc:id:gdti:" ++ joinWith '.' [C, I, S] ∧ UDigits C ∧ UDigits I ∧ (6 ≤ C.length ∧ C.length ≤ 12 ∧ C.length + I.length = 12) ∧ SerialText S ∧ DigitEscapes S := by
  simp only [uDigits_iff]
  obtain ⟨C, I, S, ⟨⟨hCne, hC⟩, hI, hS⟩, ⟨h3, ⟨h1, h2⟩, hv, hl⟩, hu, _⟩ := GDTI.new_iff.1 h
  exact ⟨C, I, S, hu, hC, hI, ⟨h1, h2, h3⟩, serialText_of_lang hS, digitEscapes_of_verify hv⟩

/-- UPUI: company prefix and item reference are digits, 13 together; the length of the company prefix is not checked;
the serial has 1 to 28 characters. -/
theorem C48_upui (C I raw : Str) (hC : '.' ∉ C) (hI : '.' ∉ I) (hr : ∀ c ∈ raw, c ∈ gs82) :
    (∃ x, UPUI.new (py "urn:epc:id:upui:" ++ joinWith '.' [C, I, escape raw]) = .ok x) ↔
      UDigits C ∧ UDigits I ∧ (1 ≤ C.length ∧ C.length + I.length = 13) ∧ raw ≠ [] ∧ raw.length ≤ 28 ∧ LoneLetterEscapes raw := by
  simp only [uDigits_iff]
  constructor
  · rintro ⟨x, h⟩
    obtain ⟨C', I', S', ⟨⟨hCne, hC'⟩, hI', hS'⟩, ⟨h3, hv, hp, hl⟩, hu, _⟩ := UPUI.new_iff.1 h
    have := uri3_inj (q := py "urn:epc:id:upui") hC hI hC'.no_dot hI'.no_dot hu
    obtain ⟨rfl, rfl, this⟩ := this
    have hS : escape raw = S' := this
    subst hS
    have hne : raw ≠ [] := by rintro rfl; exact gs3a3_ne_nil hS' rfl
    rw [replaceUriEscapes_escape] at hl
    exact ⟨hC', hI', ⟨List.length_pos_iff.2 hCne, h3⟩, hne, hl, (verify_escape_iff hr hne).1 hv⟩
  · rintro ⟨hC', hI', ⟨h1, h3⟩, hne, hl, hv⟩
    have hCne : C ≠ [] := by rintro rfl; simp at h1
    skip
    have hl' := hl
    rw [← replaceUriEscapes_escape raw] at hl
    have hp : 1 ≤ (replaceUriEscapes (escape raw)).length := by rw [replaceUriEscapes_escape]; exact List.length_pos_iff.2 hne
    have hv := (verify_escape_iff hr hne).2 hv
    exact ⟨_, UPUI.new_iff.2 ⟨C, I, escape raw, ⟨⟨hCne, hC'⟩, hI', gs3a3_escape hr hne⟩, ⟨h3, hv, hp, hl⟩, rfl, rfl⟩⟩

/-- UPUI: the form of everything that is accepted. -/
theorem C48_upui_form (u : Str) (x : UPUI) (h : UPUI.new u = .ok x) :
    ∃ C I S, u = py "urn:epc:id:upui:" ++ joinWith '.' [C, I, S] ∧ UDigits C ∧ UDigits I ∧ (1 ≤ C.length ∧ C.length + I.length = 13) ∧ SerialText S ∧ DigitEscapes S := by
  simp only [uDigits_iff]
  obtain ⟨C, I, S, ⟨⟨hCne, hC⟩, hI, hS⟩, ⟨h3, hv, hp, hl⟩, hu, _⟩ := UPUI.new_iff.1 h
  exact ⟨C, I, S, hu, hC, hI, ⟨List.length_pos_iff.2 hCne, h3⟩, serialText_of_lang hS, digitEscapes_of_verify hv⟩

/-- ITIP: company prefix and item reference, piece and total are digits, 17 together, the company prefix has 6 to 12 of them; the serial
has 1 to 20 characters. -/
theorem C48_itip (C I A B raw : Str) (hC : '.' ∉ C) (hI : '.' ∉ I) (hA : '.' ∉ A) (hB : '.' ∉ B) (hr : ∀ c ∈ raw, c ∈ gs82) :
    (∃ x, ITIP.new (py "urn:epc:id:itip:" ++ joinWith '.' [C, I, A, B, escape raw]) = .ok x) ↔
      UDigits C ∧ UDigits I ∧ UDigits A ∧ UDigits B ∧ (6 ≤ C.length ∧ C.length ≤ 12 ∧ 1 ≤ I.length ∧ 1 ≤ A.length ∧ 1 ≤ B.length ∧
        C.length + I.length + A.length + B.length = 17) ∧ raw ≠ [] ∧ raw.length ≤ 20 ∧ LoneLetterEscapes raw := by
  simp only [uDigits_iff]
  constructor
  · rintro ⟨x, h⟩
    obtain ⟨C', I', A', B', S', ⟨hC', hI', hA', hB', hS'⟩, ⟨h3, ⟨h1, h2⟩, hv, hp, hl⟩, hu, _⟩ := ITIP.new_iff.1 h
    have e := List.append_cancel_left (as := py "urn:epc:id:itip:") hu
    obtain ⟨rfl, e1⟩ := append_sep_inj hC hC'.2.no_dot e
    obtain ⟨rfl, e2⟩ := append_sep_inj hI hI'.2.no_dot e1
    obtain ⟨rfl, e3⟩ := append_sep_inj hA hA'.2.no_dot e2
    obtain ⟨rfl, e4⟩ := append_sep_inj hB hB'.2.no_dot e3
    have e5 : escape raw = S' := e4
    subst e5
    have hne : raw ≠ [] := by rintro rfl; exact gs3a3_ne_nil hS' rfl
    rw [replaceUriEscapes_escape] at hl
    exact ⟨hC'.2, hI'.2, hA'.2, hB'.2, ⟨h1, h2, List.length_pos_iff.2 hI'.1, List.length_pos_iff.2 hA'.1, List.length_pos_iff.2 hB'.1, by omega⟩,
      hne, hl, (verify_escape_iff hr hne).1 hv⟩
  · rintro ⟨hC', hI', hA', hB', ⟨h1, h2, h4, h5, h6, h3⟩, hne, hl, hv⟩
    have hCne : C ≠ [] := by rintro rfl; simp at h1
    rw [← replaceUriEscapes_escape raw] at hl
    have hp : 1 ≤ (replaceUriEscapes (escape raw)).length := by rw [replaceUriEscapes_escape]; exact List.length_pos_iff.2 hne
    have hv := (verify_escape_iff hr hne).2 hv
    exact ⟨_, ITIP.new_iff.2 ⟨C, I, A, B, escape raw, ⟨⟨hCne, hC'⟩, ⟨List.length_pos_iff.1 h4, hI'⟩, ⟨List.length_pos_iff.1 h5, hA'⟩,
      ⟨List.length_pos_iff.1 h6, hB'⟩, gs3a3_escape hr hne⟩, ⟨by omega, ⟨h1, h2⟩, hv, hp, hl⟩, rfl, rfl⟩⟩

/-- ITIP: the form of everything that is accepted. -/
theorem C48_itip_form (u : Str) (x : ITIP) (h : ITIP.new u = .ok x) :
    ∃ C I A B S, u = py "urn:epc:id:itip:" ++ joinWith '.' [C, I, A, B, S] ∧ UDigits C ∧ UDigits I ∧ UDigits A ∧ UDigits B ∧
      (6 ≤ C.length ∧ C.length ≤ 12 ∧ 1 ≤ I.length ∧ 1 ≤ A.length ∧ 1 ≤ B.length ∧ C.length + I.length + A.length + B.length = 17) ∧
      SerialText S ∧ DigitEscapes S := by
  simp only [uDigits_iff]
  obtain ⟨C', I', A', B', S', ⟨hC', hI', hA', hB', hS'⟩, ⟨h3, ⟨h1, h2⟩, hv, hp, hl⟩, hu, _⟩ := ITIP.new_iff.1 h
  exact ⟨C', I', A', B', S', hu, hC'.2, hI'.2, hA'.2, hB'.2, ⟨h1, h2, List.length_pos_iff.2 hI'.1, List.length_pos_iff.2 hA'.1,
    List.length_pos_iff.2 hB'.1, by omega⟩, serialText_of_lang hS', digitEscapes_of_verify hv⟩

/-- GINC: the company prefix has 6 to 12 digits; company prefix and consignment reference together at most 30 characters. -/
theorem C48_ginc (C raw : Str) (hC : '.' ∉ C) (hr : ∀ c ∈ raw, c ∈ gs82) :
    (∃ x, GINC.new (py "urn:epc:id:ginc:" ++ joinWith '.' [C, escape raw]) = .ok x) ↔
      UDigits C ∧ (6 ≤ C.length ∧ C.length ≤ 12) ∧ raw ≠ [] ∧ C.length + raw.length ≤ 30 ∧ LoneLetterEscapes raw := by
  simp only [uDigits_iff]
  constructor
  · rintro ⟨x, h⟩
    obtain ⟨C', S', ⟨hC', hS'⟩, ⟨hb, hv, hp, hl⟩, hu, _⟩ := GINC.new_iff.1 h
    obtain ⟨rfl, e⟩ := append_sep_inj hC hC'.2.no_dot (List.append_cancel_left (as := py "urn:epc:id:ginc:") hu)
    have e5 : escape raw = S' := e
    subst e5
    have hne : raw ≠ [] := by rintro rfl; exact gs3a3_ne_nil hS' rfl
    rw [replaceUriEscapes_escape] at hl
    exact ⟨hC'.2, hb, hne, hl, (verify_escape_iff hr hne).1 hv⟩
  · rintro ⟨hC', hb, hne, hl, hv⟩
    have hCne : C ≠ [] := by rintro rfl; simp at hb
    have hv := (verify_escape_iff hr hne).2 hv
    rw [← replaceUriEscapes_escape raw] at hl
    refine ⟨_, GINC.new_iff.2 ⟨C, escape raw, ⟨⟨hCne, hC'⟩, gs3a3_escape hr hne⟩, ⟨hb, hv, ?_, hl⟩, rfl, rfl⟩⟩
    rw [replaceUriEscapes_escape]; exact fun h => hne (List.length_eq_zero_iff.1 h)

/-- GINC: the form of everything that is accepted. -/
theorem C48_ginc_form (u : Str) (x : GINC) (h : GINC.new u = .ok x) :
    ∃ C S, u = py "urn:epc:id:ginc:" ++ joinWith '.' [C, S] ∧ UDigits C ∧ (6 ≤ C.length ∧ C.length ≤ 12) ∧ SerialText S ∧ DigitEscapes S := by
  simp only [uDigits_iff]
  obtain ⟨C', S', ⟨hC', hS'⟩, ⟨hb, hv, hp, hl⟩, hu, _⟩ := GINC.new_iff.1 h
  exact ⟨C', S', hu, hC'.2, hb, serialText_of_lang hS', digitEscapes_of_verify hv⟩

/-- GIAI, for an asset reference without colon: the company prefix has 6 to 12 digits; company prefix and the escaped asset reference
together at most 30 characters. -/
theorem C48_giai (C raw : Str) (hC : '.' ∉ C) (hr : ∀ c ∈ raw, c ∈ gs82) (hcol : ':' ∉ raw) :
    (∃ x, GIAI.new (py "urn:epc:id:giai:" ++ joinWith '.' [C, escape raw]) = .ok x) ↔
      UDigits C ∧ (6 ≤ C.length ∧ C.length ≤ 12) ∧ raw ≠ [] ∧ C.length + (escape raw).length ≤ 30 ∧ LoneLetterEscapes raw := by
  have hsp : (split ':' (escape raw)).headD [] = escape raw := by rw [split_notMem (escape_no_colon hcol)]; rfl
  simp only [uDigits_iff]
  constructor
  · rintro ⟨x, h⟩
    obtain ⟨C', S', ⟨hC', hS'⟩, ⟨hb, hv, hl⟩, hu, _⟩ := GIAI.new_iff.1 h
    obtain ⟨rfl, e⟩ := append_sep_inj hC hC'.2.no_dot (List.append_cancel_left (as := py "urn:epc:id:giai:") hu)
    have e5 : escape raw = S' := e
    subst e5
    have hne : raw ≠ [] := by rintro rfl; exact gs3a3_ne_nil hS' rfl
    rw [hsp] at hv hl
    exact ⟨hC'.2, hb, hne, hl, (verify_escape_iff hr hne).1 hv⟩
  · rintro ⟨hC', hb, hne, hl, hv⟩
    have hCne : C ≠ [] := by rintro rfl; simp at hb
    have hv := (verify_escape_iff hr hne).2 hv
    rw [← hsp] at hv hl
    exact ⟨_, GIAI.new_iff.2 ⟨C, escape raw, ⟨⟨hCne, hC'⟩, gs3a3_escape hr hne⟩, ⟨hb, hv, hl⟩, rfl, rfl⟩⟩

/-- GIAI: the form of everything that is accepted; the escapes are only checked up to the first colon. -/
theorem C48_giai_form (u : Str) (x : GIAI) (h : GIAI.new u = .ok x) :
    ∃ C S T, u = py "urn:epc:id:giai:" ++ joinWith '.' [C, S ++ T] ∧ ':' ∉ S ∧ (T = [] ∨ T.head? = some ':') ∧ UDigits C ∧
      (6 ≤ C.length ∧ C.length ≤ 12) ∧ C.length + S.length ≤ 30 ∧ SerialText (S ++ T) ∧ DigitEscapes S := by
  simp only [uDigits_iff]
  obtain ⟨C', S', ⟨hC', hS'⟩, ⟨hb, hv, hl⟩, hu, _⟩ := GIAI.new_iff.1 h
  obtain ⟨T, hT, hn, hh⟩ := split_head_form ':' S'
  refine ⟨C', (split ':' S').headD [], T, ?_, hn, hh, hC'.2, hb, hl, ?_, digitEscapes_of_verify hv⟩
  · rw [← hT]; exact hu
  · rw [← hT]; exact serialText_of_lang hS'

/-- The conditions are met and matter: for each scheme an accepted URI, and one refused for each of the conditions. -/
example : (SGTIN.new (py "urn:epc:id:sgtin:9521141.012345." ++ escape (py "a/b\"?"))).isOk = true ∧
    (SGTIN.new (py "urn:epc:id:sgtin:9521141.012345." ++ escape (py "/b"))).isOk = false ∧
    (SGTIN.new (py "urn:epc:id:sgtin:9521141.012345.%00")).isOk = false ∧
    (GRAI.new (py "urn:epc:id:grai:9521141.12345." ++ escape (py "ab&cd"))).isOk = true ∧
    (GRAI.new (py "urn:epc:id:grai:9521141.12345." ++ escape (py "12345678901234&"))).isOk = false ∧
    (GIAI.new (py "urn:epc:id:giai:9521141." ++ escape (py "A%1"))).isOk = true := by decide +kernel

end Epc
