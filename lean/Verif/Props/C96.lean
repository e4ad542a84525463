/-
C96: The patterns of /repo/epcpy/utils/regex.py, read as the texts that stand in the source, accept exactly the formats of the tables in
Spec/Grammar.
-/
import Verif.Lemmas.Grammar

namespace Epc.Grammar
open Spec

/-- Every constant of regex.py is the text of a pattern. -/
theorem C96_compile : ∀ text ∈ Src.regex.constants, ∃ r, compile text = some r := by
  intro text h
  have key : (Src.regex.constants.all fun t => (compile t).isSome) = true := by decide +kernel
  exact Option.isSome_iff_exists.1 (List.all_eq_true.1 key text h)

/-- The pattern for the identity URIs of a class accepts the prefix of the class followed by its fields. -/
theorem C96_uri (c : Cls) (s : Str) : Accepts (uriText c) s ↔ ∃ b, s = uriPrefix c ++ b ∧ Body c b :=
  (accepts_uri c s).trans (lang_uriRe c s)

/-- The pattern for any identity URI accepts the identity URIs of the 21 classes and nothing else. -/
theorem C96_epc_uri (s : Str) : Accepts Src.regex.EPC_URI s ↔ ∃ c, Accepts (uriText c) s :=
  (accepts_epcUri s).trans (exists_congr fun c => (C96_uri c s).symm)

/-- The pattern for tag URIs accepts, for the 21 names of coding schemes, the filter value, unless the coding scheme has none, and the fields
of the class. -/
theorem C96_tag_uri (s : Str) : Accepts Src.regex.TAG_URI s ↔
    ∃ name c b, s = py "urn:epc:tag:" ++ (name ++ (':' :: b)) ∧
      (((name, c, true) ∈ tagForms ∧ Dotted (.numeral :: fields c) b) ∨ ((name, c, false) ∈ tagForms ∧ Dotted (fields c) b)) := by
  rw [accepts_tagUri]
  constructor
  · rintro ⟨⟨name, c, _ | _⟩, hf, b, hs, h⟩
    · exact ⟨name, c, b, hs, .inr ⟨hf, h⟩⟩
    · exact ⟨name, c, b, hs, .inl ⟨hf, h⟩⟩
  · rintro ⟨name, c, b, hs, ⟨hf, h⟩ | ⟨hf, h⟩⟩
    · exact ⟨_, hf, b, hs, h⟩
    · exact ⟨_, hf, b, hs, h⟩

/-- The pattern for id patterns accepts, for the 18 classes that have them, the fields of the class with wildcards for the last ones. -/
theorem C96_idpat_uri (s : Str) : Accepts Src.regex.IDPAT_URI s ↔
    ∃ c b, hasPattern c = true ∧ s = py "urn:epc:idpat:" ++ ((c.name ++ py ":") ++ b) ∧ PatternBody c b :=
  accepts_idpatUri s

/-- Of an ITIP pattern neither the last two fields nor all five can be wildcards. -/
theorem C96_itip_wildcards :
    ¬ Accepts Src.regex.IDPAT_URI (py "urn:epc:idpat:itip:0614141.812345.01.*.*") ∧
    ¬ Accepts Src.regex.IDPAT_URI (py "urn:epc:idpat:itip:*.*.*.*.*") := by
  simp only [accepts_of Src.reads_IDPAT_URI Pat.toRe_idpatUri, ← Re.fullmatch_iff]
  decide +kernel

/-- The pattern for the element strings of a class accepts the rows of pieces of the class. -/
theorem C96_element_string (c : Cls) (text : Str) (pieces_ : List Piece) (h : elemText c = some text) (hp : pieces c = some pieces_) (s : Str) :
    Accepts text s ↔ Row pieces_ s :=
  (accepts_elem c text h s).trans (lang_elemRe c pieces_ hp s)

/-- The classes with a pattern for element strings are those with a row of pieces. -/
theorem C96_element_string_classes (c : Cls) : (elemText c).isSome = (pieces c).isSome := by cases c <;> rfl

/-- The pattern for any element string accepts the element strings of the 16 classes that have them and nothing else. -/
theorem C96_gs1_element_string (s : Str) : Accepts Src.regex.GS1_ELEMENT_STRING s ↔ ∃ c text, elemText c = some text ∧ Accepts text s := by
  rw [accepts_gs1Elem]
  refine exists_congr fun c => ?_
  constructor
  · rintro ⟨ps, hps, h⟩
    have : (elemText c).isSome = true := by rw [C96_element_string_classes, hps]; rfl
    obtain ⟨t, ht⟩ := Option.isSome_iff_exists.1 this
    exact ⟨t, ht, (C96_element_string c t ps ht hps s).2 h⟩
  · rintro ⟨t, ht, h⟩
    have : (pieces c).isSome = true := by rw [← C96_element_string_classes, ht]; rfl
    obtain ⟨ps, hps⟩ := Option.isSome_iff_exists.1 this
    exact ⟨ps, hps, (C96_element_string c t ps ht hps s).1 h⟩

/-- The patterns for single fields. -/
theorem C96_fields (s : Str) :
    (Accepts Src.regex.PADDED_NUMERIC_COMPONENT s ↔ Field.Holds s .digits) ∧
    (Accepts Src.regex.PADDED_NUMERIC_COMPONENT_OR_EMPTY s ↔ Field.Holds s .digits?) ∧
    (Accepts Src.regex.NUMERIC_COMPONENT s ↔ Field.Holds s .numeral) ∧
    (Accepts Src.regex.GS3A3_COMPONENT s ↔ Field.Holds s .serial) ∧
    (Accepts Src.regex.CPREF_COMPONENT s ↔ Field.Holds s .reference) ∧
    (Accepts Src.regex.VERIFY_GS3A3_CHARS s ↔ s ≠ [] ∧ ∀ c ∈ s, c ∈ gs82) :=
  ⟨(accepts_of Src.reads_PADDED_NUMERIC_COMPONENT Pat.toRe_padded s).trans (lang_field .digits s),
   (accepts_of Src.reads_PADDED_NUMERIC_COMPONENT_OR_EMPTY Pat.toRe_paddedOrEmpty s).trans (lang_field .digits? s),
   (accepts_of Src.reads_NUMERIC_COMPONENT Pat.toRe_numeric s).trans (lang_field .numeral s),
   (accepts_of Src.reads_GS3A3_COMPONENT Pat.toRe_gs3a3 s).trans (lang_field .serial s),
   (accepts_of Src.reads_CPREF_COMPONENT Pat.toRe_cpref s).trans (lang_field .reference s),
   (accepts_of Src.reads_VERIFY_GS3A3_CHARS Pat.toRe_verify s).trans (lang_verify s)⟩

/-! ### Instances -/

example : Accepts Src.regex.EPC_URI (py "urn:epc:id:sgtin:0614141.812345.32a%2Fb") ∧
    Body .sgtin (py "0614141.812345.32a%2Fb") := by
  refine ⟨?_, ?_⟩
  · rw [accepts_of Src.reads_EPC_URI Pat.toRe_epcUri, ← Re.fullmatch_iff]; decide +kernel
  · rw [← lang_bodyRe, ← Re.fullmatch_iff]; decide +kernel

example : ¬ Accepts Src.regex.EPC_URI (py "urn:epc:id:sgtin:0614141.812345.") := by
  rw [accepts_of Src.reads_EPC_URI Pat.toRe_epcUri, ← Re.fullmatch_iff]; decide +kernel

example : Accepts Src.regex.TAG_URI (py "urn:epc:tag:gid-96:1.2.3") := by
  rw [accepts_of Src.reads_TAG_URI Pat.toRe_tagUri, ← Re.fullmatch_iff]; decide +kernel

example : Accepts Src.regex.IDPAT_URI (py "urn:epc:idpat:sgln:0614141.*.*") ∧ PatternBody .sgln (py "0614141.*.*") := by
  refine ⟨?_, ?_⟩
  · rw [accepts_of Src.reads_IDPAT_URI Pat.toRe_idpatUri, ← Re.fullmatch_iff]; decide +kernel
  · rw [← lang_patternRe, ← Re.fullmatch_iff]; decide +kernel

example : Accepts Src.regex.GS1_ELEMENT_STRING (py "(8010)0614141A-9(8011)7") := by
  rw [accepts_of Src.reads_GS1_ELEMENT_STRING Pat.toRe_gs1Elem, ← Re.fullmatch_iff]; decide +kernel

end Epc.Grammar
