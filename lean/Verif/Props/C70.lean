/-
C70: exactly when parsing raises something else than ConvertException.

Tag URIs: the exceptions of `from_tag_uri` are those of the constructor on the pure identity URI made of the tag URI (see C67 for these),
and ConvertException for everything that is not a tag URI of the class.  Binaries and element strings: ValueError and OverflowError come
from serials whose percent signs (after escaping) do not make sense, in exactly the cases stated here; ValueError also comes from groups in
parentheses.  Generated by tools/gen_c70.py.
-/
import Verif.Lemmas.TagErr
import Verif.Lemmas.LayoutText
import Verif.Lemmas.DecodeAll
import Verif.Lemmas.ElemParse
import Verif.Props.C53
import Verif.Props.C59
import Verif.Props.C67

namespace Epc
open Spec Re

private theorem serial_escape {raw : Str} : SerialText (escape raw) ↔ (∀ c ∈ raw, c ∈ gs82) ∧ raw ≠ [] :=
  ⟨fun h => gs82_of_lang (lang_of_serialText h), fun h => serialText_of_lang (gs3a3_escape h.1 h.2)⟩

/-! ### Tag URIs -/

/-- SGTIN: the tag URIs that raise another exception than ConvertException. -/
theorem C70_sgtin_tag (t : Str) (e : Err) (he : e ≠ .convert) : SGTIN.fromTagUri t = .error e ↔
    ∃ size ∈ [py "96", py "198"], ∃ f body, UNumeral f ∧ t = py "urn:epc:tag:sgtin-" ++ size ++ ':' :: (f ++ '.' :: body) ∧
      SGTIN.new (py "urn:epc:id:sgtin:" ++ body) = .error e := by
  constructor
  · intro h
    obtain ⟨cs, f, b, hf, rfl, h2⟩ := (SGTIN.fromTagUri_err_iff he).1 h
    cases cs
    · exact ⟨py "96", by simp, f, b, (uNumeral_iff f).2 hf, by simp [tagUriPrefix, SGTIN.Coding.value], h2⟩
    · exact ⟨py "198", by simp, f, b, (uNumeral_iff f).2 hf, by simp [tagUriPrefix, SGTIN.Coding.value], h2⟩
  · rintro ⟨size, hs, f, b, hf, rfl, h⟩
    simp only [List.mem_cons, List.not_mem_nil, or_false] at hs
    rcases hs with rfl | rfl
    · exact (SGTIN.fromTagUri_err_iff he).2 ⟨.sgtin96, f, b, (uNumeral_iff f).1 hf, by simp [tagUriPrefix, SGTIN.Coding.value], h⟩
    · exact (SGTIN.fromTagUri_err_iff he).2 ⟨.sgtin198, f, b, (uNumeral_iff f).1 hf, by simp [tagUriPrefix, SGTIN.Coding.value], h⟩

/-- SGLN: the tag URIs that raise another exception than ConvertException. -/
theorem C70_sgln_tag (t : Str) (e : Err) (he : e ≠ .convert) : SGLN.fromTagUri t = .error e ↔
    ∃ size ∈ [py "96", py "195"], ∃ f body, UNumeral f ∧ t = py "urn:epc:tag:sgln-" ++ size ++ ':' :: (f ++ '.' :: body) ∧
      SGLN.new (py "urn:epc:id:sgln:" ++ body) = .error e := by
  constructor
  · intro h
    obtain ⟨cs, f, b, hf, rfl, h2⟩ := (SGLN.fromTagUri_err_iff he).1 h
    cases cs
    · exact ⟨py "96", by simp, f, b, (uNumeral_iff f).2 hf, by simp [tagUriPrefix, SGLN.Coding.value], h2⟩
    · exact ⟨py "195", by simp, f, b, (uNumeral_iff f).2 hf, by simp [tagUriPrefix, SGLN.Coding.value], h2⟩
  · rintro ⟨size, hs, f, b, hf, rfl, h⟩
    simp only [List.mem_cons, List.not_mem_nil, or_false] at hs
    rcases hs with rfl | rfl
    · exact (SGLN.fromTagUri_err_iff he).2 ⟨.sgln96, f, b, (uNumeral_iff f).1 hf, by simp [tagUriPrefix, SGLN.Coding.value], h⟩
    · exact (SGLN.fromTagUri_err_iff he).2 ⟨.sgln195, f, b, (uNumeral_iff f).1 hf, by simp [tagUriPrefix, SGLN.Coding.value], h⟩

/-- GRAI: the tag URIs that raise another exception than ConvertException. -/
theorem C70_grai_tag (t : Str) (e : Err) (he : e ≠ .convert) : GRAI.fromTagUri t = .error e ↔
    ∃ size ∈ [py "96", py "170"], ∃ f body, UNumeral f ∧ t = py "urn:epc:tag:grai-" ++ size ++ ':' :: (f ++ '.' :: body) ∧
      GRAI.new (py "urn:epc:id:grai:" ++ body) = .error e := by
  constructor
  · intro h
    obtain ⟨cs, f, b, hf, rfl, h2⟩ := (GRAI.fromTagUri_err_iff he).1 h
    cases cs
    · exact ⟨py "96", by simp, f, b, (uNumeral_iff f).2 hf, by simp [tagUriPrefix, GRAI.Coding.value], h2⟩
    · exact ⟨py "170", by simp, f, b, (uNumeral_iff f).2 hf, by simp [tagUriPrefix, GRAI.Coding.value], h2⟩
  · rintro ⟨size, hs, f, b, hf, rfl, h⟩
    simp only [List.mem_cons, List.not_mem_nil, or_false] at hs
    rcases hs with rfl | rfl
    · exact (GRAI.fromTagUri_err_iff he).2 ⟨.grai96, f, b, (uNumeral_iff f).1 hf, by simp [tagUriPrefix, GRAI.Coding.value], h⟩
    · exact (GRAI.fromTagUri_err_iff he).2 ⟨.grai170, f, b, (uNumeral_iff f).1 hf, by simp [tagUriPrefix, GRAI.Coding.value], h⟩

/-- GIAI: the tag URIs that raise another exception than ConvertException. -/
theorem C70_giai_tag (t : Str) (e : Err) (he : e ≠ .convert) : GIAI.fromTagUri t = .error e ↔
    ∃ size ∈ [py "96", py "202"], ∃ f body, UNumeral f ∧ t = py "urn:epc:tag:giai-" ++ size ++ ':' :: (f ++ '.' :: body) ∧
      GIAI.new (py "urn:epc:id:giai:" ++ body) = .error e := by
  constructor
  · intro h
    obtain ⟨cs, f, b, hf, rfl, h2⟩ := (GIAI.fromTagUri_err_iff he).1 h
    cases cs
    · exact ⟨py "96", by simp, f, b, (uNumeral_iff f).2 hf, by simp [tagUriPrefix, GIAI.Coding.value], h2⟩
    · exact ⟨py "202", by simp, f, b, (uNumeral_iff f).2 hf, by simp [tagUriPrefix, GIAI.Coding.value], h2⟩
  · rintro ⟨size, hs, f, b, hf, rfl, h⟩
    simp only [List.mem_cons, List.not_mem_nil, or_false] at hs
    rcases hs with rfl | rfl
    · exact (GIAI.fromTagUri_err_iff he).2 ⟨.giai96, f, b, (uNumeral_iff f).1 hf, by simp [tagUriPrefix, GIAI.Coding.value], h⟩
    · exact (GIAI.fromTagUri_err_iff he).2 ⟨.giai202, f, b, (uNumeral_iff f).1 hf, by simp [tagUriPrefix, GIAI.Coding.value], h⟩

/-- GDTI: the tag URIs that raise another exception than ConvertException. -/
theorem C70_gdti_tag (t : Str) (e : Err) (he : e ≠ .convert) : GDTI.fromTagUri t = .error e ↔
    ∃ size ∈ [py "96", py "174"], ∃ f body, UNumeral f ∧ t = py "urn:epc:tag:gdti-" ++ size ++ ':' :: (f ++ '.' :: body) ∧
      GDTI.new (py "urn:epc:id:gdti:" ++ body) = .error e := by
  constructor
  · intro h
    obtain ⟨cs, f, b, hf, rfl, h2⟩ := (GDTI.fromTagUri_err_iff he).1 h
    cases cs
    · exact ⟨py "96", by simp, f, b, (uNumeral_iff f).2 hf, by simp [tagUriPrefix, GDTI.Coding.value], h2⟩
    · exact ⟨py "174", by simp, f, b, (uNumeral_iff f).2 hf, by simp [tagUriPrefix, GDTI.Coding.value], h2⟩
  · rintro ⟨size, hs, f, b, hf, rfl, h⟩
    simp only [List.mem_cons, List.not_mem_nil, or_false] at hs
    rcases hs with rfl | rfl
    · exact (GDTI.fromTagUri_err_iff he).2 ⟨.gdti96, f, b, (uNumeral_iff f).1 hf, by simp [tagUriPrefix, GDTI.Coding.value], h⟩
    · exact (GDTI.fromTagUri_err_iff he).2 ⟨.gdti174, f, b, (uNumeral_iff f).1 hf, by simp [tagUriPrefix, GDTI.Coding.value], h⟩

/-- ITIP: the tag URIs that raise another exception than ConvertException. -/
theorem C70_itip_tag (t : Str) (e : Err) (he : e ≠ .convert) : ITIP.fromTagUri t = .error e ↔
    ∃ size ∈ [py "110", py "212"], ∃ f body, UNumeral f ∧ t = py "urn:epc:tag:itip-" ++ size ++ ':' :: (f ++ '.' :: body) ∧
      ITIP.new (py "urn:epc:id:itip:" ++ body) = .error e := by
  constructor
  · intro h
    obtain ⟨cs, f, b, hf, rfl, h2⟩ := (ITIP.fromTagUri_err_iff he).1 h
    cases cs
    · exact ⟨py "110", by simp, f, b, (uNumeral_iff f).2 hf, by simp [tagUriPrefix, ITIP.Coding.value], h2⟩
    · exact ⟨py "212", by simp, f, b, (uNumeral_iff f).2 hf, by simp [tagUriPrefix, ITIP.Coding.value], h2⟩
  · rintro ⟨size, hs, f, b, hf, rfl, h⟩
    simp only [List.mem_cons, List.not_mem_nil, or_false] at hs
    rcases hs with rfl | rfl
    · exact (ITIP.fromTagUri_err_iff he).2 ⟨.itip110, f, b, (uNumeral_iff f).1 hf, by simp [tagUriPrefix, ITIP.Coding.value], h⟩
    · exact (ITIP.fromTagUri_err_iff he).2 ⟨.itip212, f, b, (uNumeral_iff f).1 hf, by simp [tagUriPrefix, ITIP.Coding.value], h⟩

/-- All other classes: `from_tag_uri` raises nothing but ConvertException. -/
theorem C70_other_tags (t : Str) :
    (∀ e, SSCC.fromTagUri t = .error e → e = .convert) ∧
    (∀ e, GSRN.fromTagUri t = .error e → e = .convert) ∧
    (∀ e, GSRNP.fromTagUri t = .error e → e = .convert) ∧
    (∀ e, CPI.fromTagUri t = .error e → e = .convert) ∧
    (∀ e, SGCN.fromTagUri t = .error e → e = .convert) ∧
    (∀ e, USDOD.fromTagUri t = .error e → e = .convert) ∧
    (∀ e, ADI.fromTagUri t = .error e → e = .convert) ∧
    (∀ e, GID.fromTagUri t = .error e → e = .convert) :=
  ⟨fun _ => SSCC.fromTagUri_err_convert, fun _ => GSRN.fromTagUri_err_convert, fun _ => GSRNP.fromTagUri_err_convert, fun _ => CPI.fromTagUri_err_convert, fun _ => SGCN.fromTagUri_err_convert, fun _ => USDOD.fromTagUri_err_convert, fun _ => ADI.fromTagUri_err_convert, fun _ => GID.fromTagUri_err_convert⟩

example : SGTIN.fromTagUri (py "urn:epc:tag:sgtin-198:3.9521141.012345.%4axy") = .error .value ∧
    SGTIN.fromTagUri (py "urn:epc:tag:sgtin-198:3.9521141.012345.%aFFFFFFFF") = .error .overflow := by decide +kernel

/-! ### The constructor on a URI of given components -/

private theorem sgtin_text {C I S : Str} (hC : UDigits C) (hI : UDigits I) :
    (SGTIN.new (py "urn:epc:id:sgtin:" ++ (C ++ '.' :: (I ++ '.' :: S))) = .error .value ↔ C.length + I.length = 13 ∧ 6 ≤ C.length ∧ C.length ≤ 12 ∧ SerialText S ∧ PercentsValueError S) ∧
    (SGTIN.new (py "urn:epc:id:sgtin:" ++ (C ++ '.' :: (I ++ '.' :: S))) = .error .overflow ↔ C.length + I.length = 13 ∧ 6 ≤ C.length ∧ C.length ≤ 12 ∧ SerialText S ∧ PercentsOverflow S) := by
  refine ⟨(C67_sgtin _).2.1.trans ⟨?_, ?_⟩, (C67_sgtin _).2.2.1.trans ⟨?_, ?_⟩⟩
  · rintro ⟨C', I', S', e, kC, kI, h⟩
    obtain ⟨rfl, rfl, rfl⟩ := uri3_inj (q := py "urn:epc:id:sgtin") ((uDigits_iff _).1 hC).no_dot ((uDigits_iff _).1 hI).no_dot ((uDigits_iff _).1 kC).no_dot ((uDigits_iff _).1 kI).no_dot e
    exact h
  · intro h
    exact ⟨C, I, S, rfl, hC, hI, h⟩
  · rintro ⟨C', I', S', e, kC, kI, h⟩
    obtain ⟨rfl, rfl, rfl⟩ := uri3_inj (q := py "urn:epc:id:sgtin") ((uDigits_iff _).1 hC).no_dot ((uDigits_iff _).1 hI).no_dot ((uDigits_iff _).1 kC).no_dot ((uDigits_iff _).1 kI).no_dot e
    exact h
  · intro h
    exact ⟨C, I, S, rfl, hC, hI, h⟩

private theorem lgtin_text {C I S : Str} (hC : UDigits C) (hI : UDigits I) :
    (LGTIN.new (py "urn:epc:class:lgtin:" ++ (C ++ '.' :: (I ++ '.' :: S))) = .error .value ↔ C ≠ [] ∧ I ≠ [] ∧ SerialText S ∧ PercentsValueError S) ∧
    (LGTIN.new (py "urn:epc:class:lgtin:" ++ (C ++ '.' :: (I ++ '.' :: S))) = .error .overflow ↔ C ≠ [] ∧ I ≠ [] ∧ SerialText S ∧ PercentsOverflow S) := by
  refine ⟨(C67_lgtin _).2.1.trans ⟨?_, ?_⟩, (C67_lgtin _).2.2.1.trans ⟨?_, ?_⟩⟩
  · rintro ⟨C', I', S', e, kC, kI, h⟩
    obtain ⟨rfl, rfl, rfl⟩ := uri3_inj (q := py "urn:epc:class:lgtin") ((uDigits_iff _).1 hC).no_dot ((uDigits_iff _).1 hI).no_dot ((uDigits_iff _).1 kC).no_dot ((uDigits_iff _).1 kI).no_dot e
    exact h
  · intro h
    exact ⟨C, I, S, rfl, hC, hI, h⟩
  · rintro ⟨C', I', S', e, kC, kI, h⟩
    obtain ⟨rfl, rfl, rfl⟩ := uri3_inj (q := py "urn:epc:class:lgtin") ((uDigits_iff _).1 hC).no_dot ((uDigits_iff _).1 hI).no_dot ((uDigits_iff _).1 kC).no_dot ((uDigits_iff _).1 kI).no_dot e
    exact h
  · intro h
    exact ⟨C, I, S, rfl, hC, hI, h⟩

private theorem sgln_text {C I S : Str} (hC : UDigits C) (hI : UDigits I) :
    (SGLN.new (py "urn:epc:id:sgln:" ++ (C ++ '.' :: (I ++ '.' :: S))) = .error .value ↔ C.length + I.length = 12 ∧ 6 ≤ C.length ∧ C.length ≤ 12 ∧ (unescapeWith uriEscapes S).length ≤ 20 ∧ SerialText S ∧ PercentsValueError S) ∧
    (SGLN.new (py "urn:epc:id:sgln:" ++ (C ++ '.' :: (I ++ '.' :: S))) = .error .overflow ↔ C.length + I.length = 12 ∧ 6 ≤ C.length ∧ C.length ≤ 12 ∧ (unescapeWith uriEscapes S).length ≤ 20 ∧ SerialText S ∧ PercentsOverflow S) := by
  refine ⟨(C67_sgln _).2.1.trans ⟨?_, ?_⟩, (C67_sgln _).2.2.1.trans ⟨?_, ?_⟩⟩
  · rintro ⟨C', I', S', e, kC, kI, h⟩
    obtain ⟨rfl, rfl, rfl⟩ := uri3_inj (q := py "urn:epc:id:sgln") ((uDigits_iff _).1 hC).no_dot ((uDigits_iff _).1 hI).no_dot ((uDigits_iff _).1 kC).no_dot ((uDigits_iff _).1 kI).no_dot e
    exact h
  · intro h
    exact ⟨C, I, S, rfl, hC, hI, h⟩
  · rintro ⟨C', I', S', e, kC, kI, h⟩
    obtain ⟨rfl, rfl, rfl⟩ := uri3_inj (q := py "urn:epc:id:sgln") ((uDigits_iff _).1 hC).no_dot ((uDigits_iff _).1 hI).no_dot ((uDigits_iff _).1 kC).no_dot ((uDigits_iff _).1 kI).no_dot e
    exact h
  · intro h
    exact ⟨C, I, S, rfl, hC, hI, h⟩

private theorem grai_text {C I S : Str} (hC : UDigits C) (hI : UDigits I) :
    (GRAI.new (py "urn:epc:id:grai:" ++ (C ++ '.' :: (I ++ '.' :: S))) = .error .value ↔ C ≠ [] ∧ SerialText S ∧ PercentsValueError S) ∧
    (GRAI.new (py "urn:epc:id:grai:" ++ (C ++ '.' :: (I ++ '.' :: S))) = .error .overflow ↔ C ≠ [] ∧ SerialText S ∧ PercentsOverflow S) := by
  refine ⟨(C67_grai _).2.1.trans ⟨?_, ?_⟩, (C67_grai _).2.2.1.trans ⟨?_, ?_⟩⟩
  · rintro ⟨C', I', S', e, kC, kI, h⟩
    obtain ⟨rfl, rfl, rfl⟩ := uri3_inj (q := py "urn:epc:id:grai") ((uDigits_iff _).1 hC).no_dot ((uDigits_iff _).1 hI).no_dot ((uDigits_iff _).1 kC).no_dot ((uDigits_iff _).1 kI).no_dot e
    exact h
  · intro h
    exact ⟨C, I, S, rfl, hC, hI, h⟩
  · rintro ⟨C', I', S', e, kC, kI, h⟩
    obtain ⟨rfl, rfl, rfl⟩ := uri3_inj (q := py "urn:epc:id:grai") ((uDigits_iff _).1 hC).no_dot ((uDigits_iff _).1 hI).no_dot ((uDigits_iff _).1 kC).no_dot ((uDigits_iff _).1 kI).no_dot e
    exact h
  · intro h
    exact ⟨C, I, S, rfl, hC, hI, h⟩

private theorem gdti_text {C I S : Str} (hC : UDigits C) (hI : UDigits I) :
    (GDTI.new (py "urn:epc:id:gdti:" ++ (C ++ '.' :: (I ++ '.' :: S))) = .error .value ↔ C ≠ [] ∧ SerialText S ∧ PercentsValueError S) ∧
    (GDTI.new (py "urn:epc:id:gdti:" ++ (C ++ '.' :: (I ++ '.' :: S))) = .error .overflow ↔ C ≠ [] ∧ SerialText S ∧ PercentsOverflow S) := by
  refine ⟨(C67_gdti _).2.1.trans ⟨?_, ?_⟩, (C67_gdti _).2.2.1.trans ⟨?_, ?_⟩⟩
  · rintro ⟨C', I', S', e, kC, kI, h⟩
    obtain ⟨rfl, rfl, rfl⟩ := uri3_inj (q := py "urn:epc:id:gdti") ((uDigits_iff _).1 hC).no_dot ((uDigits_iff _).1 hI).no_dot ((uDigits_iff _).1 kC).no_dot ((uDigits_iff _).1 kI).no_dot e
    exact h
  · intro h
    exact ⟨C, I, S, rfl, hC, hI, h⟩
  · rintro ⟨C', I', S', e, kC, kI, h⟩
    obtain ⟨rfl, rfl, rfl⟩ := uri3_inj (q := py "urn:epc:id:gdti") ((uDigits_iff _).1 hC).no_dot ((uDigits_iff _).1 hI).no_dot ((uDigits_iff _).1 kC).no_dot ((uDigits_iff _).1 kI).no_dot e
    exact h
  · intro h
    exact ⟨C, I, S, rfl, hC, hI, h⟩

private theorem upui_text {C I S : Str} (hC : UDigits C) (hI : UDigits I) :
    (UPUI.new (py "urn:epc:id:upui:" ++ (C ++ '.' :: (I ++ '.' :: S))) = .error .value ↔ C ≠ [] ∧ SerialText S ∧ PercentsValueError S) ∧
    (UPUI.new (py "urn:epc:id:upui:" ++ (C ++ '.' :: (I ++ '.' :: S))) = .error .overflow ↔ C ≠ [] ∧ SerialText S ∧ PercentsOverflow S) := by
  refine ⟨(C67_upui _).2.1.trans ⟨?_, ?_⟩, (C67_upui _).2.2.1.trans ⟨?_, ?_⟩⟩
  · rintro ⟨C', I', S', e, kC, kI, h⟩
    obtain ⟨rfl, rfl, rfl⟩ := uri3_inj (q := py "urn:epc:id:upui") ((uDigits_iff _).1 hC).no_dot ((uDigits_iff _).1 hI).no_dot ((uDigits_iff _).1 kC).no_dot ((uDigits_iff _).1 kI).no_dot e
    exact h
  · intro h
    exact ⟨C, I, S, rfl, hC, hI, h⟩
  · rintro ⟨C', I', S', e, kC, kI, h⟩
    obtain ⟨rfl, rfl, rfl⟩ := uri3_inj (q := py "urn:epc:id:upui") ((uDigits_iff _).1 hC).no_dot ((uDigits_iff _).1 hI).no_dot ((uDigits_iff _).1 kC).no_dot ((uDigits_iff _).1 kI).no_dot e
    exact h
  · intro h
    exact ⟨C, I, S, rfl, hC, hI, h⟩

private theorem giai_text {C S : Str} (hC : UDigits C) :
    (GIAI.new (py "urn:epc:id:giai:" ++ (C ++ '.' :: S)) = .error .value ↔ 6 ≤ C.length ∧ C.length ≤ 12 ∧ C.length + (S.takeWhile (· ≠ ':')).length ≤ 30 ∧ SerialText S ∧ PercentsValueError (S.takeWhile (· ≠ ':'))) ∧
    (GIAI.new (py "urn:epc:id:giai:" ++ (C ++ '.' :: S)) = .error .overflow ↔ 6 ≤ C.length ∧ C.length ≤ 12 ∧ C.length + (S.takeWhile (· ≠ ':')).length ≤ 30 ∧ SerialText S ∧ PercentsOverflow (S.takeWhile (· ≠ ':'))) := by
  refine ⟨(C67_giai _).2.1.trans ⟨?_, ?_⟩, (C67_giai _).2.2.1.trans ⟨?_, ?_⟩⟩
  · rintro ⟨C', S', e, kC, h⟩
    obtain ⟨rfl, rfl⟩ := uri2_inj (q := py "urn:epc:id:giai") ((uDigits_iff _).1 hC).no_dot ((uDigits_iff _).1 kC).no_dot e
    exact h
  · intro h
    exact ⟨C, S, rfl, hC, h⟩
  · rintro ⟨C', S', e, kC, h⟩
    obtain ⟨rfl, rfl⟩ := uri2_inj (q := py "urn:epc:id:giai") ((uDigits_iff _).1 hC).no_dot ((uDigits_iff _).1 kC).no_dot e
    exact h
  · intro h
    exact ⟨C, S, rfl, hC, h⟩

private theorem itip_text {C I A B S : Str} (hC : UDigits C) (hI : UDigits I) (hA : UDigits A) (hB : UDigits B) :
    (ITIP.new (py "urn:epc:id:itip:" ++ (C ++ '.' :: (I ++ '.' :: (A ++ '.' :: (B ++ '.' :: S))))) = .error .value ↔ C ≠ [] ∧ I ≠ [] ∧ A ≠ [] ∧ B ≠ [] ∧ SerialText S ∧ PercentsValueError S) ∧
    (ITIP.new (py "urn:epc:id:itip:" ++ (C ++ '.' :: (I ++ '.' :: (A ++ '.' :: (B ++ '.' :: S))))) = .error .overflow ↔ C ≠ [] ∧ I ≠ [] ∧ A ≠ [] ∧ B ≠ [] ∧ SerialText S ∧ PercentsOverflow S) := by
  refine ⟨(C67_itip _).2.1.trans ⟨?_, ?_⟩, (C67_itip _).2.2.1.trans ⟨?_, ?_⟩⟩
  · rintro ⟨C', I', A', B', S', e, kC, kI, kA, kB, h⟩
    obtain ⟨rfl, rfl, e1⟩ := uri3_inj (q := py "urn:epc:id:itip") ((uDigits_iff _).1 hC).no_dot ((uDigits_iff _).1 hI).no_dot ((uDigits_iff _).1 kC).no_dot ((uDigits_iff _).1 kI).no_dot e
    obtain ⟨rfl, e2⟩ := append_sep_inj ((uDigits_iff _).1 hA).no_dot ((uDigits_iff _).1 kA).no_dot (show A ++ '.' :: (B ++ '.' :: S) = A' ++ '.' :: (B' ++ '.' :: S') from e1)
    obtain ⟨rfl, rfl⟩ := append_sep_inj ((uDigits_iff _).1 hB).no_dot ((uDigits_iff _).1 kB).no_dot e2
    exact h
  · intro h
    exact ⟨C, I, A, B, S, rfl, hC, hI, hA, hB, h⟩
  · rintro ⟨C', I', A', B', S', e, kC, kI, kA, kB, h⟩
    obtain ⟨rfl, rfl, e1⟩ := uri3_inj (q := py "urn:epc:id:itip") ((uDigits_iff _).1 hC).no_dot ((uDigits_iff _).1 hI).no_dot ((uDigits_iff _).1 kC).no_dot ((uDigits_iff _).1 kI).no_dot e
    obtain ⟨rfl, e2⟩ := append_sep_inj ((uDigits_iff _).1 hA).no_dot ((uDigits_iff _).1 kA).no_dot (show A ++ '.' :: (B ++ '.' :: S) = A' ++ '.' :: (B' ++ '.' :: S') from e1)
    obtain ⟨rfl, rfl⟩ := append_sep_inj ((uDigits_iff _).1 hB).no_dot ((uDigits_iff _).1 kB).no_dot e2
    exact h
  · intro h
    exact ⟨C, I, A, B, S, rfl, hC, hI, hA, hB, h⟩

/-! ### Binaries -/

/-- SGTIN-198. -/
theorem C70_sgtin198 {b : Str} (hB : Bits b) (hb : b.take 8 = py "00110110") (hl : 198 ≤ b.length) :
    (∀ C D raw, KeyFields b 47 (fun p => p + 1) C D → raw = sevenText b 58 20 →
      (SGTIN.fromBinary b = .error .value ↔ (∀ c ∈ raw, c ∈ gs82) ∧ raw ≠ [] ∧ PercentsValueError (escape raw)) ∧
      (SGTIN.fromBinary b = .error .overflow ↔ (∀ c ∈ raw, c ∈ gs82) ∧ raw ≠ [] ∧ PercentsOverflow (escape raw))) ∧
    ((¬ ∃ C D, KeyFields b 47 (fun p => p + 1) C D) → SGTIN.fromBinary b = .error .convert) := by
  obtain ⟨k, k'⟩ := keyFields_decode (t := SGTIN.table) (K := fun p => p + 1) (W := 47) (by decide) (by decide) hB (by omega) (by decide)
  rw [SGTIN.decode_sgtin198 hB hb hl]
  constructor
  · intro C D raw hF hraw
    rw [k C D hF, ok_bind, decodeString_spec hB 20 58 140 (by omega) (by omega) (by omega), ok_bind, ← hraw]
    obtain ⟨p, hp, hC, hCl, hCne, hD, hDl⟩ := keyFields_facts hF
    rw [show (C ++ '.' :: D) ++ '.' :: escape raw = C ++ '.' :: (D ++ '.' :: escape raw) from by simp]
    obtain ⟨t1, t2⟩ := sgtin_text (S := escape raw) ((uDigits_iff _).2 (dec_digits hC)) ((uDigits_iff _).2 (dec_digits hD))
    constructor
    · refine (SGTIN.fromTagUri_new_err (by decide) (num_natStr _)).trans (t1.trans ⟨fun ⟨_, _, _, k, h⟩ => ⟨(serial_escape.1 k).1, (serial_escape.1 k).2, h⟩, fun ⟨a, b, h⟩ => ⟨by omega, by omega, by omega, serial_escape.2 ⟨a, b⟩, h⟩⟩)
    · refine (SGTIN.fromTagUri_new_err (by decide) (num_natStr _)).trans (t2.trans ⟨fun ⟨_, _, _, k, h⟩ => ⟨(serial_escape.1 k).1, (serial_escape.1 k).2, h⟩, fun ⟨a, b, h⟩ => ⟨by omega, by omega, by omega, serial_escape.2 ⟨a, b⟩, h⟩⟩)
  · intro hno
    rw [k' hno, error_bind]

/-- SGLN-195. -/
theorem C70_sgln195 {b : Str} (hB : Bits b) (hb : b.take 8 = py "00111001") (hl : 195 ≤ b.length) :
    (∀ C D raw, KeyFields b 44 (fun p => p) C D → raw = sevenText b 55 20 →
      (SGLN.fromBinary b = .error .value ↔ (∀ c ∈ raw, c ∈ gs82) ∧ raw ≠ [] ∧ PercentsValueError (escape raw)) ∧
      (SGLN.fromBinary b = .error .overflow ↔ (∀ c ∈ raw, c ∈ gs82) ∧ raw ≠ [] ∧ PercentsOverflow (escape raw))) ∧
    ((¬ ∃ C D, KeyFields b 44 (fun p => p) C D) → SGLN.fromBinary b = .error .convert) := by
  obtain ⟨k, k'⟩ := keyFields_decode (t := SGLN.table) (K := fun p => p) (W := 44) (by decide) (by decide) hB (by omega) (by decide)
  rw [SGLN.decode_sgln195 hB hb hl]
  constructor
  · intro C D raw hF hraw
    rw [k C D hF, ok_bind, decodeString_spec hB 20 55 140 (by omega) (by omega) (by omega), ok_bind, ← hraw]
    obtain ⟨p, hp, hC, hCl, hCne, hD, hDl⟩ := keyFields_facts hF
    have hun : (unescapeWith uriEscapes (escape raw)).length ≤ 20 := by
      rw [← replaceUriEscapes_eq, replaceUriEscapes_escape, hraw]; exact sevenText_length b 20 55
    rw [show (C ++ '.' :: D) ++ '.' :: escape raw = C ++ '.' :: (D ++ '.' :: escape raw) from by simp]
    obtain ⟨t1, t2⟩ := sgln_text (S := escape raw) ((uDigits_iff _).2 (dec_digits hC)) ((uDigits_iff _).2 (dec_digits hD))
    constructor
    · refine (SGLN.fromTagUri_new_err (by decide) (num_natStr _)).trans (t1.trans ⟨fun ⟨_, _, _, _, k, h⟩ => ⟨(serial_escape.1 k).1, (serial_escape.1 k).2, h⟩, fun ⟨a, b, h⟩ => ⟨by omega, by omega, by omega, hun, serial_escape.2 ⟨a, b⟩, h⟩⟩)
    · refine (SGLN.fromTagUri_new_err (by decide) (num_natStr _)).trans (t2.trans ⟨fun ⟨_, _, _, _, k, h⟩ => ⟨(serial_escape.1 k).1, (serial_escape.1 k).2, h⟩, fun ⟨a, b, h⟩ => ⟨by omega, by omega, by omega, hun, serial_escape.2 ⟨a, b⟩, h⟩⟩)
  · intro hno
    rw [k' hno, error_bind]

/-- GRAI-170. -/
theorem C70_grai170 {b : Str} (hB : Bits b) (hb : b.take 8 = py "00110111") (hl : 170 ≤ b.length) :
    (∀ C D raw, KeyFields b 47 (fun p => p) C D → raw = sevenText b 58 16 →
      (GRAI.fromBinary b = .error .value ↔ (∀ c ∈ raw, c ∈ gs82) ∧ raw ≠ [] ∧ PercentsValueError (escape raw)) ∧
      (GRAI.fromBinary b = .error .overflow ↔ (∀ c ∈ raw, c ∈ gs82) ∧ raw ≠ [] ∧ PercentsOverflow (escape raw))) ∧
    ((¬ ∃ C D, KeyFields b 47 (fun p => p) C D) → GRAI.fromBinary b = .error .convert) := by
  obtain ⟨k, k'⟩ := keyFields_decode (t := GRAI.table) (K := fun p => p) (W := 47) (by decide) (by decide) hB (by omega) (by decide)
  rw [GRAI.decode_grai170 hB hb hl]
  constructor
  · intro C D raw hF hraw
    rw [k C D hF, ok_bind, decodeString_spec hB 16 58 112 (by omega) (by omega) (by omega), ok_bind, ← hraw]
    obtain ⟨p, hp, hC, hCl, hCne, hD, hDl⟩ := keyFields_facts hF
    rw [show (C ++ '.' :: D) ++ '.' :: escape raw = C ++ '.' :: (D ++ '.' :: escape raw) from by simp]
    obtain ⟨t1, t2⟩ := grai_text (S := escape raw) ((uDigits_iff _).2 (dec_digits hC)) ((uDigits_iff _).2 (dec_digits hD))
    constructor
    · refine (GRAI.fromTagUri_new_err (by decide) (num_natStr _)).trans (t1.trans ⟨fun ⟨_, k, h⟩ => ⟨(serial_escape.1 k).1, (serial_escape.1 k).2, h⟩, fun ⟨a, b, h⟩ => ⟨hCne, serial_escape.2 ⟨a, b⟩, h⟩⟩)
    · refine (GRAI.fromTagUri_new_err (by decide) (num_natStr _)).trans (t2.trans ⟨fun ⟨_, k, h⟩ => ⟨(serial_escape.1 k).1, (serial_escape.1 k).2, h⟩, fun ⟨a, b, h⟩ => ⟨hCne, serial_escape.2 ⟨a, b⟩, h⟩⟩)
  · intro hno
    rw [k' hno, error_bind]

/-- GDTI-174. -/
theorem C70_gdti174 {b : Str} (hB : Bits b) (hb : b.take 8 = py "00111110") (hl : 174 ≤ b.length) :
    (∀ C D raw, KeyFields b 44 (fun p => p) C D → raw = sevenText b 55 17 →
      (GDTI.fromBinary b = .error .value ↔ (∀ c ∈ raw, c ∈ gs82) ∧ raw ≠ [] ∧ PercentsValueError (escape raw)) ∧
      (GDTI.fromBinary b = .error .overflow ↔ (∀ c ∈ raw, c ∈ gs82) ∧ raw ≠ [] ∧ PercentsOverflow (escape raw))) ∧
    ((¬ ∃ C D, KeyFields b 44 (fun p => p) C D) → GDTI.fromBinary b = .error .convert) := by
  obtain ⟨k, k'⟩ := keyFields_decode (t := GDTI.table) (K := fun p => p) (W := 44) (by decide) (by decide) hB (by omega) (by decide)
  rw [GDTI.decode_gdti174 hB hb hl]
  constructor
  · intro C D raw hF hraw
    rw [k C D hF, ok_bind, decodeString_spec hB 17 55 119 (by omega) (by omega) (by omega), ok_bind, ← hraw]
    obtain ⟨p, hp, hC, hCl, hCne, hD, hDl⟩ := keyFields_facts hF
    rw [show (C ++ '.' :: D) ++ '.' :: escape raw = C ++ '.' :: (D ++ '.' :: escape raw) from by simp]
    obtain ⟨t1, t2⟩ := gdti_text (S := escape raw) ((uDigits_iff _).2 (dec_digits hC)) ((uDigits_iff _).2 (dec_digits hD))
    constructor
    · refine (GDTI.fromTagUri_new_err (by decide) (num_natStr _)).trans (t1.trans ⟨fun ⟨_, k, h⟩ => ⟨(serial_escape.1 k).1, (serial_escape.1 k).2, h⟩, fun ⟨a, b, h⟩ => ⟨hCne, serial_escape.2 ⟨a, b⟩, h⟩⟩)
    · refine (GDTI.fromTagUri_new_err (by decide) (num_natStr _)).trans (t2.trans ⟨fun ⟨_, k, h⟩ => ⟨(serial_escape.1 k).1, (serial_escape.1 k).2, h⟩, fun ⟨a, b, h⟩ => ⟨hCne, serial_escape.2 ⟨a, b⟩, h⟩⟩)
  · intro hno
    rw [k' hno, error_bind]

/-- ITIP-212. -/
theorem C70_itip212 {b : Str} (hB : Bits b) (hb : b.take 8 = py "01000001") (hl : 212 ≤ b.length) :
    (∀ C D P T raw, KeyFields b 47 (fun p => p + 1) C D → Padded 2 (bitField b 58 7) P → Padded 2 (bitField b 65 7) T → raw = sevenText b 72 20 →
      (ITIP.fromBinary b = .error .value ↔ (∀ c ∈ raw, c ∈ gs82) ∧ raw ≠ [] ∧ PercentsValueError (escape raw)) ∧
      (ITIP.fromBinary b = .error .overflow ↔ (∀ c ∈ raw, c ∈ gs82) ∧ raw ≠ [] ∧ PercentsOverflow (escape raw))) ∧
    ((¬ ((∃ C D, KeyFields b 47 (fun p => p + 1) C D) ∧ bitField b 58 7 ≤ 99 ∧ bitField b 65 7 ≤ 99)) → ITIP.fromBinary b = .error .convert) := by
  refine ⟨?_, (C53_itip212 hB hb hl).2⟩
  obtain ⟨k, k'⟩ := keyFields_decode (t := ITIP.table) (K := fun p => p + 1) (W := 47) (by decide) (by decide) hB (by omega) (by decide)
  obtain ⟨a, a'⟩ := decodeFixed_spec (bits_take (bits_drop hB 58) 7) (field_length (by omega))
  obtain ⟨c, c'⟩ := decodeFixed_spec (bits_take (bits_drop hB 65) 7) (field_length (by omega))
  rw [ITIP.decode_itip212 hB hb hl]
  intro C D P T raw hF hP hT hraw
  rw [k C D hF, ok_bind, a P hP, ok_bind, c T hT, ok_bind, decodeString_spec hB 20 72 140 (by omega) (by omega) (by omega), ok_bind, ← hraw]
  obtain ⟨p, hp, hC, hCl, hCne, hD, hDl⟩ := keyFields_facts hF
  have hPl := hP.2.1
  have hTl := hT.2.1
  rw [show (C ++ '.' :: D) ++ '.' :: (P ++ '.' :: (T ++ '.' :: escape raw)) = C ++ '.' :: (D ++ '.' :: (P ++ '.' :: (T ++ '.' :: escape raw))) from by simp]
  obtain ⟨t1, t2⟩ := itip_text (S := escape raw) ((uDigits_iff _).2 (dec_digits hC)) ((uDigits_iff _).2 (dec_digits hD))
    ((uDigits_iff _).2 (dec_digits hP.1)) ((uDigits_iff _).2 (dec_digits hT.1))
  have back : ∀ {Q : Prop}, (∀ c ∈ raw, c ∈ gs82) ∧ raw ≠ [] ∧ Q → C ≠ [] ∧ D ≠ [] ∧ P ≠ [] ∧ T ≠ [] ∧ SerialText (escape raw) ∧ Q := fun ⟨a, b, h⟩ =>
    ⟨hCne, ne_nil_of_length hDl (by omega), ne_nil_of_length hPl (by omega), ne_nil_of_length hTl (by omega), serial_escape.2 ⟨a, b⟩, h⟩
  constructor
  · exact (ITIP.fromTagUri_new_err (by decide) (num_natStr _)).trans (t1.trans ⟨fun ⟨_, _, _, _, k, h⟩ => ⟨(serial_escape.1 k).1, (serial_escape.1 k).2, h⟩, back⟩)
  · exact (ITIP.fromTagUri_new_err (by decide) (num_natStr _)).trans (t2.trans ⟨fun ⟨_, _, _, _, k, h⟩ => ⟨(serial_escape.1 k).1, (serial_escape.1 k).2, h⟩, back⟩)

/-- GIAI-202: only the text before the first colon counts. -/
theorem C70_giai202 {b : Str} (hB : Bits b) (hb : b.take 8 = py "00111000") (hl : 202 ≤ b.length) :
    (∀ C raw head, TextFields b 191 C raw → head = raw.takeWhile (· ≠ ':') →
      (GIAI.fromBinary b = .error .value ↔ (∀ c ∈ raw, c ∈ gs82) ∧ raw ≠ [] ∧ C.length + (escape head).length ≤ 30 ∧ PercentsValueError (escape head)) ∧
      (GIAI.fromBinary b = .error .overflow ↔ (∀ c ∈ raw, c ∈ gs82) ∧ raw ≠ [] ∧ C.length + (escape head).length ≤ 30 ∧ PercentsOverflow (escape head))) ∧
    ((¬ ∃ C raw, TextFields b 191 C raw) → GIAI.fromBinary b = .error .convert) := by
  refine ⟨?_, (C53_giai202 hB hb hl).2⟩
  obtain ⟨k, k'⟩ := textFields_decode (t := GIAI.table202) (W := 191) (by decide) (by decide) hB (by omega) (by decide)
  rw [GIAI.decode_giai202 hB hb hl]
  intro C raw head hF hhead
  rw [k C raw hF, ok_bind]
  obtain ⟨p, hp6, hp, hC, -⟩ := hF
  have hCl := hC.2.1
  have hsp : (escape raw).takeWhile (· ≠ ':') = escape head := by rw [← head_takeWhile, split_escape_colon, hhead]
  obtain ⟨t1, t2⟩ := giai_text (S := escape raw) ((uDigits_iff _).2 (dec_digits hC.1))
  rw [hsp] at t1 t2
  constructor
  · exact (GIAI.fromTagUri_new_err (by decide) (num_natStr _)).trans (t1.trans ⟨fun ⟨_, _, l, k, h⟩ => ⟨(serial_escape.1 k).1, (serial_escape.1 k).2, l, h⟩,
      fun ⟨a, b, l, h⟩ => ⟨by omega, by omega, l, serial_escape.2 ⟨a, b⟩, h⟩⟩)
  · exact (GIAI.fromTagUri_new_err (by decide) (num_natStr _)).trans (t2.trans ⟨fun ⟨_, _, l, k, h⟩ => ⟨(serial_escape.1 k).1, (serial_escape.1 k).2, l, h⟩,
      fun ⟨a, b, l, h⟩ => ⟨by omega, by omega, l, serial_escape.2 ⟨a, b⟩, h⟩⟩)

/-! ### Element strings -/

private theorem len_sliceI (s : Str) (lo hi : Int) : (sliceI s lo hi).length = min (clampIdx s.length hi) s.length - clampIdx s.length lo := by
  unfold sliceI slice; rw [List.length_drop, List.length_take]

private theorem len_sliceToI (s : Str) (hi : Int) : (sliceToI s hi).length = min (clampIdx s.length hi) s.length := by
  unfold sliceToI; rw [List.length_take]

private theorem clamp70 (N n k : Nat) : clampIdx N ((k : Int) + (n : Int)) = min N (k + n) := by
  rw [show ((k : Int) + (n : Int)) = ((k + n : Nat) : Int) by omega, clampIdx_pos]
  omega

private theorem clamp70' (N n : Nat) : clampIdx N (n : Int) = min N n := by rw [clampIdx_pos]; omega

private theorem serial_escape1 {raw : Str} (h : ∀ c ∈ raw, c ∈ gs82) (h1 : 1 ≤ raw.length) : SerialText (escape raw) :=
  serial_escape.2 ⟨h, by rintro rfl; simp at h1⟩

private theorem unesc_escape (raw : Str) : (unescapeWith uriEscapes (escape raw)).length = raw.length := by
  rw [← replaceUriEscapes_eq, replaceUriEscapes_escape]

/-- SGTIN: the element strings that raise ValueError or OverflowError. -/
theorem C70_sgtin_element (s : Str) (n : Nat) :
    (SGTIN.fromGs1ElementString s n = .error .value ↔ ∃ d raw, s = py "(01)" ++ (d ++ (py "(21)" ++ raw)) ∧ UDigits d ∧ d.length = 14 ∧ (∀ a ∈ raw, a ∈ gs82) ∧ 1 ≤ raw.length ∧ raw.length ≤ 20 ∧
      (HasGroup 2 raw ∨ (6 ≤ n ∧ n ≤ 12 ∧ PercentsValueError (escape raw)))) ∧
    (SGTIN.fromGs1ElementString s n = .error .overflow ↔ ∃ d raw, s = py "(01)" ++ (d ++ (py "(21)" ++ raw)) ∧ UDigits d ∧ d.length = 14 ∧ (∀ a ∈ raw, a ∈ gs82) ∧ 1 ≤ raw.length ∧ raw.length ≤ 20 ∧
      ¬ HasGroup 2 raw ∧ 6 ≤ n ∧ n ≤ 12 ∧ PercentsOverflow (escape raw)) := by
  have key : ∀ d raw, Dec d → d.length = 14 → ((∀ a ∈ raw, a ∈ gs82) ∧ 1 ≤ raw.length ∧ raw.length ≤ 20) → ¬ HasGroup 2 raw →
      (SGTIN.fromGs1ElementString (py "(01)" ++ (d ++ (py "(21)" ++ raw))) n = .error .value ↔ 6 ≤ n ∧ n ≤ 12 ∧ PercentsValueError (escape raw)) ∧
      (SGTIN.fromGs1ElementString (py "(01)" ++ (d ++ (py "(21)" ++ raw))) n = .error .overflow ↔ 6 ≤ n ∧ n ≤ 12 ∧ PercentsOverflow (escape raw)) := by
    intro d raw hd hl hc hg
    cases d with
    | nil => simp at hl
    | cons i d => ?_
    have l1 : (sliceI (i :: d) 1 (1 + (n : Int))).length = min 14 (1 + n) - 1 := by
      rw [len_sliceI, hl, show clampIdx 14 (1 + (n : Int)) = min 14 (1 + n) from clamp70 14 n 1, show clampIdx 14 1 = 1 from rfl]; omega
    have l2 : (sliceI (i :: d) (1 + (n : Int)) (-1)).length = 13 - min 14 (1 + n) := by
      rw [len_sliceI, hl, show clampIdx 14 (1 + (n : Int)) = min 14 (1 + n) from clamp70 14 n 1, show clampIdx 14 (-1) = 13 from rfl]; omega
    have hser := serial_escape1 hc.1 hc.2.1
    obtain ⟨t1, t2⟩ := sgtin_text (S := escape raw) (C := sliceI (i :: d) 1 (1 + (n : Int))) (I := i :: sliceI (i :: d) (1 + (n : Int)) (-1)) ((uDigits_iff _).2 (dec_slice hd _ _)) ((uDigits_iff _).2 (Dec.cons.2 ⟨(Dec.cons.1 hd).1, dec_slice hd _ _⟩))
    rw [SGTIN.from_eq n hd hl hc hg]
    exact ⟨t1.trans ⟨fun ⟨q0, q1, q2, _, h⟩ => ⟨by rw [l1] at q1; omega, by rw [List.length_cons, l1, l2] at q0; rw [l1] at q2; omega, h⟩, fun ⟨n1, n2, h⟩ => ⟨by rw [List.length_cons, l1, l2]; omega, by rw [l1]; omega, by rw [l1]; omega, hser, h⟩⟩,
      t2.trans ⟨fun ⟨q0, q1, q2, _, h⟩ => ⟨by rw [l1] at q1; omega, by rw [List.length_cons, l1, l2] at q0; rw [l1] at q2; omega, h⟩, fun ⟨n1, n2, h⟩ => ⟨by rw [List.length_cons, l1, l2]; omega, by rw [l1]; omega, by rw [l1]; omega, hser, h⟩⟩⟩
  have shaped : ∀ e, SGTIN.fromGs1ElementString s n = .error e → e ≠ .convert → ∃ d raw, Dec d ∧ d.length = 14 ∧
      ((∀ a ∈ raw, a ∈ gs82) ∧ 1 ≤ raw.length ∧ raw.length ≤ 20) ∧ s = py "(01)" ++ (d ++ (py "(21)" ++ raw)) := by
    intro e h he
    cases hm : Rx.sgtinElem.fullmatch s with
    | true =>
      obtain ⟨d, raw, ⟨hd, hl⟩, hc, e⟩ := (SGTIN.elem_lang s).1 hm
      exact ⟨d, raw, hd, hl, hc, e⟩
    | false =>
      unfold SGTIN.fromGs1ElementString at h
      rw [hm] at h
      injection h with h
      exact absurd h.symm he
  constructor
  · constructor
    · intro h
      obtain ⟨d, raw, hd, hl, hc, rfl⟩ := shaped _ h (by decide)
      refine ⟨d, raw, rfl, (uDigits_iff _).2 hd, hl, hc.1, hc.2.1, hc.2.2, ?_⟩
      by_cases hg : HasGroup 2 raw
      · exact .inl hg
      · exact .inr ((key d raw hd hl hc hg).1.1 h)
    · rintro ⟨d, raw, rfl, hd, hl, hc, h1, h2, h⟩
      by_cases hg : HasGroup 2 raw
      · exact (C59_sgtin _ n).2.2.1 d raw rfl hd hl hc h1 h2 hg
      · exact (key d raw ((uDigits_iff _).1 hd) hl ⟨hc, h1, h2⟩ hg).1.2 (h.resolve_left hg)
  · constructor
    · intro h
      obtain ⟨d, raw, hd, hl, hc, rfl⟩ := shaped _ h (by decide)
      refine ⟨d, raw, rfl, (uDigits_iff _).2 hd, hl, hc.1, hc.2.1, hc.2.2, ?_⟩
      by_cases hg : HasGroup 2 raw
      · rw [(C59_sgtin _ n).2.2.1 d raw rfl ((uDigits_iff _).2 hd) hl hc.1 hc.2.1 hc.2.2 hg] at h
        cases h
      · exact ⟨hg, (key d raw hd hl hc hg).2.1 h⟩
    · rintro ⟨d, raw, rfl, hd, hl, hc, h1, h2, hg, h⟩
      exact (key d raw ((uDigits_iff _).1 hd) hl ⟨hc, h1, h2⟩ hg).2.2 h

/-- LGTIN: the element strings that raise ValueError or OverflowError. -/
theorem C70_lgtin_element (s : Str) (n : Nat) :
    (LGTIN.fromGs1ElementString s n = .error .value ↔ ∃ d raw, s = py "(01)" ++ (d ++ (py "(10)" ++ raw)) ∧ UDigits d ∧ d.length = 14 ∧ (∀ a ∈ raw, a ∈ gs82) ∧ 1 ≤ raw.length ∧ raw.length ≤ 20 ∧
      (HasGroup 2 raw ∨ (1 ≤ n ∧ PercentsValueError (escape raw)))) ∧
    (LGTIN.fromGs1ElementString s n = .error .overflow ↔ ∃ d raw, s = py "(01)" ++ (d ++ (py "(10)" ++ raw)) ∧ UDigits d ∧ d.length = 14 ∧ (∀ a ∈ raw, a ∈ gs82) ∧ 1 ≤ raw.length ∧ raw.length ≤ 20 ∧
      ¬ HasGroup 2 raw ∧ 1 ≤ n ∧ PercentsOverflow (escape raw)) := by
  have key : ∀ d raw, Dec d → d.length = 14 → ((∀ a ∈ raw, a ∈ gs82) ∧ 1 ≤ raw.length ∧ raw.length ≤ 20) → ¬ HasGroup 2 raw →
      (LGTIN.fromGs1ElementString (py "(01)" ++ (d ++ (py "(10)" ++ raw))) n = .error .value ↔ 1 ≤ n ∧ PercentsValueError (escape raw)) ∧
      (LGTIN.fromGs1ElementString (py "(01)" ++ (d ++ (py "(10)" ++ raw))) n = .error .overflow ↔ 1 ≤ n ∧ PercentsOverflow (escape raw)) := by
    intro d raw hd hl hc hg
    cases d with
    | nil => simp at hl
    | cons i d => ?_
    have l1 : (sliceI (i :: d) 1 (1 + (n : Int))).length = min 14 (1 + n) - 1 := by
      rw [len_sliceI, hl, show clampIdx 14 (1 + (n : Int)) = min 14 (1 + n) from clamp70 14 n 1, show clampIdx 14 1 = 1 from rfl]; omega
    have l2 : (sliceI (i :: d) (1 + (n : Int)) (-1)).length = 13 - min 14 (1 + n) := by
      rw [len_sliceI, hl, show clampIdx 14 (1 + (n : Int)) = min 14 (1 + n) from clamp70 14 n 1, show clampIdx 14 (-1) = 13 from rfl]; omega
    have hser := serial_escape1 hc.1 hc.2.1
    obtain ⟨t1, t2⟩ := lgtin_text (S := escape raw) (C := sliceI (i :: d) 1 (1 + (n : Int))) (I := i :: sliceI (i :: d) (1 + (n : Int)) (-1)) ((uDigits_iff _).2 (dec_slice hd _ _)) ((uDigits_iff _).2 (Dec.cons.2 ⟨(Dec.cons.1 hd).1, dec_slice hd _ _⟩))
    rw [LGTIN.from_eq n hd hl hc hg]
    exact ⟨t1.trans ⟨fun ⟨q0, _, _, h⟩ => ⟨by have := List.length_pos_iff.2 q0; rw [l1] at this; omega, h⟩, fun ⟨n1, h⟩ => ⟨ne_nil_of_length l1 (by omega), by simp, hser, h⟩⟩,
      t2.trans ⟨fun ⟨q0, _, _, h⟩ => ⟨by have := List.length_pos_iff.2 q0; rw [l1] at this; omega, h⟩, fun ⟨n1, h⟩ => ⟨ne_nil_of_length l1 (by omega), by simp, hser, h⟩⟩⟩
  have shaped : ∀ e, LGTIN.fromGs1ElementString s n = .error e → e ≠ .convert → ∃ d raw, Dec d ∧ d.length = 14 ∧
      ((∀ a ∈ raw, a ∈ gs82) ∧ 1 ≤ raw.length ∧ raw.length ≤ 20) ∧ s = py "(01)" ++ (d ++ (py "(10)" ++ raw)) := by
    intro e h he
    cases hm : Rx.lgtinElem.fullmatch s with
    | true =>
      obtain ⟨d, raw, ⟨hd, hl⟩, hc, e⟩ := (LGTIN.elem_lang s).1 hm
      exact ⟨d, raw, hd, hl, hc, e⟩
    | false =>
      unfold LGTIN.fromGs1ElementString at h
      rw [hm] at h
      injection h with h
      exact absurd h.symm he
  constructor
  · constructor
    · intro h
      obtain ⟨d, raw, hd, hl, hc, rfl⟩ := shaped _ h (by decide)
      refine ⟨d, raw, rfl, (uDigits_iff _).2 hd, hl, hc.1, hc.2.1, hc.2.2, ?_⟩
      by_cases hg : HasGroup 2 raw
      · exact .inl hg
      · exact .inr ((key d raw hd hl hc hg).1.1 h)
    · rintro ⟨d, raw, rfl, hd, hl, hc, h1, h2, h⟩
      by_cases hg : HasGroup 2 raw
      · exact (C59_lgtin _ n).2.2.1 d raw rfl hd hl hc h1 h2 hg
      · exact (key d raw ((uDigits_iff _).1 hd) hl ⟨hc, h1, h2⟩ hg).1.2 (h.resolve_left hg)
  · constructor
    · intro h
      obtain ⟨d, raw, hd, hl, hc, rfl⟩ := shaped _ h (by decide)
      refine ⟨d, raw, rfl, (uDigits_iff _).2 hd, hl, hc.1, hc.2.1, hc.2.2, ?_⟩
      by_cases hg : HasGroup 2 raw
      · rw [(C59_lgtin _ n).2.2.1 d raw rfl ((uDigits_iff _).2 hd) hl hc.1 hc.2.1 hc.2.2 hg] at h
        cases h
      · exact ⟨hg, (key d raw hd hl hc hg).2.1 h⟩
    · rintro ⟨d, raw, rfl, hd, hl, hc, h1, h2, hg, h⟩
      exact (key d raw ((uDigits_iff _).1 hd) hl ⟨hc, h1, h2⟩ hg).2.2 h

/-- UPUI: the element strings that raise ValueError or OverflowError. -/
theorem C70_upui_element (s : Str) (n : Nat) :
    (UPUI.fromGs1ElementString s n = .error .value ↔ ∃ d raw, s = py "(01)" ++ (d ++ (py "(235)" ++ raw)) ∧ UDigits d ∧ d.length = 14 ∧ (∀ a ∈ raw, a ∈ gs82) ∧ 1 ≤ raw.length ∧ raw.length ≤ 28 ∧
      1 ≤ n ∧ PercentsValueError (escape raw)) ∧
    (UPUI.fromGs1ElementString s n = .error .overflow ↔ ∃ d raw, s = py "(01)" ++ (d ++ (py "(235)" ++ raw)) ∧ UDigits d ∧ d.length = 14 ∧ (∀ a ∈ raw, a ∈ gs82) ∧ 1 ≤ raw.length ∧ raw.length ≤ 28 ∧
      1 ≤ n ∧ PercentsOverflow (escape raw)) := by
  have key : ∀ d raw, Dec d → d.length = 14 → ((∀ a ∈ raw, a ∈ gs82) ∧ 1 ≤ raw.length ∧ raw.length ≤ 28) →
      (UPUI.fromGs1ElementString (py "(01)" ++ (d ++ (py "(235)" ++ raw))) n = .error .value ↔ 1 ≤ n ∧ PercentsValueError (escape raw)) ∧
      (UPUI.fromGs1ElementString (py "(01)" ++ (d ++ (py "(235)" ++ raw))) n = .error .overflow ↔ 1 ≤ n ∧ PercentsOverflow (escape raw)) := by
    intro d raw hd hl hc
    cases d with
    | nil => simp at hl
    | cons i d => ?_
    have l1 : (sliceI (i :: d) 1 (1 + (n : Int))).length = min 14 (1 + n) - 1 := by
      rw [len_sliceI, hl, show clampIdx 14 (1 + (n : Int)) = min 14 (1 + n) from clamp70 14 n 1, show clampIdx 14 1 = 1 from rfl]; omega
    have l2 : (sliceI (i :: d) (1 + (n : Int)) (-1)).length = 13 - min 14 (1 + n) := by
      rw [len_sliceI, hl, show clampIdx 14 (1 + (n : Int)) = min 14 (1 + n) from clamp70 14 n 1, show clampIdx 14 (-1) = 13 from rfl]; omega
    have hser := serial_escape1 hc.1 hc.2.1
    obtain ⟨t1, t2⟩ := upui_text (S := escape raw) (C := sliceI (i :: d) 1 (1 + (n : Int))) (I := i :: sliceI (i :: d) (1 + (n : Int)) (-1)) ((uDigits_iff _).2 (dec_slice hd _ _)) ((uDigits_iff _).2 (Dec.cons.2 ⟨(Dec.cons.1 hd).1, dec_slice hd _ _⟩))
    rw [UPUI.from_eq n hd hl hc]
    exact ⟨t1.trans ⟨fun ⟨q0, _, h⟩ => ⟨by have := List.length_pos_iff.2 q0; rw [l1] at this; omega, h⟩, fun ⟨n1, h⟩ => ⟨ne_nil_of_length l1 (by omega), hser, h⟩⟩,
      t2.trans ⟨fun ⟨q0, _, h⟩ => ⟨by have := List.length_pos_iff.2 q0; rw [l1] at this; omega, h⟩, fun ⟨n1, h⟩ => ⟨ne_nil_of_length l1 (by omega), hser, h⟩⟩⟩
  have shaped : ∀ e, UPUI.fromGs1ElementString s n = .error e → e ≠ .convert → ∃ d raw, Dec d ∧ d.length = 14 ∧
      ((∀ a ∈ raw, a ∈ gs82) ∧ 1 ≤ raw.length ∧ raw.length ≤ 28) ∧ s = py "(01)" ++ (d ++ (py "(235)" ++ raw)) := by
    intro e h he
    cases hm : Rx.upuiElem.fullmatch s with
    | true =>
      obtain ⟨d, raw, ⟨hd, hl⟩, hc, e⟩ := (UPUI.elem_lang s).1 hm
      exact ⟨d, raw, hd, hl, hc, e⟩
    | false =>
      unfold UPUI.fromGs1ElementString at h
      rw [hm] at h
      injection h with h
      exact absurd h.symm he
  constructor
  · constructor
    · intro h
      obtain ⟨d, raw, hd, hl, hc, rfl⟩ := shaped _ h (by decide)
      exact ⟨d, raw, rfl, (uDigits_iff _).2 hd, hl, hc.1, hc.2.1, hc.2.2, (key d raw hd hl hc).1.1 h⟩
    · rintro ⟨d, raw, rfl, hd, hl, hc, h1, h2, h⟩
      exact (key d raw ((uDigits_iff _).1 hd) hl ⟨hc, h1, h2⟩).1.2 h
  · constructor
    · intro h
      obtain ⟨d, raw, hd, hl, hc, rfl⟩ := shaped _ h (by decide)
      exact ⟨d, raw, rfl, (uDigits_iff _).2 hd, hl, hc.1, hc.2.1, hc.2.2, (key d raw hd hl hc).2.1 h⟩
    · rintro ⟨d, raw, rfl, hd, hl, hc, h1, h2, h⟩
      exact (key d raw ((uDigits_iff _).1 hd) hl ⟨hc, h1, h2⟩).2.2 h

/-- SGLN: the element strings that raise ValueError or OverflowError. -/
theorem C70_sgln_element (s : Str) (n : Nat) :
    (SGLN.fromGs1ElementString s n = .error .value ↔ ∃ d raw, s = py "(414)" ++ (d ++ (py "(254)" ++ raw)) ∧ UDigits d ∧ d.length = 13 ∧ (∀ a ∈ raw, a ∈ gs82) ∧ 1 ≤ raw.length ∧ raw.length ≤ 20 ∧
      (HasGroup 3 raw ∨ (6 ≤ n ∧ n ≤ 12 ∧ PercentsValueError (escape raw)))) ∧
    (SGLN.fromGs1ElementString s n = .error .overflow ↔ ∃ d raw, s = py "(414)" ++ (d ++ (py "(254)" ++ raw)) ∧ UDigits d ∧ d.length = 13 ∧ (∀ a ∈ raw, a ∈ gs82) ∧ 1 ≤ raw.length ∧ raw.length ≤ 20 ∧
      ¬ HasGroup 3 raw ∧ 6 ≤ n ∧ n ≤ 12 ∧ PercentsOverflow (escape raw)) := by
  have key : ∀ d raw, Dec d → d.length = 13 → ((∀ a ∈ raw, a ∈ gs82) ∧ 1 ≤ raw.length ∧ raw.length ≤ 20) → ¬ HasGroup 3 raw →
      (SGLN.fromGs1ElementString (py "(414)" ++ (d ++ (py "(254)" ++ raw))) n = .error .value ↔ 6 ≤ n ∧ n ≤ 12 ∧ PercentsValueError (escape raw)) ∧
      (SGLN.fromGs1ElementString (py "(414)" ++ (d ++ (py "(254)" ++ raw))) n = .error .overflow ↔ 6 ≤ n ∧ n ≤ 12 ∧ PercentsOverflow (escape raw)) := by
    intro d raw hd hl hc hg
    have l1 : (sliceToI d (n : Int)).length = min 13 n := by
      rw [len_sliceToI, hl, clamp70']; omega
    have l2 : (sliceI d (n : Int) (-1)).length = 12 - min 13 n := by
      rw [len_sliceI, hl, clamp70', show clampIdx 13 (-1) = 12 from rfl]; omega
    have hser := serial_escape1 hc.1 hc.2.1
    obtain ⟨t1, t2⟩ := sgln_text (S := escape raw) (C := sliceToI d (n : Int)) (I := sliceI d (n : Int) (-1)) ((uDigits_iff _).2 (fun a ha => hd a (List.mem_of_mem_take ha))) ((uDigits_iff _).2 (dec_slice hd _ _))
    rw [SGLN.from_eq n hd hl hc hg]
    exact ⟨t1.trans ⟨fun ⟨q0, q1, q2, _, _, h⟩ => ⟨by rw [l1] at q1; omega, by rw [l1] at q2; omega, h⟩, fun ⟨n1, n2, h⟩ => ⟨by rw [l1, l2]; omega, by rw [l1]; omega, by rw [l1]; omega, by rw [unesc_escape]; exact hc.2.2, hser, h⟩⟩,
      t2.trans ⟨fun ⟨q0, q1, q2, _, _, h⟩ => ⟨by rw [l1] at q1; omega, by rw [l1] at q2; omega, h⟩, fun ⟨n1, n2, h⟩ => ⟨by rw [l1, l2]; omega, by rw [l1]; omega, by rw [l1]; omega, by rw [unesc_escape]; exact hc.2.2, hser, h⟩⟩⟩
  have shaped : ∀ e, SGLN.fromGs1ElementString s n = .error e → e ≠ .convert → ∃ d raw, Dec d ∧ d.length = 13 ∧
      ((∀ a ∈ raw, a ∈ gs82) ∧ 1 ≤ raw.length ∧ raw.length ≤ 20) ∧ s = py "(414)" ++ (d ++ (py "(254)" ++ raw)) := by
    intro e h he
    cases hm : Rx.sglnElem.fullmatch s with
    | true =>
      obtain ⟨d, raw, ⟨hd, hl⟩, hc, e⟩ := (SGLN.elem_lang s).1 hm
      exact ⟨d, raw, hd, hl, hc, e⟩
    | false =>
      unfold SGLN.fromGs1ElementString at h
      rw [hm] at h
      injection h with h
      exact absurd h.symm he
  constructor
  · constructor
    · intro h
      obtain ⟨d, raw, hd, hl, hc, rfl⟩ := shaped _ h (by decide)
      refine ⟨d, raw, rfl, (uDigits_iff _).2 hd, hl, hc.1, hc.2.1, hc.2.2, ?_⟩
      by_cases hg : HasGroup 3 raw
      · exact .inl hg
      · exact .inr ((key d raw hd hl hc hg).1.1 h)
    · rintro ⟨d, raw, rfl, hd, hl, hc, h1, h2, h⟩
      by_cases hg : HasGroup 3 raw
      · exact (C59_sgln _ n).2.2.1 d raw rfl hd hl hc h1 h2 hg
      · exact (key d raw ((uDigits_iff _).1 hd) hl ⟨hc, h1, h2⟩ hg).1.2 (h.resolve_left hg)
  · constructor
    · intro h
      obtain ⟨d, raw, hd, hl, hc, rfl⟩ := shaped _ h (by decide)
      refine ⟨d, raw, rfl, (uDigits_iff _).2 hd, hl, hc.1, hc.2.1, hc.2.2, ?_⟩
      by_cases hg : HasGroup 3 raw
      · rw [(C59_sgln _ n).2.2.1 d raw rfl ((uDigits_iff _).2 hd) hl hc.1 hc.2.1 hc.2.2 hg] at h
        cases h
      · exact ⟨hg, (key d raw hd hl hc hg).2.1 h⟩
    · rintro ⟨d, raw, rfl, hd, hl, hc, h1, h2, hg, h⟩
      exact (key d raw ((uDigits_iff _).1 hd) hl ⟨hc, h1, h2⟩ hg).2.2 h

/-- GRAI: the element strings that raise ValueError or OverflowError. -/
theorem C70_grai_element (s : Str) (n : Nat) :
    (GRAI.fromGs1ElementString s n = .error .value ↔ ∃ d raw, s = py "(8003)0" ++ (d ++ raw) ∧ UDigits d ∧ d.length = 13 ∧ (∀ a ∈ raw, a ∈ gs82) ∧ 1 ≤ raw.length ∧ raw.length ≤ 16 ∧
      1 ≤ n ∧ PercentsValueError (escape raw)) ∧
    (GRAI.fromGs1ElementString s n = .error .overflow ↔ ∃ d raw, s = py "(8003)0" ++ (d ++ raw) ∧ UDigits d ∧ d.length = 13 ∧ (∀ a ∈ raw, a ∈ gs82) ∧ 1 ≤ raw.length ∧ raw.length ≤ 16 ∧
      1 ≤ n ∧ PercentsOverflow (escape raw)) := by
  have key : ∀ d raw, Dec d → d.length = 13 → ((∀ a ∈ raw, a ∈ gs82) ∧ 1 ≤ raw.length ∧ raw.length ≤ 16) →
      (GRAI.fromGs1ElementString (py "(8003)0" ++ (d ++ raw)) n = .error .value ↔ 1 ≤ n ∧ PercentsValueError (escape raw)) ∧
      (GRAI.fromGs1ElementString (py "(8003)0" ++ (d ++ raw)) n = .error .overflow ↔ 1 ≤ n ∧ PercentsOverflow (escape raw)) := by
    intro d raw hd hl hc
    have l1 : (sliceToI d (n : Int)).length = min 13 n := by
      rw [len_sliceToI, hl, clamp70']; omega
    have l2 : (sliceI d (n : Int) (-1)).length = 12 - min 13 n := by
      rw [len_sliceI, hl, clamp70', show clampIdx 13 (-1) = 12 from rfl]; omega
    have hser := serial_escape1 hc.1 hc.2.1
    obtain ⟨t1, t2⟩ := grai_text (S := escape raw) (C := sliceToI d (n : Int)) (I := sliceI d (n : Int) (-1)) ((uDigits_iff _).2 (fun a ha => hd a (List.mem_of_mem_take ha))) ((uDigits_iff _).2 (dec_slice hd _ _))
    rw [GRAI.from_eq n hd hl hc]
    exact ⟨t1.trans ⟨fun ⟨q0, _, h⟩ => ⟨by have := List.length_pos_iff.2 q0; rw [l1] at this; omega, h⟩, fun ⟨n1, h⟩ => ⟨ne_nil_of_length l1 (by omega), hser, h⟩⟩,
      t2.trans ⟨fun ⟨q0, _, h⟩ => ⟨by have := List.length_pos_iff.2 q0; rw [l1] at this; omega, h⟩, fun ⟨n1, h⟩ => ⟨ne_nil_of_length l1 (by omega), hser, h⟩⟩⟩
  have shaped : ∀ e, GRAI.fromGs1ElementString s n = .error e → e ≠ .convert → ∃ d raw, Dec d ∧ d.length = 13 ∧
      ((∀ a ∈ raw, a ∈ gs82) ∧ 1 ≤ raw.length ∧ raw.length ≤ 16) ∧ s = py "(8003)0" ++ (d ++ raw) := by
    intro e h he
    cases hm : Rx.graiElem.fullmatch s with
    | true =>
      obtain ⟨d, raw, ⟨hd, hl⟩, hc, e⟩ := (GRAI.elem_lang s).1 hm
      exact ⟨d, raw, hd, hl, hc, e⟩
    | false =>
      unfold GRAI.fromGs1ElementString at h
      rw [hm] at h
      injection h with h
      exact absurd h.symm he
  constructor
  · constructor
    · intro h
      obtain ⟨d, raw, hd, hl, hc, rfl⟩ := shaped _ h (by decide)
      exact ⟨d, raw, rfl, (uDigits_iff _).2 hd, hl, hc.1, hc.2.1, hc.2.2, (key d raw hd hl hc).1.1 h⟩
    · rintro ⟨d, raw, rfl, hd, hl, hc, h1, h2, h⟩
      exact (key d raw ((uDigits_iff _).1 hd) hl ⟨hc, h1, h2⟩).1.2 h
  · constructor
    · intro h
      obtain ⟨d, raw, hd, hl, hc, rfl⟩ := shaped _ h (by decide)
      exact ⟨d, raw, rfl, (uDigits_iff _).2 hd, hl, hc.1, hc.2.1, hc.2.2, (key d raw hd hl hc).2.1 h⟩
    · rintro ⟨d, raw, rfl, hd, hl, hc, h1, h2, h⟩
      exact (key d raw ((uDigits_iff _).1 hd) hl ⟨hc, h1, h2⟩).2.2 h

/-- GDTI: the element strings that raise ValueError or OverflowError. -/
theorem C70_gdti_element (s : Str) (n : Nat) :
    (GDTI.fromGs1ElementString s n = .error .value ↔ ∃ d raw, s = py "(253)" ++ (d ++ raw) ∧ UDigits d ∧ d.length = 13 ∧ (∀ a ∈ raw, a ∈ gs82) ∧ 1 ≤ raw.length ∧ raw.length ≤ 17 ∧
      1 ≤ n ∧ PercentsValueError (escape raw)) ∧
    (GDTI.fromGs1ElementString s n = .error .overflow ↔ ∃ d raw, s = py "(253)" ++ (d ++ raw) ∧ UDigits d ∧ d.length = 13 ∧ (∀ a ∈ raw, a ∈ gs82) ∧ 1 ≤ raw.length ∧ raw.length ≤ 17 ∧
      1 ≤ n ∧ PercentsOverflow (escape raw)) := by
  have key : ∀ d raw, Dec d → d.length = 13 → ((∀ a ∈ raw, a ∈ gs82) ∧ 1 ≤ raw.length ∧ raw.length ≤ 17) →
      (GDTI.fromGs1ElementString (py "(253)" ++ (d ++ raw)) n = .error .value ↔ 1 ≤ n ∧ PercentsValueError (escape raw)) ∧
      (GDTI.fromGs1ElementString (py "(253)" ++ (d ++ raw)) n = .error .overflow ↔ 1 ≤ n ∧ PercentsOverflow (escape raw)) := by
    intro d raw hd hl hc
    have l1 : (sliceToI d (n : Int)).length = min 13 n := by
      rw [len_sliceToI, hl, clamp70']; omega
    have l2 : (sliceI d (n : Int) (-1)).length = 12 - min 13 n := by
      rw [len_sliceI, hl, clamp70', show clampIdx 13 (-1) = 12 from rfl]; omega
    have hser := serial_escape1 hc.1 hc.2.1
    obtain ⟨t1, t2⟩ := gdti_text (S := escape raw) (C := sliceToI d (n : Int)) (I := sliceI d (n : Int) (-1)) ((uDigits_iff _).2 (fun a ha => hd a (List.mem_of_mem_take ha))) ((uDigits_iff _).2 (dec_slice hd _ _))
    rw [GDTI.from_eq n hd hl hc]
    exact ⟨t1.trans ⟨fun ⟨q0, _, h⟩ => ⟨by have := List.length_pos_iff.2 q0; rw [l1] at this; omega, h⟩, fun ⟨n1, h⟩ => ⟨ne_nil_of_length l1 (by omega), hser, h⟩⟩,
      t2.trans ⟨fun ⟨q0, _, h⟩ => ⟨by have := List.length_pos_iff.2 q0; rw [l1] at this; omega, h⟩, fun ⟨n1, h⟩ => ⟨ne_nil_of_length l1 (by omega), hser, h⟩⟩⟩
  have shaped : ∀ e, GDTI.fromGs1ElementString s n = .error e → e ≠ .convert → ∃ d raw, Dec d ∧ d.length = 13 ∧
      ((∀ a ∈ raw, a ∈ gs82) ∧ 1 ≤ raw.length ∧ raw.length ≤ 17) ∧ s = py "(253)" ++ (d ++ raw) := by
    intro e h he
    cases hm : Rx.gdtiElem.fullmatch s with
    | true =>
      obtain ⟨d, raw, ⟨hd, hl⟩, hc, e⟩ := (GDTI.elem_lang s).1 hm
      exact ⟨d, raw, hd, hl, hc, e⟩
    | false =>
      unfold GDTI.fromGs1ElementString at h
      rw [hm] at h
      injection h with h
      exact absurd h.symm he
  constructor
  · constructor
    · intro h
      obtain ⟨d, raw, hd, hl, hc, rfl⟩ := shaped _ h (by decide)
      exact ⟨d, raw, rfl, (uDigits_iff _).2 hd, hl, hc.1, hc.2.1, hc.2.2, (key d raw hd hl hc).1.1 h⟩
    · rintro ⟨d, raw, rfl, hd, hl, hc, h1, h2, h⟩
      exact (key d raw ((uDigits_iff _).1 hd) hl ⟨hc, h1, h2⟩).1.2 h
  · constructor
    · intro h
      obtain ⟨d, raw, hd, hl, hc, rfl⟩ := shaped _ h (by decide)
      exact ⟨d, raw, rfl, (uDigits_iff _).2 hd, hl, hc.1, hc.2.1, hc.2.2, (key d raw hd hl hc).2.1 h⟩
    · rintro ⟨d, raw, rfl, hd, hl, hc, h1, h2, h⟩
      exact (key d raw ((uDigits_iff _).1 hd) hl ⟨hc, h1, h2⟩).2.2 h

/-- ITIP: the element strings that raise ValueError or OverflowError. -/
theorem C70_itip_element (s : Str) (n : Nat) :
    (ITIP.fromGs1ElementString s n = .error .value ↔ ∃ d raw, s = py "(8006)" ++ (d ++ (py "(21)" ++ raw)) ∧ UDigits d ∧ d.length = 18 ∧ (∀ a ∈ raw, a ∈ gs82) ∧ 1 ≤ raw.length ∧ raw.length ≤ 20 ∧
      1 ≤ n ∧ PercentsValueError (escape raw)) ∧
    (ITIP.fromGs1ElementString s n = .error .overflow ↔ ∃ d raw, s = py "(8006)" ++ (d ++ (py "(21)" ++ raw)) ∧ UDigits d ∧ d.length = 18 ∧ (∀ a ∈ raw, a ∈ gs82) ∧ 1 ≤ raw.length ∧ raw.length ≤ 20 ∧
      1 ≤ n ∧ PercentsOverflow (escape raw)) := by
  have key : ∀ d raw, Dec d → d.length = 18 → ((∀ a ∈ raw, a ∈ gs82) ∧ 1 ≤ raw.length ∧ raw.length ≤ 20) →
      (ITIP.fromGs1ElementString (py "(8006)" ++ (d ++ (py "(21)" ++ raw))) n = .error .value ↔ 1 ≤ n ∧ PercentsValueError (escape raw)) ∧
      (ITIP.fromGs1ElementString (py "(8006)" ++ (d ++ (py "(21)" ++ raw))) n = .error .overflow ↔ 1 ≤ n ∧ PercentsOverflow (escape raw)) := by
    intro d raw hd hl hc
    cases d with
    | nil => simp at hl
    | cons i d => ?_
    have l1 : (sliceI (i :: d) 1 (1 + (n : Int))).length = min 18 (1 + n) - 1 := by
      rw [len_sliceI, hl, show clampIdx 18 (1 + (n : Int)) = min 18 (1 + n) from clamp70 18 n 1, show clampIdx 18 1 = 1 from rfl]; omega
    have l2 : (sliceI (i :: d) (1 + (n : Int)) (-5)).length = 13 - min 18 (1 + n) := by
      rw [len_sliceI, hl, show clampIdx 18 (1 + (n : Int)) = min 18 (1 + n) from clamp70 18 n 1, show clampIdx 18 (-5) = 13 from rfl]; omega
    have l3 : (slice (i :: d) 14 16).length = 2 := by unfold slice; rw [List.length_drop, List.length_take, hl]; rfl
    have l4 : ((i :: d).drop 16).length = 2 := by rw [List.length_drop, hl]
    have hser := serial_escape1 hc.1 hc.2.1
    obtain ⟨t1, t2⟩ := itip_text (S := escape raw) (C := sliceI (i :: d) 1 (1 + (n : Int))) (I := i :: sliceI (i :: d) (1 + (n : Int)) (-5)) (A := slice (i :: d) 14 16) (B := (i :: d).drop 16) ((uDigits_iff _).2 (dec_slice hd _ _)) ((uDigits_iff _).2 (Dec.cons.2 ⟨(Dec.cons.1 hd).1, dec_slice hd _ _⟩))
      ((uDigits_iff _).2 fun a ha => hd a (List.mem_of_mem_take (List.mem_of_mem_drop ha))) ((uDigits_iff _).2 fun a ha => hd a (List.mem_of_mem_drop ha))
    rw [ITIP.from_eq n hd hl hc]
    exact ⟨t1.trans ⟨fun ⟨q0, _, _, _, _, h⟩ => ⟨by have := List.length_pos_iff.2 q0; rw [l1] at this; omega, h⟩, fun ⟨n1, h⟩ => ⟨ne_nil_of_length l1 (by omega), by simp, ne_nil_of_length l3 (by omega), ne_nil_of_length l4 (by omega), hser, h⟩⟩,
      t2.trans ⟨fun ⟨q0, _, _, _, _, h⟩ => ⟨by have := List.length_pos_iff.2 q0; rw [l1] at this; omega, h⟩, fun ⟨n1, h⟩ => ⟨ne_nil_of_length l1 (by omega), by simp, ne_nil_of_length l3 (by omega), ne_nil_of_length l4 (by omega), hser, h⟩⟩⟩
  have shaped : ∀ e, ITIP.fromGs1ElementString s n = .error e → e ≠ .convert → ∃ d raw, Dec d ∧ d.length = 18 ∧
      ((∀ a ∈ raw, a ∈ gs82) ∧ 1 ≤ raw.length ∧ raw.length ≤ 20) ∧ s = py "(8006)" ++ (d ++ (py "(21)" ++ raw)) := by
    intro e h he
    cases hm : Rx.itipElem.fullmatch s with
    | true =>
      obtain ⟨d, raw, ⟨hd, hl⟩, hc, e⟩ := (ITIP.elem_lang s).1 hm
      exact ⟨d, raw, hd, hl, hc, e⟩
    | false =>
      unfold ITIP.fromGs1ElementString at h
      rw [hm] at h
      injection h with h
      exact absurd h.symm he
  constructor
  · constructor
    · intro h
      obtain ⟨d, raw, hd, hl, hc, rfl⟩ := shaped _ h (by decide)
      exact ⟨d, raw, rfl, (uDigits_iff _).2 hd, hl, hc.1, hc.2.1, hc.2.2, (key d raw hd hl hc).1.1 h⟩
    · rintro ⟨d, raw, rfl, hd, hl, hc, h1, h2, h⟩
      exact (key d raw ((uDigits_iff _).1 hd) hl ⟨hc, h1, h2⟩).1.2 h
  · constructor
    · intro h
      obtain ⟨d, raw, hd, hl, hc, rfl⟩ := shaped _ h (by decide)
      exact ⟨d, raw, rfl, (uDigits_iff _).2 hd, hl, hc.1, hc.2.1, hc.2.2, (key d raw hd hl hc).2.1 h⟩
    · rintro ⟨d, raw, rfl, hd, hl, hc, h1, h2, h⟩
      exact (key d raw ((uDigits_iff _).1 hd) hl ⟨hc, h1, h2⟩).2.2 h

/-- GIAI: parsing an element string is constructing from the URI that has a dot behind the first `n` characters of the body (whatever they
are) and the remaining characters escaped; C67 tells what that yields. -/
theorem C70_giai_element (b : Str) (n : Nat) :
    ((∃ d c, b = d ++ c ∧ UDigits d ∧ 6 ≤ d.length ∧ d.length ≤ 12 ∧ (∀ a ∈ c, a ∈ gs82) ∧ 1 ≤ c.length ∧ c.length ≤ 24) →
      GIAI.fromGs1ElementString (py "(8004)" ++ b) n = GIAI.new (py "urn:epc:id:giai:" ++ joinWith '.' [b.take n, escape (b.drop n)])) ∧
    ((¬ ∃ d c, b = d ++ c ∧ UDigits d ∧ 6 ≤ d.length ∧ d.length ≤ 12 ∧ (∀ a ∈ c, a ∈ gs82) ∧ 1 ≤ c.length ∧ c.length ≤ 24) →
      GIAI.fromGs1ElementString (py "(8004)" ++ b) n = .error .convert) ∧
    (∀ s, (¬ ∃ b, s = py "(8004)" ++ b) → GIAI.fromGs1ElementString s n = .error .convert) := by
  have no : ∀ s, Rx.giaiElem.fullmatch s = false → GIAI.fromGs1ElementString s n = .error .convert := by
    intro s hm
    unfold GIAI.fromGs1ElementString
    rw [hm]
    rfl
  refine ⟨?_, ?_, ?_⟩
  · rintro ⟨d, c, rfl, hd, h1, h2, h3, h4, h5⟩
    have hm := (GIAI.elem_lang (py "(8004)" ++ (d ++ c))).2 ⟨d, c, ⟨(uDigits_iff _).1 hd, h1, h2⟩, ⟨h3, h4, h5⟩, rfl⟩
    have hc : clampIdx (py "(8004)" ++ (d ++ c)).length (6 + (n : Int)) = min (py "(8004)" ++ (d ++ c)).length (6 + n) := clamp70 _ n 6
    have hk : clampIdx (py "(8004)" ++ (d ++ c)).length ((6 : Nat) : Int) = 6 := by
      rw [clamp70', List.length_append]; exact Nat.min_eq_right (Nat.le_add_right _ _)
    have e1 : sliceI (py "(8004)" ++ (d ++ c)) (6 : Nat) (6 + (n : Int)) = (d ++ c).take n := by
      unfold sliceI slice
      rw [hc, hk, List.take_eq_take_min (l := py "(8004)" ++ (d ++ c)) (i := min _ _), Nat.min_assoc, Nat.min_comm (6 + n), ← Nat.min_assoc, Nat.min_self, Nat.min_comm,
        ← List.take_eq_take_min, List.drop_take]
      rw [show (py "(8004)" ++ (d ++ c)).drop 6 = d ++ c from rfl, Nat.add_sub_cancel_left]
    have e2 : sliceFromI (py "(8004)" ++ (d ++ c)) (6 + (n : Int)) = (d ++ c).drop n := by
      unfold sliceFromI
      rw [hc]
      have hlen : (py "(8004)" ++ (d ++ c)).length = 6 + (d ++ c).length := by rw [List.length_append]; rfl
      by_cases h : 6 + n ≤ (py "(8004)" ++ (d ++ c)).length
      · rw [Nat.min_eq_right h, ← List.drop_drop]; rfl
      · rw [Nat.min_eq_left (by omega), List.drop_length, List.drop_eq_nil_of_le (by omega)]
    rw [GIAI.from_eq n hm, e1, e2]
    rfl
  · intro h
    refine no _ ?_
    cases hm : Rx.giaiElem.fullmatch (py "(8004)" ++ b) with
    | false => rfl
    | true =>
      obtain ⟨d, c, ⟨hd, h1, h2⟩, ⟨h3, h4, h5⟩, e⟩ := (GIAI.elem_lang _).1 hm
      exact absurd ⟨d, c, List.append_cancel_left e, (uDigits_iff _).2 hd, h1, h2, h3, h4, h5⟩ h
  · intro s h
    refine no _ ?_
    cases hm : Rx.giaiElem.fullmatch s with
    | false => rfl
    | true =>
      obtain ⟨d, c, _, _, e⟩ := (GIAI.elem_lang _).1 hm
      exact absurd ⟨_, e⟩ h

/-- GINC: parsing an element string is constructing from the URI that has a dot behind the first `n` characters of the body (whatever they
are) and the remaining characters escaped; C67 tells what that yields. -/
theorem C70_ginc_element (b : Str) (n : Nat) :
    ((∃ d c, b = d ++ c ∧ UDigits d ∧ 6 ≤ d.length ∧ d.length ≤ 12 ∧ (∀ a ∈ c, a ∈ gs82) ∧ 1 ≤ c.length ∧ c.length ≤ 24) →
      GINC.fromGs1ElementString (py "(401)" ++ b) n = GINC.new (py "urn:epc:id:ginc:" ++ joinWith '.' [b.take n, escape (b.drop n)])) ∧
    ((¬ ∃ d c, b = d ++ c ∧ UDigits d ∧ 6 ≤ d.length ∧ d.length ≤ 12 ∧ (∀ a ∈ c, a ∈ gs82) ∧ 1 ≤ c.length ∧ c.length ≤ 24) →
      GINC.fromGs1ElementString (py "(401)" ++ b) n = .error .convert) ∧
    (∀ s, (¬ ∃ b, s = py "(401)" ++ b) → GINC.fromGs1ElementString s n = .error .convert) := by
  have no : ∀ s, Rx.gincElem.fullmatch s = false → GINC.fromGs1ElementString s n = .error .convert := by
    intro s hm
    unfold GINC.fromGs1ElementString
    rw [hm]
    rfl
  refine ⟨?_, ?_, ?_⟩
  · rintro ⟨d, c, rfl, hd, h1, h2, h3, h4, h5⟩
    have hm := (GINC.elem_lang (py "(401)" ++ (d ++ c))).2 ⟨d, c, ⟨(uDigits_iff _).1 hd, h1, h2⟩, ⟨h3, h4, h5⟩, rfl⟩
    have hc : clampIdx (py "(401)" ++ (d ++ c)).length (5 + (n : Int)) = min (py "(401)" ++ (d ++ c)).length (5 + n) := clamp70 _ n 5
    have hk : clampIdx (py "(401)" ++ (d ++ c)).length ((5 : Nat) : Int) = 5 := by
      rw [clamp70', List.length_append]; exact Nat.min_eq_right (Nat.le_add_right _ _)
    have e1 : sliceI (py "(401)" ++ (d ++ c)) (5 : Nat) (5 + (n : Int)) = (d ++ c).take n := by
      unfold sliceI slice
      rw [hc, hk, List.take_eq_take_min (l := py "(401)" ++ (d ++ c)) (i := min _ _), Nat.min_assoc, Nat.min_comm (5 + n), ← Nat.min_assoc, Nat.min_self, Nat.min_comm,
        ← List.take_eq_take_min, List.drop_take]
      rw [show (py "(401)" ++ (d ++ c)).drop 5 = d ++ c from rfl, Nat.add_sub_cancel_left]
    have e2 : sliceFromI (py "(401)" ++ (d ++ c)) (5 + (n : Int)) = (d ++ c).drop n := by
      unfold sliceFromI
      rw [hc]
      have hlen : (py "(401)" ++ (d ++ c)).length = 5 + (d ++ c).length := by rw [List.length_append]; rfl
      by_cases h : 5 + n ≤ (py "(401)" ++ (d ++ c)).length
      · rw [Nat.min_eq_right h, ← List.drop_drop]; rfl
      · rw [Nat.min_eq_left (by omega), List.drop_length, List.drop_eq_nil_of_le (by omega)]
    rw [GINC.from_eq n hm, e1, e2]
    rfl
  · intro h
    refine no _ ?_
    cases hm : Rx.gincElem.fullmatch (py "(401)" ++ b) with
    | false => rfl
    | true =>
      obtain ⟨d, c, ⟨hd, h1, h2⟩, ⟨h3, h4, h5⟩, e⟩ := (GINC.elem_lang _).1 hm
      exact absurd ⟨d, c, List.append_cancel_left e, (uDigits_iff _).2 hd, h1, h2, h3, h4, h5⟩ h
  · intro s h
    refine no _ ?_
    cases hm : Rx.gincElem.fullmatch s with
    | false => rfl
    | true =>
      obtain ⟨d, c, _, _, e⟩ := (GINC.elem_lang _).1 hm
      exact absurd ⟨_, e⟩ h

/-! ### The hypotheses are met, and all cases occur -/

example : SGTIN.fromGs1ElementString (py "(01)09521141123454(21)/xyz") 7 = .error .value ∧
    SGTIN.fromGs1ElementString (py "(01)09521141123454(21)/FFFFFFFF") 7 = .error .overflow ∧
    SGTIN.fromGs1ElementString (py "(01)09521141123454(21)/41") 7 = .error .convert ∧
    SGTIN.fromGs1ElementString (py "(01)09521141123454(21)/FFFFFFFF") 5 = .error .convert ∧
    GRAI.fromGs1ElementString (py "(8003)09521141123454/FFFFFFFF") 5 = .error .overflow := by decide +kernel

example : PercentsValueError (escape (py "/xyz")) :=
  ⟨py "2Fxyz", ⟨[], [], by decide, by simp, fun ⟨_, _, _, d, e, hp, _, hd, _⟩ => by
    have hd' := hd 'x'
    simp only [List.mem_cons, List.not_mem_nil, or_false] at hp
    rcases hp with rfl | rfl | rfl | rfl | rfl
    · rw [List.nil_append] at e
      exact absurd (hd' (by rw [← e]; decide)) (by decide)
    all_goals exact absurd (congrArg List.head? e) (by simp)⟩, fun n ⟨_, d, e, hp, _, hd, _⟩ => by
    have hd' := hd 'x'
    simp only [List.mem_cons, List.not_mem_nil, or_false] at hp
    rcases hp with rfl | rfl | rfl | rfl | rfl
    · rw [List.nil_append] at e
      exact absurd (hd' (by rw [← e]; decide)) (by decide)
    all_goals exact absurd (congrArg List.head? e) (by simp)⟩

end Epc
