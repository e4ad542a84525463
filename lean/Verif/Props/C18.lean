/-
C18: a tag URI of another scheme is rejected, and the general parser returns an object of the class named in the URI.

For every class the set of accepted tag URIs and the object made of each is given exactly.
Generated by tools/gen_c18.py.
-/
import Verif.Lemmas.ParseTag

namespace Epc
open Spec Re

/-- SGTIN: the accepted tag URIs are `urn:epc:tag:sgtin-SIZE:FILTER.BODY` with an accepted pure identity `urn:epc:id:sgtin:BODY`. -/
theorem C18_sgtin (t : Str) (x : SGTIN) : SGTIN.fromTagUri t = .ok x ↔
    ∃ size ∈ [py "96", py "198"], ∃ f body, UNumeral f ∧ t = py "urn:epc:tag:sgtin-" ++ size ++ ':' :: (f ++ '.' :: body) ∧
      SGTIN.new (py "urn:epc:id:sgtin:" ++ body) = .ok x := by
  constructor
  · intro h
    obtain ⟨cs, f, b, hf, rfl, h2⟩ := SGTIN.fromTagUri_iff.1 h
    cases cs
    · exact ⟨py "96", by simp, f, b, (uNumeral_iff f).2 hf, by simp [tagUriPrefix, SGTIN.Coding.value], h2⟩
    · exact ⟨py "198", by simp, f, b, (uNumeral_iff f).2 hf, by simp [tagUriPrefix, SGTIN.Coding.value], h2⟩
  · rintro ⟨size, hs, f, b, hf, rfl, h⟩
    simp only [List.mem_cons, List.not_mem_nil, or_false] at hs
    rcases hs with rfl | rfl
    · exact SGTIN.fromTagUri_iff.2 ⟨.sgtin96, f, b, (uNumeral_iff f).1 hf, by simp [tagUriPrefix, SGTIN.Coding.value], h⟩
    · exact SGTIN.fromTagUri_iff.2 ⟨.sgtin198, f, b, (uNumeral_iff f).1 hf, by simp [tagUriPrefix, SGTIN.Coding.value], h⟩

/-- SSCC: the accepted tag URIs are `urn:epc:tag:sscc-SIZE:FILTER.BODY` with an accepted pure identity `urn:epc:id:sscc:BODY`. -/
theorem C18_sscc (t : Str) (x : SSCC) : SSCC.fromTagUri t = .ok x ↔
    ∃ size ∈ [py "96"], ∃ f body, UNumeral f ∧ t = py "urn:epc:tag:sscc-" ++ size ++ ':' :: (f ++ '.' :: body) ∧
      SSCC.new (py "urn:epc:id:sscc:" ++ body) = .ok x := by
  constructor
  · intro h
    obtain ⟨cs, f, b, hf, rfl, h2⟩ := SSCC.fromTagUri_iff.1 h
    cases cs
    · exact ⟨py "96", by simp, f, b, (uNumeral_iff f).2 hf, by simp [tagUriPrefix, SSCC.Coding.value], h2⟩
  · rintro ⟨size, hs, f, b, hf, rfl, h⟩
    simp only [List.mem_singleton] at hs
    subst hs
    exact SSCC.fromTagUri_iff.2 ⟨.sscc96, f, b, (uNumeral_iff f).1 hf, by simp [tagUriPrefix, SSCC.Coding.value], h⟩

/-- SGLN: the accepted tag URIs are `urn:epc:tag:sgln-SIZE:FILTER.BODY` with an accepted pure identity `urn:epc:id:sgln:BODY`. -/
theorem C18_sgln (t : Str) (x : SGLN) : SGLN.fromTagUri t = .ok x ↔
    ∃ size ∈ [py "96", py "195"], ∃ f body, UNumeral f ∧ t = py "urn:epc:tag:sgln-" ++ size ++ ':' :: (f ++ '.' :: body) ∧
      SGLN.new (py "urn:epc:id:sgln:" ++ body) = .ok x := by
  constructor
  · intro h
    obtain ⟨cs, f, b, hf, rfl, h2⟩ := SGLN.fromTagUri_iff.1 h
    cases cs
    · exact ⟨py "96", by simp, f, b, (uNumeral_iff f).2 hf, by simp [tagUriPrefix, SGLN.Coding.value], h2⟩
    · exact ⟨py "195", by simp, f, b, (uNumeral_iff f).2 hf, by simp [tagUriPrefix, SGLN.Coding.value], h2⟩
  · rintro ⟨size, hs, f, b, hf, rfl, h⟩
    simp only [List.mem_cons, List.not_mem_nil, or_false] at hs
    rcases hs with rfl | rfl
    · exact SGLN.fromTagUri_iff.2 ⟨.sgln96, f, b, (uNumeral_iff f).1 hf, by simp [tagUriPrefix, SGLN.Coding.value], h⟩
    · exact SGLN.fromTagUri_iff.2 ⟨.sgln195, f, b, (uNumeral_iff f).1 hf, by simp [tagUriPrefix, SGLN.Coding.value], h⟩

/-- GRAI: the accepted tag URIs are `urn:epc:tag:grai-SIZE:FILTER.BODY` with an accepted pure identity `urn:epc:id:grai:BODY`. -/
theorem C18_grai (t : Str) (x : GRAI) : GRAI.fromTagUri t = .ok x ↔
    ∃ size ∈ [py "96", py "170"], ∃ f body, UNumeral f ∧ t = py "urn:epc:tag:grai-" ++ size ++ ':' :: (f ++ '.' :: body) ∧
      GRAI.new (py "urn:epc:id:grai:" ++ body) = .ok x := by
  constructor
  · intro h
    obtain ⟨cs, f, b, hf, rfl, h2⟩ := GRAI.fromTagUri_iff.1 h
    cases cs
    · exact ⟨py "96", by simp, f, b, (uNumeral_iff f).2 hf, by simp [tagUriPrefix, GRAI.Coding.value], h2⟩
    · exact ⟨py "170", by simp, f, b, (uNumeral_iff f).2 hf, by simp [tagUriPrefix, GRAI.Coding.value], h2⟩
  · rintro ⟨size, hs, f, b, hf, rfl, h⟩
    simp only [List.mem_cons, List.not_mem_nil, or_false] at hs
    rcases hs with rfl | rfl
    · exact GRAI.fromTagUri_iff.2 ⟨.grai96, f, b, (uNumeral_iff f).1 hf, by simp [tagUriPrefix, GRAI.Coding.value], h⟩
    · exact GRAI.fromTagUri_iff.2 ⟨.grai170, f, b, (uNumeral_iff f).1 hf, by simp [tagUriPrefix, GRAI.Coding.value], h⟩

/-- GIAI: the accepted tag URIs are `urn:epc:tag:giai-SIZE:FILTER.BODY` with an accepted pure identity `urn:epc:id:giai:BODY`. -/
theorem C18_giai (t : Str) (x : GIAI) : GIAI.fromTagUri t = .ok x ↔
    ∃ size ∈ [py "96", py "202"], ∃ f body, UNumeral f ∧ t = py "urn:epc:tag:giai-" ++ size ++ ':' :: (f ++ '.' :: body) ∧
      GIAI.new (py "urn:epc:id:giai:" ++ body) = .ok x := by
  constructor
  · intro h
    obtain ⟨cs, f, b, hf, rfl, h2⟩ := GIAI.fromTagUri_iff.1 h
    cases cs
    · exact ⟨py "96", by simp, f, b, (uNumeral_iff f).2 hf, by simp [tagUriPrefix, GIAI.Coding.value], h2⟩
    · exact ⟨py "202", by simp, f, b, (uNumeral_iff f).2 hf, by simp [tagUriPrefix, GIAI.Coding.value], h2⟩
  · rintro ⟨size, hs, f, b, hf, rfl, h⟩
    simp only [List.mem_cons, List.not_mem_nil, or_false] at hs
    rcases hs with rfl | rfl
    · exact GIAI.fromTagUri_iff.2 ⟨.giai96, f, b, (uNumeral_iff f).1 hf, by simp [tagUriPrefix, GIAI.Coding.value], h⟩
    · exact GIAI.fromTagUri_iff.2 ⟨.giai202, f, b, (uNumeral_iff f).1 hf, by simp [tagUriPrefix, GIAI.Coding.value], h⟩

/-- GSRN: the accepted tag URIs are `urn:epc:tag:gsrn-SIZE:FILTER.BODY` with an accepted pure identity `urn:epc:id:gsrn:BODY`. -/
theorem C18_gsrn (t : Str) (x : GSRN) : GSRN.fromTagUri t = .ok x ↔
    ∃ size ∈ [py "96"], ∃ f body, UNumeral f ∧ t = py "urn:epc:tag:gsrn-" ++ size ++ ':' :: (f ++ '.' :: body) ∧
      GSRN.new (py "urn:epc:id:gsrn:" ++ body) = .ok x := by
  constructor
  · intro h
    obtain ⟨cs, f, b, hf, rfl, h2⟩ := GSRN.fromTagUri_iff.1 h
    cases cs
    · exact ⟨py "96", by simp, f, b, (uNumeral_iff f).2 hf, by simp [tagUriPrefix, GSRN.Coding.value], h2⟩
  · rintro ⟨size, hs, f, b, hf, rfl, h⟩
    simp only [List.mem_singleton] at hs
    subst hs
    exact GSRN.fromTagUri_iff.2 ⟨.gsrn96, f, b, (uNumeral_iff f).1 hf, by simp [tagUriPrefix, GSRN.Coding.value], h⟩

/-- GSRNP: the accepted tag URIs are `urn:epc:tag:gsrnp-SIZE:FILTER.BODY` with an accepted pure identity `urn:epc:id:gsrnp:BODY`. -/
theorem C18_gsrnp (t : Str) (x : GSRNP) : GSRNP.fromTagUri t = .ok x ↔
    ∃ size ∈ [py "96"], ∃ f body, UNumeral f ∧ t = py "urn:epc:tag:gsrnp-" ++ size ++ ':' :: (f ++ '.' :: body) ∧
      GSRNP.new (py "urn:epc:id:gsrnp:" ++ body) = .ok x := by
  constructor
  · intro h
    obtain ⟨cs, f, b, hf, rfl, h2⟩ := GSRNP.fromTagUri_iff.1 h
    cases cs
    · exact ⟨py "96", by simp, f, b, (uNumeral_iff f).2 hf, by simp [tagUriPrefix, GSRNP.Coding.value], h2⟩
  · rintro ⟨size, hs, f, b, hf, rfl, h⟩
    simp only [List.mem_singleton] at hs
    subst hs
    exact GSRNP.fromTagUri_iff.2 ⟨.gsrnp96, f, b, (uNumeral_iff f).1 hf, by simp [tagUriPrefix, GSRNP.Coding.value], h⟩

/-- GDTI: the accepted tag URIs are `urn:epc:tag:gdti-SIZE:FILTER.BODY` with an accepted pure identity `urn:epc:id:gdti:BODY`. -/
theorem C18_gdti (t : Str) (x : GDTI) : GDTI.fromTagUri t = .ok x ↔
    ∃ size ∈ [py "96", py "174"], ∃ f body, UNumeral f ∧ t = py "urn:epc:tag:gdti-" ++ size ++ ':' :: (f ++ '.' :: body) ∧
      GDTI.new (py "urn:epc:id:gdti:" ++ body) = .ok x := by
  constructor
  · intro h
    obtain ⟨cs, f, b, hf, rfl, h2⟩ := GDTI.fromTagUri_iff.1 h
    cases cs
    · exact ⟨py "96", by simp, f, b, (uNumeral_iff f).2 hf, by simp [tagUriPrefix, GDTI.Coding.value], h2⟩
    · exact ⟨py "174", by simp, f, b, (uNumeral_iff f).2 hf, by simp [tagUriPrefix, GDTI.Coding.value], h2⟩
  · rintro ⟨size, hs, f, b, hf, rfl, h⟩
    simp only [List.mem_cons, List.not_mem_nil, or_false] at hs
    rcases hs with rfl | rfl
    · exact GDTI.fromTagUri_iff.2 ⟨.gdti96, f, b, (uNumeral_iff f).1 hf, by simp [tagUriPrefix, GDTI.Coding.value], h⟩
    · exact GDTI.fromTagUri_iff.2 ⟨.gdti174, f, b, (uNumeral_iff f).1 hf, by simp [tagUriPrefix, GDTI.Coding.value], h⟩

/-- CPI: the accepted tag URIs are `urn:epc:tag:cpi-SIZE:FILTER.BODY` with an accepted pure identity `urn:epc:id:cpi:BODY`. -/
theorem C18_cpi (t : Str) (x : CPI) : CPI.fromTagUri t = .ok x ↔
    ∃ size ∈ [py "96", py "var"], ∃ f body, UNumeral f ∧ t = py "urn:epc:tag:cpi-" ++ size ++ ':' :: (f ++ '.' :: body) ∧
      CPI.new (py "urn:epc:id:cpi:" ++ body) = .ok x := by
  constructor
  · intro h
    obtain ⟨cs, f, b, hf, rfl, h2⟩ := CPI.fromTagUri_iff.1 h
    cases cs
    · exact ⟨py "96", by simp, f, b, (uNumeral_iff f).2 hf, by simp [tagUriPrefix, CPI.Coding.value], h2⟩
    · exact ⟨py "var", by simp, f, b, (uNumeral_iff f).2 hf, by simp [tagUriPrefix, CPI.Coding.value], h2⟩
  · rintro ⟨size, hs, f, b, hf, rfl, h⟩
    simp only [List.mem_cons, List.not_mem_nil, or_false] at hs
    rcases hs with rfl | rfl
    · exact CPI.fromTagUri_iff.2 ⟨.cpi96, f, b, (uNumeral_iff f).1 hf, by simp [tagUriPrefix, CPI.Coding.value], h⟩
    · exact CPI.fromTagUri_iff.2 ⟨.cpiVar, f, b, (uNumeral_iff f).1 hf, by simp [tagUriPrefix, CPI.Coding.value], h⟩

/-- SGCN: the accepted tag URIs are `urn:epc:tag:sgcn-SIZE:FILTER.BODY` with an accepted pure identity `urn:epc:id:sgcn:BODY`. -/
theorem C18_sgcn (t : Str) (x : SGCN) : SGCN.fromTagUri t = .ok x ↔
    ∃ size ∈ [py "96"], ∃ f body, UNumeral f ∧ t = py "urn:epc:tag:sgcn-" ++ size ++ ':' :: (f ++ '.' :: body) ∧
      SGCN.new (py "urn:epc:id:sgcn:" ++ body) = .ok x := by
  constructor
  · intro h
    obtain ⟨cs, f, b, hf, rfl, h2⟩ := SGCN.fromTagUri_iff.1 h
    cases cs
    · exact ⟨py "96", by simp, f, b, (uNumeral_iff f).2 hf, by simp [tagUriPrefix, SGCN.Coding.value], h2⟩
  · rintro ⟨size, hs, f, b, hf, rfl, h⟩
    simp only [List.mem_singleton] at hs
    subst hs
    exact SGCN.fromTagUri_iff.2 ⟨.sgcn96, f, b, (uNumeral_iff f).1 hf, by simp [tagUriPrefix, SGCN.Coding.value], h⟩

/-- ITIP: the accepted tag URIs are `urn:epc:tag:itip-SIZE:FILTER.BODY` with an accepted pure identity `urn:epc:id:itip:BODY`. -/
theorem C18_itip (t : Str) (x : ITIP) : ITIP.fromTagUri t = .ok x ↔
    ∃ size ∈ [py "110", py "212"], ∃ f body, UNumeral f ∧ t = py "urn:epc:tag:itip-" ++ size ++ ':' :: (f ++ '.' :: body) ∧
      ITIP.new (py "urn:epc:id:itip:" ++ body) = .ok x := by
  constructor
  · intro h
    obtain ⟨cs, f, b, hf, rfl, h2⟩ := ITIP.fromTagUri_iff.1 h
    cases cs
    · exact ⟨py "110", by simp, f, b, (uNumeral_iff f).2 hf, by simp [tagUriPrefix, ITIP.Coding.value], h2⟩
    · exact ⟨py "212", by simp, f, b, (uNumeral_iff f).2 hf, by simp [tagUriPrefix, ITIP.Coding.value], h2⟩
  · rintro ⟨size, hs, f, b, hf, rfl, h⟩
    simp only [List.mem_cons, List.not_mem_nil, or_false] at hs
    rcases hs with rfl | rfl
    · exact ITIP.fromTagUri_iff.2 ⟨.itip110, f, b, (uNumeral_iff f).1 hf, by simp [tagUriPrefix, ITIP.Coding.value], h⟩
    · exact ITIP.fromTagUri_iff.2 ⟨.itip212, f, b, (uNumeral_iff f).1 hf, by simp [tagUriPrefix, ITIP.Coding.value], h⟩

/-- USDOD: the accepted tag URIs are `urn:epc:tag:usdod-SIZE:FILTER.BODY` with an accepted pure identity `urn:epc:id:usdod:BODY`. -/
theorem C18_usdod (t : Str) (x : USDOD) : USDOD.fromTagUri t = .ok x ↔
    ∃ size ∈ [py "96"], ∃ f body, UNumeral f ∧ t = py "urn:epc:tag:usdod-" ++ size ++ ':' :: (f ++ '.' :: body) ∧
      USDOD.new (py "urn:epc:id:usdod:" ++ body) = .ok x := by
  constructor
  · intro h
    obtain ⟨cs, f, b, hf, rfl, h2⟩ := USDOD.fromTagUri_iff.1 h
    cases cs
    · exact ⟨py "96", by simp, f, b, (uNumeral_iff f).2 hf, by simp [tagUriPrefix, USDOD.Coding.value], h2⟩
  · rintro ⟨size, hs, f, b, hf, rfl, h⟩
    simp only [List.mem_singleton] at hs
    subst hs
    exact USDOD.fromTagUri_iff.2 ⟨.usdod96, f, b, (uNumeral_iff f).1 hf, by simp [tagUriPrefix, USDOD.Coding.value], h⟩

/-- ADI: the accepted tag URIs are `urn:epc:tag:adi-SIZE:FILTER.BODY` with an accepted pure identity `urn:epc:id:adi:BODY`. -/
theorem C18_adi (t : Str) (x : ADI) : ADI.fromTagUri t = .ok x ↔
    ∃ size ∈ [py "var"], ∃ f body, UNumeral f ∧ t = py "urn:epc:tag:adi-" ++ size ++ ':' :: (f ++ '.' :: body) ∧
      ADI.new (py "urn:epc:id:adi:" ++ body) = .ok x := by
  constructor
  · intro h
    obtain ⟨cs, f, b, hf, rfl, h2⟩ := ADI.fromTagUri_iff.1 h
    cases cs
    · exact ⟨py "var", by simp, f, b, (uNumeral_iff f).2 hf, by simp [tagUriPrefix, ADI.Coding.value], h2⟩
  · rintro ⟨size, hs, f, b, hf, rfl, h⟩
    simp only [List.mem_singleton] at hs
    subst hs
    exact ADI.fromTagUri_iff.2 ⟨.adiVar, f, b, (uNumeral_iff f).1 hf, by simp [tagUriPrefix, ADI.Coding.value], h⟩

/-- GID: the accepted tag URIs are `urn:epc:tag:gid-96:BODY`, optionally followed by a colon and anything (which is ignored). -/
theorem C18_gid (t : Str) (x : GID) : GID.fromTagUri t = .ok x ↔
    ∃ body rest, (rest = [] ∨ ∃ r, rest = ':' :: r) ∧ t = py "urn:epc:tag:gid-96:" ++ (body ++ rest) ∧
      GID.new (py "urn:epc:id:gid:" ++ body) = .ok x := by
  rw [GID.fromTagUri_iff]
  constructor
  · rintro ⟨b, r, hr, rfl, h⟩
    exact ⟨b, r, hr, by simp [tagUriPrefix, GID.Coding.value], h⟩
  · rintro ⟨b, r, hr, rfl, h⟩
    exact ⟨b, r, hr, by simp [tagUriPrefix, GID.Coding.value], h⟩

/-- `C.from_tag_uri(t)` returns an object only if `t` names the scheme C. -/
theorem C18_rejects_others (c : Cls) (t : Str) (y : Scheme) (h : c.fromTagUri t = .ok y) :
    ∃ rest, t = py "urn:epc:tag:" ++ c.name ++ '-' :: rest := by
  obtain ⟨-, -, size, r, -, rfl⟩ := Cls.fromTagUri_facts h
  exact ⟨size ++ ':' :: r, by simp [tagUriPrefix]⟩

/-- Two classes never accept the same tag URI. -/
theorem C18_unique (c c' : Cls) (t : Str) (y y' : Scheme) (h : c.fromTagUri t = .ok y) (h' : c'.fromTagUri t = .ok y') : c = c' := by
  obtain ⟨-, -, size, r, -, rfl⟩ := Cls.fromTagUri_facts h
  obtain ⟨-, -, size', r', -, e⟩ := Cls.fromTagUri_facts h'
  simp only [List.append_assoc] at e
  exact Cls.name_inj (append_sep_inj (Cls.name_facts c).2 (Cls.name_facts c').2 (List.append_cancel_left e)).1

/-- The general parser returns an object exactly when the `from_tag_uri` of some class does, and returns that object. -/
theorem C18_parser_iff (t : Str) (y : Scheme) :
    tagUriToTagEncodable t = .ok y ↔ ∃ c : Cls, c.fromTagUri t = .ok y :=
  tagUriToTagEncodable_iff t y

/-- The object returned by the general parser is an instance of the class named in the URI, and that class is tag encodable. -/
theorem C18_parser (t : Str) (y : Scheme) (h : tagUriToTagEncodable t = .ok y) :
    y.cls.isTagEncodable = true ∧ ∃ rest, t = py "urn:epc:tag:" ++ y.cls.name ++ '-' :: rest := by
  obtain ⟨c, hc⟩ := (C18_parser_iff t y).1 h
  obtain ⟨h1, h2, size, r, -, rfl⟩ := Cls.fromTagUri_facts hc
  rw [h1]
  exact ⟨h2, size ++ ':' :: r, by simp [tagUriPrefix]⟩

example : (tagUriToTagEncodable (py "urn:epc:tag:sgtin-198:3.9521141.012345.a:b.c")).map (·.cls) = .ok .sgtin ∧
    (SSCC.fromTagUri (py "urn:epc:tag:sgtin-96:3.9521141.012345.1")).isOk = false ∧
    (GID.fromTagUri (py "urn:epc:tag:gid-96:952056.2718.1414:x")).isOk = true := by decide +kernel

end Epc
