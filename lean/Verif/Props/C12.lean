/-
C12: SSCC, GSRN, GSRNP, GSIN, PGLN, SGCN, CPI, GID, USDOD, ADI, BIC and IMOVN accept exactly the documented URIs.

Stated twice where the code's `\d` matters: for all strings, with decimal digits of any script (what the code really accepts, see
C14), and for strings of ASCII characters, with the digits 0-9.
-/
import Verif.Lemmas.SpecDigits

namespace Epc
open Spec Re

/-- SSCC: company prefix of 6 to 12 digits, 17 digits in total. -/
theorem C12_sscc (u : Str) : (∃ x, SSCC.new u = .ok x) ↔
    ∃ C D, UDigits C ∧ UDigits D ∧ 6 ≤ C.length ∧ C.length ≤ 12 ∧ C.length + D.length = 17 ∧
      u = py "urn:epc:id:sscc:" ++ joinWith '.' [C, D] := by
  simp only [SSCC.new_iff, uDigits_iff]
  constructor
  · rintro ⟨x, C, D, ⟨⟨_, hC⟩, ⟨_, hD⟩⟩, ⟨h1, h2, h3⟩, hu, _⟩
    exact ⟨C, D, hC, hD, h2, h3, h1, hu⟩
  · rintro ⟨C, D, hC, hD, h2, h3, h1, hu⟩
    refine ⟨_, C, D, ⟨⟨?_, hC⟩, ⟨?_, hD⟩⟩, ⟨h1, h2, h3⟩, hu, rfl⟩
    · rintro rfl; simp at h2
    · rintro rfl; simp at h1; omega

/-- SSCC on ASCII strings. -/
theorem C12_sscc_ascii (u : Str) (ha : Ascii u) : (∃ x, SSCC.new u = .ok x) ↔
    ∃ C D, Digits C ∧ Digits D ∧ 6 ≤ C.length ∧ C.length ≤ 12 ∧ C.length + D.length = 17 ∧
      u = py "urn:epc:id:sscc:" ++ joinWith '.' [C, D] := by
  rw [C12_sscc]
  simp only [uDigits_iff]
  constructor
  · rintro ⟨C, D, hC, hD, h2, h3, h1, rfl⟩
    have := ascii_uri2 (q := py "urn:epc:id:sscc") ha
    exact ⟨C, D, digits_of_dec_ascii hC this.1, digits_of_dec_ascii hD this.2, h2, h3, h1, rfl⟩
  · rintro ⟨C, D, hC, hD, h⟩
    exact ⟨C, D, dec_of_digits hC, dec_of_digits hD, h⟩

example : (SSCC.new (py "urn:epc:id:sscc:9521141.1234567890")).isOk = true ∧ (SSCC.new (py "urn:epc:id:sscc:9521141.123456789")).isOk = false := by
  decide +kernel

/-- GSRN: company prefix of 6 to 12 digits, 17 digits in total. -/
theorem C12_gsrn (u : Str) : (∃ x, GSRN.new u = .ok x) ↔
    ∃ C D, UDigits C ∧ UDigits D ∧ 6 ≤ C.length ∧ C.length ≤ 12 ∧ C.length + D.length = 17 ∧
      u = py "urn:epc:id:gsrn:" ++ joinWith '.' [C, D] := by
  simp only [GSRN.new_iff, uDigits_iff]
  constructor
  · rintro ⟨x, C, D, ⟨⟨_, hC⟩, ⟨_, hD⟩⟩, ⟨h1, h2, h3⟩, hu, _⟩
    exact ⟨C, D, hC, hD, h2, h3, h1, hu⟩
  · rintro ⟨C, D, hC, hD, h2, h3, h1, hu⟩
    refine ⟨_, C, D, ⟨⟨?_, hC⟩, ⟨?_, hD⟩⟩, ⟨h1, h2, h3⟩, hu, rfl⟩
    · rintro rfl; simp at h2
    · rintro rfl; simp at h1; omega

/-- GSRN on ASCII strings. -/
theorem C12_gsrn_ascii (u : Str) (ha : Ascii u) : (∃ x, GSRN.new u = .ok x) ↔
    ∃ C D, Digits C ∧ Digits D ∧ 6 ≤ C.length ∧ C.length ≤ 12 ∧ C.length + D.length = 17 ∧
      u = py "urn:epc:id:gsrn:" ++ joinWith '.' [C, D] := by
  rw [C12_gsrn]
  simp only [uDigits_iff]
  constructor
  · rintro ⟨C, D, hC, hD, h2, h3, h1, rfl⟩
    have := ascii_uri2 (q := py "urn:epc:id:gsrn") ha
    exact ⟨C, D, digits_of_dec_ascii hC this.1, digits_of_dec_ascii hD this.2, h2, h3, h1, rfl⟩
  · rintro ⟨C, D, hC, hD, h⟩
    exact ⟨C, D, dec_of_digits hC, dec_of_digits hD, h⟩

example : (GSRN.new (py "urn:epc:id:gsrn:9521141.1234567890")).isOk = true ∧ (GSRN.new (py "urn:epc:id:gsrn:95211.412345678901")).isOk = false := by
  decide +kernel

/-- GSRNP: company prefix of 6 to 12 digits, 17 digits in total. -/
theorem C12_gsrnp (u : Str) : (∃ x, GSRNP.new u = .ok x) ↔
    ∃ C D, UDigits C ∧ UDigits D ∧ 6 ≤ C.length ∧ C.length ≤ 12 ∧ C.length + D.length = 17 ∧
      u = py "urn:epc:id:gsrnp:" ++ joinWith '.' [C, D] := by
  simp only [GSRNP.new_iff, uDigits_iff]
  constructor
  · rintro ⟨x, C, D, ⟨⟨_, hC⟩, ⟨_, hD⟩⟩, ⟨h1, h2, h3⟩, hu, _⟩
    exact ⟨C, D, hC, hD, h2, h3, h1, hu⟩
  · rintro ⟨C, D, hC, hD, h2, h3, h1, hu⟩
    refine ⟨_, C, D, ⟨⟨?_, hC⟩, ⟨?_, hD⟩⟩, ⟨h1, h2, h3⟩, hu, rfl⟩
    · rintro rfl; simp at h2
    · rintro rfl; simp at h1; omega

/-- GSRNP on ASCII strings. -/
theorem C12_gsrnp_ascii (u : Str) (ha : Ascii u) : (∃ x, GSRNP.new u = .ok x) ↔
    ∃ C D, Digits C ∧ Digits D ∧ 6 ≤ C.length ∧ C.length ≤ 12 ∧ C.length + D.length = 17 ∧
      u = py "urn:epc:id:gsrnp:" ++ joinWith '.' [C, D] := by
  rw [C12_gsrnp]
  simp only [uDigits_iff]
  constructor
  · rintro ⟨C, D, hC, hD, h2, h3, h1, rfl⟩
    have := ascii_uri2 (q := py "urn:epc:id:gsrnp") ha
    exact ⟨C, D, digits_of_dec_ascii hC this.1, digits_of_dec_ascii hD this.2, h2, h3, h1, rfl⟩
  · rintro ⟨C, D, hC, hD, h⟩
    exact ⟨C, D, dec_of_digits hC, dec_of_digits hD, h⟩

example : (GSRNP.new (py "urn:epc:id:gsrnp:9521141.1234567890")).isOk = true ∧ (GSRNP.new (py "urn:epc:id:gsrnp:95211.412345678901")).isOk = false := by
  decide +kernel

/-- GSIN: company prefix of 6 to 12 digits, 16 digits in total. -/
theorem C12_gsin (u : Str) : (∃ x, GSIN.new u = .ok x) ↔
    ∃ C D, UDigits C ∧ UDigits D ∧ 6 ≤ C.length ∧ C.length ≤ 12 ∧ C.length + D.length = 16 ∧
      u = py "urn:epc:id:gsin:" ++ joinWith '.' [C, D] := by
  simp only [GSIN.new_iff, uDigits_iff]
  constructor
  · rintro ⟨x, C, D, ⟨⟨_, hC⟩, ⟨_, hD⟩⟩, ⟨h1, h2, h3⟩, hu, _⟩
    exact ⟨C, D, hC, hD, h2, h3, h1, hu⟩
  · rintro ⟨C, D, hC, hD, h2, h3, h1, hu⟩
    refine ⟨_, C, D, ⟨⟨?_, hC⟩, ⟨?_, hD⟩⟩, ⟨h1, h2, h3⟩, hu, rfl⟩
    · rintro rfl; simp at h2
    · rintro rfl; simp at h1; omega

/-- GSIN on ASCII strings. -/
theorem C12_gsin_ascii (u : Str) (ha : Ascii u) : (∃ x, GSIN.new u = .ok x) ↔
    ∃ C D, Digits C ∧ Digits D ∧ 6 ≤ C.length ∧ C.length ≤ 12 ∧ C.length + D.length = 16 ∧
      u = py "urn:epc:id:gsin:" ++ joinWith '.' [C, D] := by
  rw [C12_gsin]
  simp only [uDigits_iff]
  constructor
  · rintro ⟨C, D, hC, hD, h2, h3, h1, rfl⟩
    have := ascii_uri2 (q := py "urn:epc:id:gsin") ha
    exact ⟨C, D, digits_of_dec_ascii hC this.1, digits_of_dec_ascii hD this.2, h2, h3, h1, rfl⟩
  · rintro ⟨C, D, hC, hD, h⟩
    exact ⟨C, D, dec_of_digits hC, dec_of_digits hD, h⟩

example : (GSIN.new (py "urn:epc:id:gsin:9521141.123456789")).isOk = true ∧ (GSIN.new (py "urn:epc:id:gsin:9521141.1234567890")).isOk = false := by
  decide +kernel

/-- PGLN: company prefix of 6 to 12 digits, 12 digits in total. -/
theorem C12_pgln (u : Str) : (∃ x, PGLN.new u = .ok x) ↔
    ∃ C D, UDigits C ∧ UDigits D ∧ 6 ≤ C.length ∧ C.length ≤ 12 ∧ C.length + D.length = 12 ∧
      u = py "urn:epc:id:pgln:" ++ joinWith '.' [C, D] := by
  simp only [PGLN.new_iff, uDigits_iff]
  constructor
  · rintro ⟨x, C, D, ⟨⟨_, hC⟩, hD⟩, ⟨h1, h2, h3⟩, hu, _⟩
    exact ⟨C, D, hC, hD, h2, h3, h1, hu⟩
  · rintro ⟨C, D, hC, hD, h2, h3, h1, hu⟩
    refine ⟨_, C, D, ⟨⟨?_, hC⟩, hD⟩, ⟨h1, h2, h3⟩, hu, rfl⟩
    · rintro rfl; simp at h2

/-- PGLN on ASCII strings. -/
theorem C12_pgln_ascii (u : Str) (ha : Ascii u) : (∃ x, PGLN.new u = .ok x) ↔
    ∃ C D, Digits C ∧ Digits D ∧ 6 ≤ C.length ∧ C.length ≤ 12 ∧ C.length + D.length = 12 ∧
      u = py "urn:epc:id:pgln:" ++ joinWith '.' [C, D] := by
  rw [C12_pgln]
  simp only [uDigits_iff]
  constructor
  · rintro ⟨C, D, hC, hD, h2, h3, h1, rfl⟩
    have := ascii_uri2 (q := py "urn:epc:id:pgln") ha
    exact ⟨C, D, digits_of_dec_ascii hC this.1, digits_of_dec_ascii hD this.2, h2, h3, h1, rfl⟩
  · rintro ⟨C, D, hC, hD, h⟩
    exact ⟨C, D, dec_of_digits hC, dec_of_digits hD, h⟩

example : (PGLN.new (py "urn:epc:id:pgln:952114112345.")).isOk = true ∧ (PGLN.new (py "urn:epc:id:pgln:9521141.1234a")).isOk = false := by
  decide +kernel

/-- SGCN: company prefix of 6 to 12 digits, 12 digits in the first two components, serial of 1 to 12 digits. -/
theorem C12_sgcn (u : Str) : (∃ x, SGCN.new u = .ok x) ↔
    ∃ C D S, UDigits C ∧ UDigits D ∧ UDigits S ∧ 6 ≤ C.length ∧ C.length ≤ 12 ∧ C.length + D.length = 12 ∧
      1 ≤ S.length ∧ S.length ≤ 12 ∧ u = py "urn:epc:id:sgcn:" ++ joinWith '.' [C, D, S] := by
  simp only [SGCN.new_iff, uDigits_iff]
  constructor
  · rintro ⟨x, C, D, S, ⟨⟨_, hC⟩, hD, hSn, hS⟩, ⟨h1, h2, h3, h4⟩, hu, _⟩
    exact ⟨C, D, S, hC, hD, hS, h3, h4, h1, List.length_pos_iff.2 hSn, h2, hu⟩
  · rintro ⟨C, D, S, hC, hD, hS, h3, h4, h1, h5, h2, hu⟩
    refine ⟨_, C, D, S, ⟨⟨?_, hC⟩, hD, List.length_pos_iff.1 h5, hS⟩, ⟨h1, h2, h3, h4⟩, hu, rfl⟩
    rintro rfl; simp at h3

/-- SGCN on ASCII strings. -/
theorem C12_sgcn_ascii (u : Str) (ha : Ascii u) : (∃ x, SGCN.new u = .ok x) ↔
    ∃ C D S, Digits C ∧ Digits D ∧ Digits S ∧ 6 ≤ C.length ∧ C.length ≤ 12 ∧ C.length + D.length = 12 ∧
      1 ≤ S.length ∧ S.length ≤ 12 ∧ u = py "urn:epc:id:sgcn:" ++ joinWith '.' [C, D, S] := by
  rw [C12_sgcn]
  simp only [uDigits_iff]
  constructor
  · rintro ⟨C, D, S, hC, hD, hS, h3, h4, h1, h5, h2, rfl⟩
    have := ascii_uri3 (q := py "urn:epc:id:sgcn") ha
    exact ⟨C, D, S, digits_of_dec_ascii hC this.1, digits_of_dec_ascii hD this.2.1, digits_of_dec_ascii hS this.2.2,
      h3, h4, h1, h5, h2, rfl⟩
  · rintro ⟨C, D, S, hC, hD, hS, h⟩
    exact ⟨C, D, S, dec_of_digits hC, dec_of_digits hD, dec_of_digits hS, h⟩

example : (SGCN.new (py "urn:epc:id:sgcn:4012345.67890.04711")).isOk = true ∧
    (SGCN.new (py "urn:epc:id:sgcn:4012345.67890.1234567890123")).isOk = false := by decide +kernel

/-- CPI: company prefix of 6 to 12 digits, a non-empty component/part reference over digits, capital letters, `-`, `/` and `#` (the
last two escaped), at most 30 characters in the first two components, a serial that is a numeral of at most 12 digits. -/
theorem C12_cpi (u : Str) : (∃ x, CPI.new u = .ok x) ↔
    ∃ C ref S, UDigits C ∧ ref ≠ [] ∧ (∀ c ∈ ref, c ∈ gs39) ∧ UNumeral S ∧ 6 ≤ C.length ∧ C.length ≤ 12 ∧
      C.length + (escape39 ref).length ≤ 30 ∧ S.length ≤ 12 ∧ u = py "urn:epc:id:cpi:" ++ joinWith '.' [C, escape39 ref, S] := by
  simp only [CPI.new_iff, uDigits_iff, uNumeral_iff]
  constructor
  · rintro ⟨x, C, D, S, ⟨⟨_, hC⟩, hD, hS⟩, ⟨h1, h2, h3, h4⟩, hu, _⟩
    obtain ⟨raw, hne, hr, rfl⟩ := (lang_cpref _).1 hD
    exact ⟨C, raw, S, hC, hne, hr, hS, h3, h4, h1, h2, hu⟩
  · rintro ⟨C, raw, S, hC, hne, hr, hS, h3, h4, h1, h2, hu⟩
    refine ⟨_, C, escape39 raw, S, ⟨⟨?_, hC⟩, (lang_cpref _).2 ⟨raw, hne, hr, rfl⟩, hS⟩, ⟨h1, h2, h3, h4⟩, hu, rfl⟩
    rintro rfl; simp at h3

/-- CPI on ASCII strings. -/
theorem C12_cpi_ascii (u : Str) (ha : Ascii u) : (∃ x, CPI.new u = .ok x) ↔
    ∃ C ref S, Digits C ∧ ref ≠ [] ∧ (∀ c ∈ ref, c ∈ gs39) ∧ Numeral S ∧ 6 ≤ C.length ∧ C.length ≤ 12 ∧
      C.length + (escape39 ref).length ≤ 30 ∧ S.length ≤ 12 ∧ u = py "urn:epc:id:cpi:" ++ joinWith '.' [C, escape39 ref, S] := by
  rw [C12_cpi]
  simp only [uDigits_iff, uNumeral_iff]
  constructor
  · rintro ⟨C, D, S, hC, hD, hr, hS, h3, h4, h1, h2, rfl⟩
    have := ascii_uri3 (q := py "urn:epc:id:cpi") ha
    exact ⟨C, D, S, digits_of_dec_ascii hC this.1, hD, hr, numeral_of_num hS this.2.2, h3, h4, h1, h2, rfl⟩
  · rintro ⟨C, D, S, hC, hD, hr, hS, h⟩
    exact ⟨C, D, S, dec_of_digits hC, hD, hr, num_of_numeral hS, h⟩

example : (CPI.new (py "urn:epc:id:cpi:9521141.5PQ7%2FZ43.12345")).isOk = true ∧
    (CPI.new (py "urn:epc:id:cpi:9521141.5PQ7%2FZ43.012345")).isOk = false := by decide +kernel

/-- GID: three numerals below 2^28, 2^24 and 2^36. -/
theorem C12_gid (u : Str) : (∃ x, GID.new u = .ok x) ↔
    ∃ M O S, UNumeral M ∧ UNumeral O ∧ UNumeral S ∧ unumber M < 2 ^ 28 ∧ unumber O < 2 ^ 24 ∧ unumber S < 2 ^ 36 ∧
      u = py "urn:epc:id:gid:" ++ joinWith '.' [M, O, S] := by
  simp only [GID.new_iff, uNumeral_iff]
  constructor
  · rintro ⟨x, C, D, S, ⟨hC, hD, hS⟩, ⟨h1, h2, h3⟩, hu, _⟩
    rw [unumber_eq hC.dec] at h1
    rw [unumber_eq hD.dec] at h2
    rw [unumber_eq hS.dec] at h3
    exact ⟨C, D, S, hC, hD, hS, h1, h2, h3, hu⟩
  · rintro ⟨C, D, S, hC, hD, hS, h1, h2, h3, hu⟩
    rw [← unumber_eq hC.dec] at h1
    rw [← unumber_eq hD.dec] at h2
    rw [← unumber_eq hS.dec] at h3
    exact ⟨_, C, D, S, ⟨hC, hD, hS⟩, ⟨h1, h2, h3⟩, hu, rfl⟩

/-- GID on ASCII strings. -/
theorem C12_gid_ascii (u : Str) (ha : Ascii u) : (∃ x, GID.new u = .ok x) ↔
    ∃ M O S, Numeral M ∧ Numeral O ∧ Numeral S ∧ number M < 2 ^ 28 ∧ number O < 2 ^ 24 ∧ number S < 2 ^ 36 ∧
      u = py "urn:epc:id:gid:" ++ joinWith '.' [M, O, S] := by
  rw [C12_gid]
  simp only [uNumeral_iff]
  constructor
  · rintro ⟨C, D, S, hC, hD, hS, h1, h2, h3, rfl⟩
    have := ascii_uri3 (q := py "urn:epc:id:gid") ha
    have nC := numeral_of_num hC this.1
    have nD := numeral_of_num hD this.2.1
    have nS := numeral_of_num hS this.2.2
    rw [unumber_of_digits nC.1] at h1
    rw [unumber_of_digits nD.1] at h2
    rw [unumber_of_digits nS.1] at h3
    exact ⟨C, D, S, nC, nD, nS, h1, h2, h3, rfl⟩
  · rintro ⟨C, D, S, nC, nD, nS, h1, h2, h3, hu⟩
    rw [← unumber_of_digits nC.1] at h1
    rw [← unumber_of_digits nD.1] at h2
    rw [← unumber_of_digits nS.1] at h3
    exact ⟨C, D, S, num_of_numeral nC, num_of_numeral nD, num_of_numeral nS, h1, h2, h3, hu⟩

example : (GID.new (py "urn:epc:id:gid:268435455.16777215.68719476735")).isOk = true ∧
    (GID.new (py "urn:epc:id:gid:268435456.16777215.68719476735")).isOk = false := by decide +kernel

/-- USDOD: a CAGE code or DoDAAC of 5 or 6 characters and a numeral below 2^36. -/
theorem C12_usdod (u : Str) : (∃ x, USDOD.new u = .ok x) ↔
    ∃ G S, (∀ c ∈ G, c ∈ cageChars) ∧ 5 ≤ G.length ∧ G.length ≤ 6 ∧ UNumeral S ∧ unumber S < 2 ^ 36 ∧
      u = py "urn:epc:id:usdod:" ++ joinWith '.' [G, S] := by
  simp only [USDOD.new_iff, uNumeral_iff, mem_cage, lang_cage]
  constructor
  · rintro ⟨x, C, S, ⟨⟨⟨hC1, hC2⟩, hC⟩, hS⟩, h3, hu, _⟩
    rw [unumber_eq hS.dec] at h3
    exact ⟨C, S, hC, hC1, hC2, hS, h3, hu⟩
  · rintro ⟨C, S, hC, hC1, hC2, hS, h3, hu⟩
    rw [← unumber_eq hS.dec] at h3
    exact ⟨_, C, S, ⟨⟨⟨hC1, hC2⟩, hC⟩, hS⟩, h3, hu, rfl⟩

/-- USDOD on ASCII strings. -/
theorem C12_usdod_ascii (u : Str) (ha : Ascii u) : (∃ x, USDOD.new u = .ok x) ↔
    ∃ G S, (∀ c ∈ G, c ∈ cageChars) ∧ 5 ≤ G.length ∧ G.length ≤ 6 ∧ Numeral S ∧ number S < 2 ^ 36 ∧
      u = py "urn:epc:id:usdod:" ++ joinWith '.' [G, S] := by
  rw [C12_usdod]
  simp only [uNumeral_iff]
  constructor
  · rintro ⟨C, S, hC, h1, h2, hS, h3, rfl⟩
    have := ascii_uri2 (q := py "urn:epc:id:usdod") ha
    have nS := numeral_of_num hS this.2
    rw [unumber_of_digits nS.1] at h3
    exact ⟨C, S, hC, h1, h2, nS, h3, rfl⟩
  · rintro ⟨C, S, hC, h1, h2, nS, h3, hu⟩
    rw [← unumber_of_digits nS.1] at h3
    exact ⟨C, S, hC, h1, h2, num_of_numeral nS, h3, hu⟩

example : (USDOD.new (py "urn:epc:id:usdod:2S194.12345678901")).isOk = true ∧
    (USDOD.new (py "urn:epc:id:usdod:2SI94.12345678901")).isOk = false := by decide +kernel

/-- ADI: a CAGE code of 5 or 6 characters, a part number of at most 32 characters over digits, capital letters, `-` and `/`, and a
serial of 1 to 30 characters over the same alphabet that may start with `#` if more follows; `/` and `#` are escaped. -/
theorem C12_adi (u : Str) : (∃ x, ADI.new u = .ok x) ↔
    ∃ G part ser, (∀ c ∈ G, c ∈ cageChars) ∧ 5 ≤ G.length ∧ G.length ≤ 6 ∧
      (∀ c ∈ part, c ∈ gs39 ∧ c ≠ '#') ∧ part.length ≤ 32 ∧
      ser ≠ [] ∧ ser ≠ py "#" ∧ (∀ c ∈ ser, c ∈ gs39) ∧ '#' ∉ ser.tail ∧ ser.length ≤ 30 ∧
      u = py "urn:epc:id:adi:" ++ joinWith '.' [G, escape39 part, escape39 ser] := by
  simp only [ADI.new_iff, mem_cage, lang_cage]
  constructor
  · rintro ⟨x, C, D, S, ⟨⟨⟨hC1, hC2⟩, hC⟩, hD, hS⟩, ⟨h1, h2, h3⟩, hu, _⟩
    obtain ⟨p, hp, rfl⟩ := (lang_adiPart _).1 hD
    obtain ⟨s, hs0, hs, ht, rfl⟩ := (lang_adiSerial _).1 hS
    rw [replace_2F (fun c hc => (hp c hc).1), flatMap_escHash_of_no_hash (fun h => (hp _ h).2 rfl)] at h1
    rw [replace_2F hs, replace_23 hs] at h2 h3
    refine ⟨C, p, s, hC, hC1, hC2, hp, h1, ?_, ?_, hs, ht, h3, hu⟩
    · rintro rfl; simp at h2
    · rintro rfl
      rcases hs0 with ⟨c, t, e, hc⟩ | ⟨c, t, e, hc⟩
      · injection e with e; exact hc e.symm
      · injection e with e e'; cases e'
  · rintro ⟨C, p, s, hC, hC1, hC2, hp, h1, hne, hne', hs, ht, h3, hu⟩
    refine ⟨_, C, escape39 p, escape39 s, ⟨⟨⟨hC1, hC2⟩, hC⟩, (lang_adiPart _).2 ⟨p, hp, rfl⟩, (lang_adiSerial _).2 ⟨s, ?_, hs, ht, rfl⟩⟩,
      ⟨?_, ?_, ?_⟩, hu, rfl⟩
    · match s, hne, hne' with
      | [c], _, h => exact .inl ⟨c, [], rfl, by rintro rfl; exact h rfl⟩
      | c :: d :: t, _, _ =>
        by_cases hc : c = '#'
        · subst hc
          exact .inr ⟨d, t, rfl, by rintro rfl; exact ht (by simp)⟩
        · exact .inl ⟨c, d :: t, rfl, hc⟩
    · rw [replace_2F (fun c hc => (hp c hc).1), flatMap_escHash_of_no_hash (fun h => (hp _ h).2 rfl)]; exact h1
    · rw [replace_2F hs, replace_23 hs]; exact List.length_pos_iff.2 hne
    · rw [replace_2F hs, replace_23 hs]; exact h3

example : (ADI.new (py "urn:epc:id:adi:W81X9C.3KL984PX1.%23WMA52")).isOk = true ∧
    (ADI.new (py "urn:epc:id:adi:W81X9C.3KL984PX1.%23")).isOk = false := by decide +kernel

/-- BIC: three owner letters, a category letter, seven digits. -/
theorem C12_bic (u : Str) : (∃ x, BIC.new u = .ok x) ↔
    ∃ o c d, o.length = 3 ∧ (∀ x ∈ o, x ∈ bicLetters) ∧ c ∈ py "JUZ" ∧ d.length = 7 ∧ Digits d ∧
      u = py "urn:epc:id:bic:" ++ o ++ [c] ++ d := by
  simp only [BIC.new_iff, mem_bicLetters, digits_iff]
  constructor
  · rintro ⟨x, o, c, d, ⟨⟨ho, ho'⟩, hc, hd, hd'⟩, rfl, _⟩
    exact ⟨o, c, d, ho, ho', by simpa using hc, hd, hd', by simp⟩
  · rintro ⟨o, c, d, ho, ho', hc, hd, hd', rfl⟩
    exact ⟨_, o, c, d, ⟨⟨ho, ho'⟩, by simpa using hc, hd, hd'⟩, by simp, rfl⟩

example : (BIC.new (py "urn:epc:id:bic:CSQU3054383")).isOk = true ∧ (BIC.new (py "urn:epc:id:bic:CSIU3054383")).isOk = false := by
  decide +kernel

/-- IMOVN: seven digits. -/
theorem C12_imovn (u : Str) : (∃ x, IMOVN.new u = .ok x) ↔
    ∃ d, d.length = 7 ∧ Digits d ∧ u = py "urn:epc:id:imovn:" ++ d := by
  simp only [IMOVN.new_iff, digits_iff]
  constructor
  · rintro ⟨x, d, ⟨hd, hd'⟩, hu, _⟩
    exact ⟨d, hd, hd', hu⟩
  · rintro ⟨d, hd, hd', hu⟩
    exact ⟨_, d, ⟨hd, hd'⟩, hu, rfl⟩

example : (IMOVN.new (py "urn:epc:id:imovn:9176187")).isOk = true ∧ (IMOVN.new (py "urn:epc:id:imovn:917618")).isOk = false := by
  decide +kernel

end Epc
