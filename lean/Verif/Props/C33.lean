/-
C33: GS1 keys have the right length and a valid check digit, and contain the company prefix.

`KeyOf n body k` (Spec/Key.lean): `k` is `body` followed by one digit, has `n` digits, and the GS1 weighted sum of its digits is a
multiple of 10.  The constructors accept decimal digits of any script; if the components are ASCII, the key is made of ASCII digits
(last part of `KeyOf`).
Generated by tools/gen_c33.py.
-/
import Verif.Lemmas.Key

namespace Epc
open Spec

/-- SGTIN: indicator digit, company prefix, item reference, check digit. -/
theorem C33_sgtin (u : Str) (x : SGTIN) (hu : SGTIN.new u = .ok x) :
    ∃ i I k, x.itemRef = i :: I ∧ x.gs1Key = .ok k ∧ KeyOf 14 (i :: (x.companyPref ++ I)) k := by
  obtain ⟨i, I, e, hk⟩ := SGTIN.key hu
  refine ⟨i, I, x.gtin14, e, ?_, hk⟩
  show Except.ok (x.gtin14.take 14) = _
  rw [List.take_of_length_le (Nat.le_of_eq hk.2.1)]

/-- LGTIN: indicator digit, company prefix, item reference, check digit. -/
theorem C33_lgtin (u : Str) (x : LGTIN) (hu : LGTIN.new u = .ok x) :
    ∃ i I k, x.itemRef = i :: I ∧ x.gs1Key = .ok k ∧ KeyOf 14 (i :: (x.companyPref ++ I)) k := by
  obtain ⟨i, I, e, hk⟩ := LGTIN.key hu
  refine ⟨i, I, x.gtin14, e, ?_, hk⟩
  show Except.ok (x.gtin14.take 14) = _
  rw [List.take_of_length_le (Nat.le_of_eq hk.2.1)]

/-- SSCC: extension digit, company prefix, serial reference, check digit. -/
theorem C33_sscc (u : Str) (x : SSCC) (hu : SSCC.new u = .ok x) :
    ∃ i I, x.serial = i :: I ∧ KeyOf 18 (i :: (x.companyPref ++ I)) x.gs1Key := by
  obtain ⟨C, I, ⟨⟨_, hC⟩, hI0, hI⟩, ⟨hl, _⟩, rfl, rfl⟩ := SSCC.new_iff.1 hu
  cases I with
  | nil => exact absurd rfl hI0
  | cons i I =>
    rw [List.length_cons] at hl
    have hI' := Dec.cons.1 hI
    exact ⟨i, I, rfl, keyOf_check (Dec.cons.2 ⟨hI'.1, Dec.append.2 ⟨hC, hI'.2⟩⟩) (by simp; omega)⟩

/-- GSRN: company prefix, reference, check digit. -/
theorem C33_gsrn (u : Str) (x : GSRN) (hu : GSRN.new u = .ok x) : KeyOf 18 (x.companyPref ++ x.serviceRef) x.gs1Key := by
  obtain ⟨C, I, ⟨⟨_, hC⟩, hI0, hI⟩, ⟨hl, _⟩, rfl, rfl⟩ := GSRN.new_iff.1 hu
  exact keyOf_check (Dec.append.2 ⟨hC, hI⟩) (by simp; omega)

/-- GSRNP: company prefix, reference, check digit. -/
theorem C33_gsrnp (u : Str) (x : GSRNP) (hu : GSRNP.new u = .ok x) : KeyOf 18 (x.companyPref ++ x.serviceRef) x.gs1Key := by
  obtain ⟨C, I, ⟨⟨_, hC⟩, hI0, hI⟩, ⟨hl, _⟩, rfl, rfl⟩ := GSRNP.new_iff.1 hu
  exact keyOf_check (Dec.append.2 ⟨hC, hI⟩) (by simp; omega)

/-- GSIN: company prefix, reference, check digit. -/
theorem C33_gsin (u : Str) (x : GSIN) (hu : GSIN.new u = .ok x) : KeyOf 17 (x.companyPref ++ x.shipperRef) x.gs1Key := by
  obtain ⟨C, I, ⟨⟨_, hC⟩, hI0, hI⟩, ⟨hl, _⟩, rfl, rfl⟩ := GSIN.new_iff.1 hu
  exact keyOf_check (Dec.append.2 ⟨hC, hI⟩) (by simp; omega)

/-- PGLN: company prefix, reference, check digit. -/
theorem C33_pgln (u : Str) (x : PGLN) (hu : PGLN.new u = .ok x) : KeyOf 13 (x.companyPref ++ x.partyRef) x.gs1Key := by
  obtain ⟨C, I, ⟨⟨_, hC⟩, hI⟩, ⟨hl, _⟩, rfl, rfl⟩ := PGLN.new_iff.1 hu
  exact keyOf_check (Dec.append.2 ⟨hC, hI⟩) (by simp; omega)

/-- SGLN: company prefix, location reference, check digit. -/
theorem C33_sgln (u : Str) (x : SGLN) (hu : SGLN.new u = .ok x) : KeyOf 13 (x.companyPref ++ x.locationRef) x.gs1Key := by
  obtain ⟨C, I, S, ⟨⟨_, hC⟩, hI, _⟩, ⟨hl, _⟩, rfl, rfl⟩ := SGLN.new_iff.1 hu
  exact keyOf_check (Dec.append.2 ⟨hC, hI⟩) (by simp; omega)

/-- GRAI: company prefix, reference, check digit, then the unescaped serial. -/
theorem C33_grai (u : Str) (x : GRAI) (hu : GRAI.new u = .ok x) :
    ∃ k rest, x.gs1Key = k ++ rest ∧ KeyOf 13 (x.companyPref ++ x.assetType) k ∧ ∀ raw, x.serial = escape raw → rest = raw := by
  obtain ⟨C, I, S, ⟨⟨_, hC⟩, hI, _⟩, ⟨hl, _⟩, rfl, rfl⟩ := GRAI.new_iff.1 hu
  refine ⟨_, _, rfl, keyOf_check (Dec.append.2 ⟨hC, hI⟩) (by simp; omega), ?_⟩
  intro raw hr
  dsimp only at hr
  rw [hr, replaceUriEscapes_escape]

/-- GDTI: company prefix, reference, check digit, then the unescaped serial. -/
theorem C33_gdti (u : Str) (x : GDTI) (hu : GDTI.new u = .ok x) :
    ∃ k rest, x.gs1Key = k ++ rest ∧ KeyOf 13 (x.companyPref ++ x.docType) k ∧ ∀ raw, x.serial = escape raw → rest = raw := by
  obtain ⟨C, I, S, ⟨⟨_, hC⟩, hI, _⟩, ⟨hl, _⟩, rfl, rfl⟩ := GDTI.new_iff.1 hu
  refine ⟨_, _, rfl, keyOf_check (Dec.append.2 ⟨hC, hI⟩) (by simp; omega), ?_⟩
  intro raw hr
  dsimp only at hr
  rw [hr, replaceUriEscapes_escape]

/-- SGCN: company prefix, coupon reference, check digit, then the serial. -/
theorem C33_sgcn (u : Str) (x : SGCN) (hu : SGCN.new u = .ok x) :
    ∃ k, x.gs1Key = k ++ x.serial ∧ KeyOf 13 (x.companyPref ++ x.couponRef) k := by
  obtain ⟨C, I, S, ⟨⟨_, hC⟩, hI, _⟩, ⟨hl, _⟩, rfl, rfl⟩ := SGCN.new_iff.1 hu
  exact ⟨_, rfl, keyOf_check (Dec.append.2 ⟨hC, hI⟩) (by simp; omega)⟩

/-- GIAI (no check digit): company prefix and unescaped asset reference. -/
theorem C33_giai (u : Str) (x : GIAI) (hu : GIAI.new u = .ok x) :
    ∃ rest, x.gs1Key = x.companyPref ++ rest ∧ rest ≠ [] ∧ x.gs1Key.length ≤ 30 ∧ ∀ raw, x.assetRef = escape raw → rest = raw := by
  obtain ⟨C, S, ⟨⟨_, hC⟩, _⟩, ⟨_, hv, hl⟩, rfl, rfl⟩ := GIAI.new_iff.1 hu
  refine ⟨_, rfl, ?_, ?_, ?_⟩
  · apply replaceUriEscapes_ne_nil
    intro e
    rw [e] at hv
    revert hv
    decide
  · have := length_replaceUriEscapes_le ((split ':' S).headD [])
    show (C ++ _).length ≤ 30
    rw [List.length_append]; omega
  · intro raw hr
    dsimp only at hr
    rw [hr, replaceUriEscapes_escape]

/-- GINC (no check digit): company prefix and unescaped consignment reference, read off the URI. -/
theorem C33_ginc (C raw : Str) (x : GINC) (hC : '.' ∉ C) (hu : GINC.new (py "urn:epc:id:ginc:" ++ C ++ '.' :: escape raw) = .ok x) :
    x.gs1Key = C ++ raw ∧ x.gs1Key.length ≤ 30 := by
  obtain ⟨C', S, ⟨⟨_, hC'⟩, hS⟩, ⟨hl, _, _, h2⟩, e, rfl⟩ := GINC.new_iff.1 hu
  have e' : py "urn:epc:id:ginc" ++ ':' :: (C ++ '.' :: escape raw) = py "urn:epc:id:ginc" ++ ':' :: (C' ++ '.' :: S) := by
    rw [← e]; simp
  obtain ⟨rfl, rfl⟩ := uri2_inj hC hC'.no_dot e'
  refine ⟨?_, ?_⟩
  · show C ++ _ = _
    rw [replaceUriEscapes_escape]
  · show (C ++ _).length ≤ 30
    rw [List.length_append]; exact h2

/-! ### Non-vacuity -/

example : ((SSCC.new (py "urn:epc:id:sscc:9521141.1234567890")).toOption.map (·.gs1Key)) = some (py "195211412345678900") := by decide +kernel
example : ((GSRN.new (py "urn:epc:id:gsrn:9521141.1234567890")).toOption.map (·.gs1Key)) = some (py "952114112345678906") := by decide +kernel
example : ((GSRNP.new (py "urn:epc:id:gsrnp:9521141.1234567890")).toOption.map (·.gs1Key)) = some (py "952114112345678906") := by decide +kernel
example : ((GSIN.new (py "urn:epc:id:gsin:9521141.123456789")).toOption.map (·.gs1Key)) = some (py "95211411234567892") := by decide +kernel
example : ((PGLN.new (py "urn:epc:id:pgln:9521141.89012")).toOption.map (·.gs1Key)) = some (py "9521141890127") := by decide +kernel
example : ((SGLN.new (py "urn:epc:id:sgln:9521141.12345.32a%2Fb")).toOption.map (·.gs1Key)) = some (py "9521141123454") := by decide +kernel
example : ((GRAI.new (py "urn:epc:id:grai:9521141.12345.32a%2Fb")).toOption.map (·.gs1Key)) = some (py "952114112345432a/b") := by decide +kernel
example : ((GDTI.new (py "urn:epc:id:gdti:9521141.12345.ABCD%2F5")).toOption.map (·.gs1Key)) = some (py "9521141123454ABCD/5") := by decide +kernel
example : ((SGCN.new (py "urn:epc:id:sgcn:9521141.67890.04711")).toOption.map (·.gs1Key)) = some (py "952114167890904711") := by decide +kernel
example : ((GIAI.new (py "urn:epc:id:giai:9521141.12345a%2Fb")).toOption.map (·.gs1Key)) = some (py "952114112345a/b") := by decide +kernel
example : ((GINC.new (py "urn:epc:id:ginc:9521141.xyz%2F11")).toOption.map (·.gs1Key)) = some (py "9521141xyz/11") := by decide +kernel
example : ((SGTIN.new (py "urn:epc:id:sgtin:9521141.012345.32a%2Fb")).toOption.map (·.gs1Key)) = some (.ok (py "09521141123454")) := by decide +kernel
example : ((LGTIN.new (py "urn:epc:class:lgtin:9521141.012345.32a%2Fb")).toOption.map (·.gs1Key)) = some (.ok (py "09521141123454")) := by decide +kernel

end Epc
