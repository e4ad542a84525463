/-
C14: accepted numeric components are ASCII digits.

False: Python's `\d` accepts the decimal digits of every script.  Proved: they are decimal digits of some script (so `int()` accepts
them), and ASCII digits if the URI is an ASCII string.
-/
import Verif.Lemmas.SpecDigits

namespace Epc
open Spec Re

/-- The claim is false: an SSCC written with Arabic-Indic digits (U+0660...) is accepted. -/
theorem C14_claim_false : ¬ ∀ (u : Str) (x : SSCC), SSCC.new u = .ok x → Digits x.companyPref := by
  intro h
  have h1 : SSCC.new (py "urn:epc:id:sscc:٩٥٢١١٤١.1234567890") =
      .ok ⟨py "urn:epc:id:sscc:٩٥٢١١٤١.1234567890", py "٩٥٢١١٤١", py "1234567890", py "1٩٥٢١١٤١2345678900"⟩ := by decide +kernel
  have := h _ _ h1
  exact absurd (this '٩' (by decide)) (by decide)

/-- SGTIN: decimal digits, of any script. -/
theorem C14_sgtin_partial (u : Str) (x : SGTIN) (h : SGTIN.new u = .ok x) : UDigits x.companyPref ∧ UDigits x.itemRef := by
  simp only [uDigits_iff]
  obtain ⟨C, D, S, ⟨hC, hD, hS⟩, _, _, rfl⟩ := SGTIN.new_iff.1 h
  exact ⟨hC.2, hD.2⟩

/-- SGTIN: ASCII digits, for a URI of ASCII characters. -/
theorem C14_sgtin_ascii_partial (u : Str) (ha : Ascii u) (x : SGTIN) (h : SGTIN.new u = .ok x) : Digits x.companyPref ∧ Digits x.itemRef := by
  obtain ⟨C, D, S, ⟨hC, hD, hS⟩, _, rfl, rfl⟩ := SGTIN.new_iff.1 h
  have := ascii_uri3 (q := py "urn:epc:id:sgtin") ha
  exact ⟨digits_of_dec_ascii hC.2 this.1, digits_of_dec_ascii hD.2 this.2.1⟩

/-- SSCC: decimal digits, of any script. -/
theorem C14_sscc_partial (u : Str) (x : SSCC) (h : SSCC.new u = .ok x) : UDigits x.companyPref ∧ UDigits x.serial := by
  simp only [uDigits_iff]
  obtain ⟨C, D, ⟨hC, hD⟩, _, _, rfl⟩ := SSCC.new_iff.1 h
  exact ⟨hC.2, hD.2⟩

/-- SSCC: ASCII digits, for a URI of ASCII characters. -/
theorem C14_sscc_ascii_partial (u : Str) (ha : Ascii u) (x : SSCC) (h : SSCC.new u = .ok x) : Digits x.companyPref ∧ Digits x.serial := by
  obtain ⟨C, D, ⟨hC, hD⟩, _, rfl, rfl⟩ := SSCC.new_iff.1 h
  have := ascii_uri2 (q := py "urn:epc:id:sscc") ha
  exact ⟨digits_of_dec_ascii hC.2 this.1, digits_of_dec_ascii hD.2 this.2⟩

/-- SGLN: decimal digits, of any script. -/
theorem C14_sgln_partial (u : Str) (x : SGLN) (h : SGLN.new u = .ok x) : UDigits x.companyPref ∧ UDigits x.locationRef := by
  simp only [uDigits_iff]
  obtain ⟨C, D, S, ⟨hC, hD, hS⟩, _, _, rfl⟩ := SGLN.new_iff.1 h
  exact ⟨hC.2, hD⟩

/-- SGLN: ASCII digits, for a URI of ASCII characters. -/
theorem C14_sgln_ascii_partial (u : Str) (ha : Ascii u) (x : SGLN) (h : SGLN.new u = .ok x) : Digits x.companyPref ∧ Digits x.locationRef := by
  obtain ⟨C, D, S, ⟨hC, hD, hS⟩, _, rfl, rfl⟩ := SGLN.new_iff.1 h
  have := ascii_uri3 (q := py "urn:epc:id:sgln") ha
  exact ⟨digits_of_dec_ascii hC.2 this.1, digits_of_dec_ascii hD this.2.1⟩

/-- GRAI: decimal digits, of any script. -/
theorem C14_grai_partial (u : Str) (x : GRAI) (h : GRAI.new u = .ok x) : UDigits x.companyPref ∧ UDigits x.assetType := by
  simp only [uDigits_iff]
  obtain ⟨C, D, S, ⟨hC, hD, hS⟩, _, _, rfl⟩ := GRAI.new_iff.1 h
  exact ⟨hC.2, hD⟩

/-- GRAI: ASCII digits, for a URI of ASCII characters. -/
theorem C14_grai_ascii_partial (u : Str) (ha : Ascii u) (x : GRAI) (h : GRAI.new u = .ok x) : Digits x.companyPref ∧ Digits x.assetType := by
  obtain ⟨C, D, S, ⟨hC, hD, hS⟩, _, rfl, rfl⟩ := GRAI.new_iff.1 h
  have := ascii_uri3 (q := py "urn:epc:id:grai") ha
  exact ⟨digits_of_dec_ascii hC.2 this.1, digits_of_dec_ascii hD this.2.1⟩

/-- GDTI: decimal digits, of any script. -/
theorem C14_gdti_partial (u : Str) (x : GDTI) (h : GDTI.new u = .ok x) : UDigits x.companyPref ∧ UDigits x.docType := by
  simp only [uDigits_iff]
  obtain ⟨C, D, S, ⟨hC, hD, hS⟩, _, _, rfl⟩ := GDTI.new_iff.1 h
  exact ⟨hC.2, hD⟩

/-- GDTI: ASCII digits, for a URI of ASCII characters. -/
theorem C14_gdti_ascii_partial (u : Str) (ha : Ascii u) (x : GDTI) (h : GDTI.new u = .ok x) : Digits x.companyPref ∧ Digits x.docType := by
  obtain ⟨C, D, S, ⟨hC, hD, hS⟩, _, rfl, rfl⟩ := GDTI.new_iff.1 h
  have := ascii_uri3 (q := py "urn:epc:id:gdti") ha
  exact ⟨digits_of_dec_ascii hC.2 this.1, digits_of_dec_ascii hD this.2.1⟩

/-- GIAI: decimal digits, of any script. -/
theorem C14_giai_partial (u : Str) (x : GIAI) (h : GIAI.new u = .ok x) : UDigits x.companyPref := by
  simp only [uDigits_iff]
  obtain ⟨C, S, ⟨hC, hS⟩, _, _, rfl⟩ := GIAI.new_iff.1 h
  exact hC.2

/-- GIAI: ASCII digits, for a URI of ASCII characters. -/
theorem C14_giai_ascii_partial (u : Str) (ha : Ascii u) (x : GIAI) (h : GIAI.new u = .ok x) : Digits x.companyPref := by
  obtain ⟨C, S, ⟨hC, hS⟩, _, rfl, rfl⟩ := GIAI.new_iff.1 h
  have := ascii_uri2 (q := py "urn:epc:id:giai") ha
  exact digits_of_dec_ascii hC.2 this.1

/-- GSRN: decimal digits, of any script. -/
theorem C14_gsrn_partial (u : Str) (x : GSRN) (h : GSRN.new u = .ok x) : UDigits x.companyPref ∧ UDigits x.serviceRef := by
  simp only [uDigits_iff]
  obtain ⟨C, D, ⟨hC, hD⟩, _, _, rfl⟩ := GSRN.new_iff.1 h
  exact ⟨hC.2, hD.2⟩

/-- GSRN: ASCII digits, for a URI of ASCII characters. -/
theorem C14_gsrn_ascii_partial (u : Str) (ha : Ascii u) (x : GSRN) (h : GSRN.new u = .ok x) : Digits x.companyPref ∧ Digits x.serviceRef := by
  obtain ⟨C, D, ⟨hC, hD⟩, _, rfl, rfl⟩ := GSRN.new_iff.1 h
  have := ascii_uri2 (q := py "urn:epc:id:gsrn") ha
  exact ⟨digits_of_dec_ascii hC.2 this.1, digits_of_dec_ascii hD.2 this.2⟩

/-- GSRNP: decimal digits, of any script. -/
theorem C14_gsrnp_partial (u : Str) (x : GSRNP) (h : GSRNP.new u = .ok x) : UDigits x.companyPref ∧ UDigits x.serviceRef := by
  simp only [uDigits_iff]
  obtain ⟨C, D, ⟨hC, hD⟩, _, _, rfl⟩ := GSRNP.new_iff.1 h
  exact ⟨hC.2, hD.2⟩

/-- GSRNP: ASCII digits, for a URI of ASCII characters. -/
theorem C14_gsrnp_ascii_partial (u : Str) (ha : Ascii u) (x : GSRNP) (h : GSRNP.new u = .ok x) : Digits x.companyPref ∧ Digits x.serviceRef := by
  obtain ⟨C, D, ⟨hC, hD⟩, _, rfl, rfl⟩ := GSRNP.new_iff.1 h
  have := ascii_uri2 (q := py "urn:epc:id:gsrnp") ha
  exact ⟨digits_of_dec_ascii hC.2 this.1, digits_of_dec_ascii hD.2 this.2⟩

/-- GSIN: decimal digits, of any script. -/
theorem C14_gsin_partial (u : Str) (x : GSIN) (h : GSIN.new u = .ok x) : UDigits x.companyPref ∧ UDigits x.shipperRef := by
  simp only [uDigits_iff]
  obtain ⟨C, D, ⟨hC, hD⟩, _, _, rfl⟩ := GSIN.new_iff.1 h
  exact ⟨hC.2, hD.2⟩

/-- GSIN: ASCII digits, for a URI of ASCII characters. -/
theorem C14_gsin_ascii_partial (u : Str) (ha : Ascii u) (x : GSIN) (h : GSIN.new u = .ok x) : Digits x.companyPref ∧ Digits x.shipperRef := by
  obtain ⟨C, D, ⟨hC, hD⟩, _, rfl, rfl⟩ := GSIN.new_iff.1 h
  have := ascii_uri2 (q := py "urn:epc:id:gsin") ha
  exact ⟨digits_of_dec_ascii hC.2 this.1, digits_of_dec_ascii hD.2 this.2⟩

/-- PGLN: decimal digits, of any script. -/
theorem C14_pgln_partial (u : Str) (x : PGLN) (h : PGLN.new u = .ok x) : UDigits x.companyPref ∧ UDigits x.partyRef := by
  simp only [uDigits_iff]
  obtain ⟨C, D, ⟨hC, hD⟩, _, _, rfl⟩ := PGLN.new_iff.1 h
  exact ⟨hC.2, hD⟩

/-- PGLN: ASCII digits, for a URI of ASCII characters. -/
theorem C14_pgln_ascii_partial (u : Str) (ha : Ascii u) (x : PGLN) (h : PGLN.new u = .ok x) : Digits x.companyPref ∧ Digits x.partyRef := by
  obtain ⟨C, D, ⟨hC, hD⟩, _, rfl, rfl⟩ := PGLN.new_iff.1 h
  have := ascii_uri2 (q := py "urn:epc:id:pgln") ha
  exact ⟨digits_of_dec_ascii hC.2 this.1, digits_of_dec_ascii hD this.2⟩

/-- SGCN: decimal digits, of any script. -/
theorem C14_sgcn_partial (u : Str) (x : SGCN) (h : SGCN.new u = .ok x) : UDigits x.companyPref ∧ UDigits x.couponRef ∧ UDigits x.serial := by
  simp only [uDigits_iff]
  obtain ⟨C, D, S, ⟨hC, hD, hS⟩, _, _, rfl⟩ := SGCN.new_iff.1 h
  exact ⟨hC.2, hD, hS.2⟩

/-- SGCN: ASCII digits, for a URI of ASCII characters. -/
theorem C14_sgcn_ascii_partial (u : Str) (ha : Ascii u) (x : SGCN) (h : SGCN.new u = .ok x) : Digits x.companyPref ∧ Digits x.couponRef ∧ Digits x.serial := by
  obtain ⟨C, D, S, ⟨hC, hD, hS⟩, _, rfl, rfl⟩ := SGCN.new_iff.1 h
  have := ascii_uri3 (q := py "urn:epc:id:sgcn") ha
  exact ⟨digits_of_dec_ascii hC.2 this.1, digits_of_dec_ascii hD this.2.1, digits_of_dec_ascii hS.2 this.2.2⟩

/-- CPI: decimal digits, of any script. -/
theorem C14_cpi_partial (u : Str) (x : CPI) (h : CPI.new u = .ok x) : UDigits x.companyPref ∧ UDigits x.serial := by
  simp only [uDigits_iff]
  obtain ⟨C, D, S, ⟨hC, hD, hS⟩, _, _, rfl⟩ := CPI.new_iff.1 h
  exact ⟨hC.2, hS.dec⟩

/-- CPI: ASCII digits, for a URI of ASCII characters. -/
theorem C14_cpi_ascii_partial (u : Str) (ha : Ascii u) (x : CPI) (h : CPI.new u = .ok x) : Digits x.companyPref ∧ Digits x.serial := by
  obtain ⟨C, D, S, ⟨hC, hD, hS⟩, _, rfl, rfl⟩ := CPI.new_iff.1 h
  have := ascii_uri3 (q := py "urn:epc:id:cpi") ha
  exact ⟨digits_of_dec_ascii hC.2 this.1, digits_of_dec_ascii hS.dec this.2.2⟩

/-- UPUI: decimal digits, of any script. -/
theorem C14_upui_partial (u : Str) (x : UPUI) (h : UPUI.new u = .ok x) : UDigits x.companyPref ∧ UDigits x.itemRef := by
  simp only [uDigits_iff]
  obtain ⟨C, D, S, ⟨hC, hD, hS⟩, _, _, rfl⟩ := UPUI.new_iff.1 h
  exact ⟨hC.2, hD⟩

/-- UPUI: ASCII digits, for a URI of ASCII characters. -/
theorem C14_upui_ascii_partial (u : Str) (ha : Ascii u) (x : UPUI) (h : UPUI.new u = .ok x) : Digits x.companyPref ∧ Digits x.itemRef := by
  obtain ⟨C, D, S, ⟨hC, hD, hS⟩, _, rfl, rfl⟩ := UPUI.new_iff.1 h
  have := ascii_uri3 (q := py "urn:epc:id:upui") ha
  exact ⟨digits_of_dec_ascii hC.2 this.1, digits_of_dec_ascii hD this.2.1⟩

/-- LGTIN: decimal digits, of any script. -/
theorem C14_lgtin_partial (u : Str) (x : LGTIN) (h : LGTIN.new u = .ok x) : UDigits x.companyPref ∧ UDigits x.itemRef := by
  simp only [uDigits_iff]
  obtain ⟨C, D, S, ⟨hC, hD, hS⟩, _, _, rfl⟩ := LGTIN.new_iff.1 h
  exact ⟨hC.2, hD.2⟩

/-- LGTIN: ASCII digits, for a URI of ASCII characters. -/
theorem C14_lgtin_ascii_partial (u : Str) (ha : Ascii u) (x : LGTIN) (h : LGTIN.new u = .ok x) : Digits x.companyPref ∧ Digits x.itemRef := by
  obtain ⟨C, D, S, ⟨hC, hD, hS⟩, _, rfl, rfl⟩ := LGTIN.new_iff.1 h
  have := ascii_uri3 (q := py "urn:epc:class:lgtin") ha
  exact ⟨digits_of_dec_ascii hC.2 this.1, digits_of_dec_ascii hD.2 this.2.1⟩

/-- ITIP: decimal digits, of any script. -/
theorem C14_itip_partial (u : Str) (x : ITIP) (h : ITIP.new u = .ok x) : UDigits x.companyPref ∧ UDigits x.itemRef ∧ UDigits x.piece ∧ UDigits x.total := by
  simp only [uDigits_iff]
  obtain ⟨C, I, A, B, S, ⟨hC, hI, hA, hB, hS⟩, _, _, rfl⟩ := ITIP.new_iff.1 h
  exact ⟨hC.2, hI.2, hA.2, hB.2⟩

/-- ITIP: ASCII digits, for a URI of ASCII characters. -/
theorem C14_itip_ascii_partial (u : Str) (ha : Ascii u) (x : ITIP) (h : ITIP.new u = .ok x) : Digits x.companyPref ∧ Digits x.itemRef ∧ Digits x.piece ∧ Digits x.total := by
  obtain ⟨C, I, A, B, S, ⟨hC, hI, hA, hB, hS⟩, _, rfl, rfl⟩ := ITIP.new_iff.1 h
  have := ascii_uri5 (q := py "urn:epc:id:itip") ha
  exact ⟨digits_of_dec_ascii hC.2 this.1, digits_of_dec_ascii hI.2 this.2.1, digits_of_dec_ascii hA.2 this.2.2.1, digits_of_dec_ascii hB.2 this.2.2.2.1⟩

/-- GID: decimal digits, of any script. -/
theorem C14_gid_partial (u : Str) (x : GID) (h : GID.new u = .ok x) : UDigits x.manager ∧ UDigits x.object ∧ UDigits x.serial := by
  simp only [uDigits_iff]
  obtain ⟨C, D, S, ⟨hC, hD, hS⟩, _, _, rfl⟩ := GID.new_iff.1 h
  exact ⟨hC.dec, hD.dec, hS.dec⟩

/-- GID: ASCII digits, for a URI of ASCII characters. -/
theorem C14_gid_ascii_partial (u : Str) (ha : Ascii u) (x : GID) (h : GID.new u = .ok x) : Digits x.manager ∧ Digits x.object ∧ Digits x.serial := by
  obtain ⟨C, D, S, ⟨hC, hD, hS⟩, _, rfl, rfl⟩ := GID.new_iff.1 h
  have := ascii_uri3 (q := py "urn:epc:id:gid") ha
  exact ⟨digits_of_dec_ascii hC.dec this.1, digits_of_dec_ascii hD.dec this.2.1, digits_of_dec_ascii hS.dec this.2.2⟩

/-- USDOD: decimal digits, of any script. -/
theorem C14_usdod_partial (u : Str) (x : USDOD) (h : USDOD.new u = .ok x) : UDigits x.serial := by
  simp only [uDigits_iff]
  obtain ⟨C, S, ⟨hC, hS⟩, _, _, rfl⟩ := USDOD.new_iff.1 h
  exact hS.dec

/-- USDOD: ASCII digits, for a URI of ASCII characters. -/
theorem C14_usdod_ascii_partial (u : Str) (ha : Ascii u) (x : USDOD) (h : USDOD.new u = .ok x) : Digits x.serial := by
  obtain ⟨C, S, ⟨hC, hS⟩, _, rfl, rfl⟩ := USDOD.new_iff.1 h
  have := ascii_uri2 (q := py "urn:epc:id:usdod") ha
  exact digits_of_dec_ascii hS.dec this.2

/-- BIC: the serial and check digit are ASCII digits. -/
theorem C14_bic (u : Str) (x : BIC) (h : BIC.new u = .ok x) : Digits x.serial ∧ Digits x.checkDigit := by
  obtain ⟨o, c, d, ⟨_, _, _, hd⟩, _, rfl⟩ := BIC.new_iff.1 h
  rw [← digits_iff] at hd
  exact ⟨fun c hc => hd c (List.mem_of_mem_take hc), fun c hc => hd c (List.mem_of_mem_drop hc)⟩

/-- IMOVN: the vessel number consists of ASCII digits. -/
theorem C14_imovn (u : Str) (x : IMOVN) (h : IMOVN.new u = .ok x) : Digits x.vesselNumber := by
  obtain ⟨d, ⟨_, hd⟩, _, rfl⟩ := IMOVN.new_iff.1 h
  rwa [← digits_iff] at hd

example : (ITIP.new (py "urn:epc:id:itip:9521141.054321.01.02.4711")).isOk = true := by decide +kernel

end Epc
