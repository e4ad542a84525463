/-
C11: an accepted pure identity is kept verbatim, and it is the scheme's prefix followed by the object's components joined with '.'.
-/
import Verif.Lemmas.NewMore

namespace Epc
open Spec Re

/-- SGTIN. -/
theorem C11_sgtin (u : Str) (x : SGTIN) (h : SGTIN.new u = .ok x) :
    x.epcUri = u ∧ u = py "urn:epc:id:sgtin:" ++ joinWith '.' [x.companyPref, x.itemRef, x.serial] := by
  obtain ⟨C, D, S, _, _, hu, rfl⟩ := SGTIN.new_iff.1 h
  exact ⟨rfl, hu⟩

example : (SGTIN.new (py "urn:epc:id:sgtin:9521141.012345.4711")).isOk = true := by decide +kernel

/-- SSCC. -/
theorem C11_sscc (u : Str) (x : SSCC) (h : SSCC.new u = .ok x) :
    x.epcUri = u ∧ u = py "urn:epc:id:sscc:" ++ joinWith '.' [x.companyPref, x.serial] := by
  obtain ⟨C, D, _, _, hu, rfl⟩ := SSCC.new_iff.1 h
  exact ⟨rfl, hu⟩

example : (SSCC.new (py "urn:epc:id:sscc:9521141.1234567890")).isOk = true := by decide +kernel

/-- SGLN. -/
theorem C11_sgln (u : Str) (x : SGLN) (h : SGLN.new u = .ok x) :
    x.epcUri = u ∧ u = py "urn:epc:id:sgln:" ++ joinWith '.' [x.companyPref, x.locationRef, x.serial] := by
  obtain ⟨C, D, S, _, _, hu, rfl⟩ := SGLN.new_iff.1 h
  exact ⟨rfl, hu⟩

example : (SGLN.new (py "urn:epc:id:sgln:9521141.12345.400")).isOk = true := by decide +kernel

/-- GRAI. -/
theorem C11_grai (u : Str) (x : GRAI) (h : GRAI.new u = .ok x) :
    x.epcUri = u ∧ u = py "urn:epc:id:grai:" ++ joinWith '.' [x.companyPref, x.assetType, x.serial] := by
  obtain ⟨C, D, S, _, _, hu, rfl⟩ := GRAI.new_iff.1 h
  exact ⟨rfl, hu⟩

example : (GRAI.new (py "urn:epc:id:grai:9521141.12345.400")).isOk = true := by decide +kernel

/-- GDTI. -/
theorem C11_gdti (u : Str) (x : GDTI) (h : GDTI.new u = .ok x) :
    x.epcUri = u ∧ u = py "urn:epc:id:gdti:" ++ joinWith '.' [x.companyPref, x.docType, x.serial] := by
  obtain ⟨C, D, S, _, _, hu, rfl⟩ := GDTI.new_iff.1 h
  exact ⟨rfl, hu⟩

example : (GDTI.new (py "urn:epc:id:gdti:9521141.12345.400")).isOk = true := by decide +kernel

/-- GSRN. -/
theorem C11_gsrn (u : Str) (x : GSRN) (h : GSRN.new u = .ok x) :
    x.epcUri = u ∧ u = py "urn:epc:id:gsrn:" ++ joinWith '.' [x.companyPref, x.serviceRef] := by
  obtain ⟨C, D, _, _, hu, rfl⟩ := GSRN.new_iff.1 h
  exact ⟨rfl, hu⟩

example : (GSRN.new (py "urn:epc:id:gsrn:9521141.1234567890")).isOk = true := by decide +kernel

/-- GSRNP. -/
theorem C11_gsrnp (u : Str) (x : GSRNP) (h : GSRNP.new u = .ok x) :
    x.epcUri = u ∧ u = py "urn:epc:id:gsrnp:" ++ joinWith '.' [x.companyPref, x.serviceRef] := by
  obtain ⟨C, D, _, _, hu, rfl⟩ := GSRNP.new_iff.1 h
  exact ⟨rfl, hu⟩

example : (GSRNP.new (py "urn:epc:id:gsrnp:9521141.1234567890")).isOk = true := by decide +kernel

/-- CPI. -/
theorem C11_cpi (u : Str) (x : CPI) (h : CPI.new u = .ok x) :
    x.epcUri = u ∧ u = py "urn:epc:id:cpi:" ++ joinWith '.' [x.companyPref, x.cpRef, x.serial] := by
  obtain ⟨C, D, S, _, _, hu, rfl⟩ := CPI.new_iff.1 h
  exact ⟨rfl, hu⟩

example : (CPI.new (py "urn:epc:id:cpi:9521141.5PQ7%2FZ43.12345")).isOk = true := by decide +kernel

/-- SGCN. -/
theorem C11_sgcn (u : Str) (x : SGCN) (h : SGCN.new u = .ok x) :
    x.epcUri = u ∧ u = py "urn:epc:id:sgcn:" ++ joinWith '.' [x.companyPref, x.couponRef, x.serial] := by
  obtain ⟨C, D, S, _, _, hu, rfl⟩ := SGCN.new_iff.1 h
  exact ⟨rfl, hu⟩

example : (SGCN.new (py "urn:epc:id:sgcn:4012345.67890.04711")).isOk = true := by decide +kernel

/-- ITIP. -/
theorem C11_itip (u : Str) (x : ITIP) (h : ITIP.new u = .ok x) :
    x.epcUri = u ∧ u = py "urn:epc:id:itip:" ++ joinWith '.' [x.companyPref, x.itemRef, x.piece, x.total, x.serial] := by
  obtain ⟨C, I, A, B, S, _, _, hu, rfl⟩ := ITIP.new_iff.1 h
  exact ⟨rfl, hu⟩

example : (ITIP.new (py "urn:epc:id:itip:9521141.054321.01.02.4711")).isOk = true := by decide +kernel

/-- GID. -/
theorem C11_gid (u : Str) (x : GID) (h : GID.new u = .ok x) :
    x.epcUri = u ∧ u = py "urn:epc:id:gid:" ++ joinWith '.' [x.manager, x.object, x.serial] := by
  obtain ⟨C, D, S, _, _, hu, rfl⟩ := GID.new_iff.1 h
  exact ⟨rfl, hu⟩

example : (GID.new (py "urn:epc:id:gid:952056.2718.1414")).isOk = true := by decide +kernel

/-- USDOD. -/
theorem C11_usdod (u : Str) (x : USDOD) (h : USDOD.new u = .ok x) :
    x.epcUri = u ∧ u = py "urn:epc:id:usdod:" ++ joinWith '.' [x.cage, x.serial] := by
  obtain ⟨C, D, _, _, hu, rfl⟩ := USDOD.new_iff.1 h
  exact ⟨rfl, hu⟩

example : (USDOD.new (py "urn:epc:id:usdod:2S194.12345678901")).isOk = true := by decide +kernel

/-- ADI. -/
theorem C11_adi (u : Str) (x : ADI) (h : ADI.new u = .ok x) :
    x.epcUri = u ∧ u = py "urn:epc:id:adi:" ++ joinWith '.' [x.cage, x.partNumber, x.serial] := by
  obtain ⟨C, D, S, _, _, hu, rfl⟩ := ADI.new_iff.1 h
  exact ⟨rfl, hu⟩

example : (ADI.new (py "urn:epc:id:adi:2S194..12345678901")).isOk = true := by decide +kernel

/-- GSIN. -/
theorem C11_gsin (u : Str) (x : GSIN) (h : GSIN.new u = .ok x) :
    x.epcUri = u ∧ u = py "urn:epc:id:gsin:" ++ joinWith '.' [x.companyPref, x.shipperRef] := by
  obtain ⟨C, D, _, _, hu, rfl⟩ := GSIN.new_iff.1 h
  exact ⟨rfl, hu⟩

example : (GSIN.new (py "urn:epc:id:gsin:9521141.123456789")).isOk = true := by decide +kernel

/-- PGLN. -/
theorem C11_pgln (u : Str) (x : PGLN) (h : PGLN.new u = .ok x) :
    x.epcUri = u ∧ u = py "urn:epc:id:pgln:" ++ joinWith '.' [x.companyPref, x.partyRef] := by
  obtain ⟨C, D, _, _, hu, rfl⟩ := PGLN.new_iff.1 h
  exact ⟨rfl, hu⟩

example : (PGLN.new (py "urn:epc:id:pgln:9521141.89012")).isOk = true := by decide +kernel

/-- BIC: the components are concatenated without separator. -/
theorem C11_bic (u : Str) (x : BIC) (h : BIC.new u = .ok x) :
    x.epcUri = u ∧ u = py "urn:epc:id:bic:" ++ x.containerCode ∧
      x.containerCode = x.ownerCode ++ x.equipmentCategory ++ x.serial ++ x.checkDigit := by
  obtain ⟨o, c, d, _, hu, rfl⟩ := BIC.new_iff.1 h
  refine ⟨rfl, hu, ?_⟩
  simp [List.take_append_drop]

example : (BIC.new (py "urn:epc:id:bic:CSQU3054383")).isOk = true := by decide +kernel

/-- IMOVN. -/
theorem C11_imovn (u : Str) (x : IMOVN) (h : IMOVN.new u = .ok x) :
    x.epcUri = u ∧ u = py "urn:epc:id:imovn:" ++ x.vesselNumber := by
  obtain ⟨d, _, hu, rfl⟩ := IMOVN.new_iff.1 h
  exact ⟨rfl, hu⟩

example : (IMOVN.new (py "urn:epc:id:imovn:9176187")).isOk = true := by decide +kernel

/-- UPUI: the object stores the third component unescaped. -/
theorem C11_upui (u : Str) (x : UPUI) (h : UPUI.new u = .ok x) :
    x.epcUri = u ∧ ∃ tpx, x.tpx = replaceUriEscapes tpx ∧
      u = py "urn:epc:id:upui:" ++ joinWith '.' [x.companyPref, x.itemRef, tpx] := by
  obtain ⟨C, I, S, _, _, hu, rfl⟩ := UPUI.new_iff.1 h
  exact ⟨rfl, S, rfl, hu⟩

example : (UPUI.new (py "urn:epc:id:upui:9521141.089456.51qIgY)%3C%26Jp3*j7'SDB")).isOk = true := by decide +kernel

/-- LGTIN: the object stores the lot unescaped. -/
theorem C11_lgtin (u : Str) (x : LGTIN) (h : LGTIN.new u = .ok x) :
    x.epcUri = u ∧ ∃ lot, x.lot = replaceUriEscapes lot ∧
      u = py "urn:epc:class:lgtin:" ++ joinWith '.' [x.companyPref, x.itemRef, lot] := by
  obtain ⟨C, I, S, _, _, hu, rfl⟩ := LGTIN.new_iff.1 h
  exact ⟨rfl, S, rfl, hu⟩

example : (LGTIN.new (py "urn:epc:class:lgtin:4012345.012345.998877")).isOk = true := by decide +kernel

/-- GINC: the object stores company prefix and unescaped reference as one string. -/
theorem C11_ginc (u : Str) (x : GINC) (h : GINC.new u = .ok x) :
    x.epcUri = u ∧ ∃ C ref, x.ginc = C ++ replaceUriEscapes ref ∧ u = py "urn:epc:id:ginc:" ++ joinWith '.' [C, ref] := by
  obtain ⟨C, S, _, _, hu, rfl⟩ := GINC.new_iff.1 h
  exact ⟨rfl, C, S, rfl, hu⟩

example : (GINC.new (py "urn:epc:id:ginc:9521141.xyz3311cba")).isOk = true := by decide +kernel

/-- GIAI: `epc_uri` is kept, and the URI starts with prefix and components; it continues after them only with a colon. -/
theorem C11_giai_partial (u : Str) (x : GIAI) (h : GIAI.new u = .ok x) :
    x.epcUri = u ∧ ∃ rest, u = py "urn:epc:id:giai:" ++ joinWith '.' [x.companyPref, x.assetRef] ++ rest ∧
      (rest = [] ∨ ∃ t, rest = ':' :: t) := by
  obtain ⟨C, S, _, _, hu, rfl⟩ := GIAI.new_iff.1 h
  refine ⟨rfl, ?_⟩
  obtain ⟨t, ht, he⟩ := headD_split_append ':' S
  refine ⟨t, ?_, he⟩
  conv at hu => rhs; rw [ht]
  rw [hu]
  simp [joinWith]

/-- GIAI without a colon in the asset reference: the full statement. -/
theorem C11_giai_nocolon_partial (u : Str) (x : GIAI) (h : GIAI.new (py "urn:epc:id:giai:" ++ u) = .ok x) (hc : ':' ∉ u) :
    py "urn:epc:id:giai:" ++ u = py "urn:epc:id:giai:" ++ joinWith '.' [x.companyPref, x.assetRef] := by
  obtain ⟨-, rest, hu, hr⟩ := C11_giai_partial _ _ h
  rcases hr with rfl | ⟨t, rfl⟩
  · simpa using hu
  · rw [List.append_assoc] at hu
    have := List.append_cancel_left hu
    exact absurd (by rw [this]; simp) hc

example : (GIAI.new (py "urn:epc:id:giai:9521141.12345400")).isOk = true := by decide +kernel

/-- The claim is false for GIAI: everything after a colon in the asset reference is dropped from the object's components. -/
theorem C11_giai_claim_false : ¬ ∀ (u : Str) (x : GIAI), GIAI.new u = .ok x →
    u = py "urn:epc:id:giai:" ++ joinWith '.' [x.companyPref, x.assetRef] := by
  intro h
  have := h (py "urn:epc:id:giai:9521141.AB:CD") ⟨py "urn:epc:id:giai:9521141.AB:CD", py "9521141", py "AB", py "9521141AB"⟩
    (by decide +kernel)
  revert this
  decide +kernel

end Epc
