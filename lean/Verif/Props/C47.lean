/-
C47: the long coding schemes are available for every accepted object and every filter value.
Generated by tools/gen_c17.py.
-/
import Verif.Lemmas.TagForm

namespace Epc
open Spec Re

/-- SGTIN: sgtin-198 is available for every accepted object. -/
theorem C47_sgtin (body : Str) (x : SGTIN) (f : Fin 8) (hu : SGTIN.new (py "urn:epc:id:sgtin:" ++ body) = .ok x) :
    x.tagUri .sgtin198 f = .ok (py "urn:epc:tag:sgtin-198:" ++ natStr f ++ '.' :: body) := by
  have hb : x.badSerial .sgtin198 = .ok false := by
    obtain ⟨_, _, S, ⟨_, _, hS⟩, _, e, rfl⟩ := SGTIN.new_iff.1 hu
    rfl
  have : ∃ t, x.tagUri .sgtin198 f = .ok t := by
    unfold SGTIN.tagUri
    rw [hb, ok_bind, if_neg (by simp)]
    exact ⟨_, rfl⟩
  obtain ⟨t, ht⟩ := this
  obtain ⟨b, eb, rfl⟩ := SGTIN.tagUri_form hu ht
  rw [ht, List.append_cancel_left eb]
  simp [tagUriPrefix, SGTIN.Coding.value]

example : (SGTIN.new (py "urn:epc:id:sgtin:9521141.012345.a.b%22%3F")).isOk = true := by decide +kernel

/-- SGLN: sgln-195 is available for every accepted object. -/
theorem C47_sgln (body : Str) (x : SGLN) (f : Fin 8) (hu : SGLN.new (py "urn:epc:id:sgln:" ++ body) = .ok x) :
    x.tagUri .sgln195 f = .ok (py "urn:epc:tag:sgln-195:" ++ natStr f ++ '.' :: body) := by
  have hb : x.badSerial .sgln195 = .ok false := by
    obtain ⟨_, _, S, ⟨_, _, hS⟩, ⟨_, _, _, hl⟩, e, rfl⟩ := SGLN.new_iff.1 hu
    unfold SGLN.badSerial
    have := length_replaceUriEscapes S
    simp only [Except.ok.injEq, decide_eq_false_iff_not]
    omega
  have : ∃ t, x.tagUri .sgln195 f = .ok t := by
    unfold SGLN.tagUri
    rw [hb, ok_bind, if_neg (by simp)]
    exact ⟨_, rfl⟩
  obtain ⟨t, ht⟩ := this
  obtain ⟨b, eb, rfl⟩ := SGLN.tagUri_form hu ht
  rw [ht, List.append_cancel_left eb]
  simp [tagUriPrefix, SGLN.Coding.value]

example : (SGLN.new (py "urn:epc:id:sgln:9521141.12345.a.b%22%3F")).isOk = true := by decide +kernel

/-- GRAI: grai-170 is available for every accepted object. -/
theorem C47_grai (body : Str) (x : GRAI) (f : Fin 8) (hu : GRAI.new (py "urn:epc:id:grai:" ++ body) = .ok x) :
    x.tagUri .grai170 f = .ok (py "urn:epc:tag:grai-170:" ++ natStr f ++ '.' :: body) := by
  have hb : x.badSerial .grai170 = .ok false := by
    obtain ⟨_, _, S, ⟨_, _, hS⟩, ⟨_, _, _, hl⟩, e, rfl⟩ := GRAI.new_iff.1 hu
    unfold GRAI.badSerial
    have := length_replaceUriEscapes S
    simp only [Except.ok.injEq, decide_eq_false_iff_not]
    omega
  have : ∃ t, x.tagUri .grai170 f = .ok t := by
    unfold GRAI.tagUri
    rw [hb, ok_bind, if_neg (by simp)]
    exact ⟨_, rfl⟩
  obtain ⟨t, ht⟩ := this
  obtain ⟨b, eb, rfl⟩ := GRAI.tagUri_form hu ht
  rw [ht, List.append_cancel_left eb]
  simp [tagUriPrefix, GRAI.Coding.value]

example : (GRAI.new (py "urn:epc:id:grai:9521141.12345.a.b%22%3F")).isOk = true := by decide +kernel

/-- GDTI: gdti-174 is available for every accepted object. -/
theorem C47_gdti (body : Str) (x : GDTI) (f : Fin 8) (hu : GDTI.new (py "urn:epc:id:gdti:" ++ body) = .ok x) :
    x.tagUri .gdti174 f = .ok (py "urn:epc:tag:gdti-174:" ++ natStr f ++ '.' :: body) := by
  have hb : x.badSerial .gdti174 = .ok false := by
    obtain ⟨_, _, S, ⟨_, _, hS⟩, ⟨_, _, _, hl⟩, e, rfl⟩ := GDTI.new_iff.1 hu
    unfold GDTI.badSerial
    have := length_replaceUriEscapes S
    simp only [Except.ok.injEq, decide_eq_false_iff_not]
    omega
  have : ∃ t, x.tagUri .gdti174 f = .ok t := by
    unfold GDTI.tagUri
    rw [hb, ok_bind, if_neg (by simp)]
    exact ⟨_, rfl⟩
  obtain ⟨t, ht⟩ := this
  obtain ⟨b, eb, rfl⟩ := GDTI.tagUri_form hu ht
  rw [ht, List.append_cancel_left eb]
  simp [tagUriPrefix, GDTI.Coding.value]

example : (GDTI.new (py "urn:epc:id:gdti:9521141.12345.a.b%22%3F")).isOk = true := by decide +kernel

/-- ITIP: itip-212 is available for every accepted object. -/
theorem C47_itip (body : Str) (x : ITIP) (f : Fin 8) (hu : ITIP.new (py "urn:epc:id:itip:" ++ body) = .ok x) :
    x.tagUri .itip212 f = .ok (py "urn:epc:tag:itip-212:" ++ natStr f ++ '.' :: body) := by
  have hb : x.badSerial .itip212 = .ok false := by
    obtain ⟨_, _, _, _, S, ⟨_, _, _, _, hS⟩, ⟨_, _, _, _, hl⟩, e, rfl⟩ := ITIP.new_iff.1 hu
    unfold ITIP.badSerial
    have := length_replaceUriEscapes S
    simp only [Except.ok.injEq, decide_eq_false_iff_not]
    omega
  have : ∃ t, x.tagUri .itip212 f = .ok t := by
    unfold ITIP.tagUri
    rw [hb, ok_bind, if_neg (by simp)]
    exact ⟨_, rfl⟩
  obtain ⟨t, ht⟩ := this
  obtain ⟨b, eb, rfl⟩ := ITIP.tagUri_form hu ht
  rw [ht, List.append_cancel_left eb]
  simp [tagUriPrefix, ITIP.Coding.value]

example : (ITIP.new (py "urn:epc:id:itip:9521141.012345.02.04.a.b%22%3F")).isOk = true := by decide +kernel

/-- GIAI: giai-202 is available for every accepted object. -/
theorem C47_giai (u : Str) (x : GIAI) (f : Fin 8) (hu : GIAI.new u = .ok x) :
    x.tagUri .giai202 f = .ok (py "urn:epc:tag:giai-202:" ++ natStr f ++ '.' :: x.companyPref ++ '.' :: x.assetRef) := by
  obtain ⟨C, S, _, ⟨⟨hl1, hl2⟩, _, hl⟩, e, rfl⟩ := GIAI.new_iff.1 hu
  obtain ⟨r, hr, hrow, hL, hM⟩ := rowByL_ok (t := GIAI.table202) hl1 hl2 (by decide)
  have hall : ∀ r ∈ GIAI.table202, r.K = 30 - r.L := by decide
  have hK := hall r hr
  have := length_replaceUriEscapes ((split ':' S).headD [])
  unfold GIAI.tagUri GIAI.badAssetRef
  dsimp only
  rw [hrow]
  simp only [ok_bind, pure_ok]
  rw [if_neg]
  · simp [tagUriPrefix, GIAI.Coding.value, filterStr]
  · rw [decide_eq_true_eq]; omega

example : (GIAI.new (py "urn:epc:id:giai:9521141.a.b%22%3F")).isOk = true := by decide +kernel

/-- CPI: cpi-var is available for every accepted object. -/
theorem C47_cpi (body : Str) (x : CPI) (f : Fin 8) (hu : CPI.new (py "urn:epc:id:cpi:" ++ body) = .ok x) :
    x.tagUri .cpiVar f = .ok (py "urn:epc:tag:cpi-var:" ++ natStr f ++ '.' :: body) := by
  have hb : x.badSerial .cpiVar = .ok false := by
    obtain ⟨C, D, S, _, ⟨_, hl, _⟩, e, rfl⟩ := CPI.new_iff.1 hu
    unfold CPI.badSerial
    simp only [Except.ok.injEq, decide_eq_false_iff_not]
    omega
  have : ∃ t, x.tagUri .cpiVar f = .ok t := by
    unfold CPI.tagUri
    rw [hb, ok_bind, if_neg (by simp)]
    exact ⟨_, rfl⟩
  obtain ⟨t, ht⟩ := this
  obtain ⟨b, eb, rfl⟩ := CPI.tagUri_form hu ht
  rw [ht, List.append_cancel_left eb]
  simp [tagUriPrefix, CPI.Coding.value]

example : (CPI.new (py "urn:epc:id:cpi:9521141.5PQ7%2FZ43.12345")).isOk = true := by decide +kernel

/-- SSCC: sscc-96, its only coding scheme, is available for every accepted object. -/
theorem C47_sscc (body : Str) (x : SSCC) (f : Fin 8) (hu : SSCC.new (py "urn:epc:id:sscc:" ++ body) = .ok x) :
    x.tagUri .sscc96 f = .ok (py "urn:epc:tag:sscc-96:" ++ natStr f ++ '.' :: body) := by
  have : ∃ t, x.tagUri .sscc96 f = .ok t := ⟨_, rfl⟩
  obtain ⟨t, ht⟩ := this
  obtain ⟨b, eb, rfl⟩ := SSCC.tagUri_form hu ht
  rw [ht, List.append_cancel_left eb]
  simp [tagUriPrefix, SSCC.Coding.value]

example : (SSCC.new (py "urn:epc:id:sscc:9521141.1234567890")).isOk = true := by decide +kernel

/-- GSRN: gsrn-96, its only coding scheme, is available for every accepted object. -/
theorem C47_gsrn (body : Str) (x : GSRN) (f : Fin 8) (hu : GSRN.new (py "urn:epc:id:gsrn:" ++ body) = .ok x) :
    x.tagUri .gsrn96 f = .ok (py "urn:epc:tag:gsrn-96:" ++ natStr f ++ '.' :: body) := by
  have : ∃ t, x.tagUri .gsrn96 f = .ok t := ⟨_, rfl⟩
  obtain ⟨t, ht⟩ := this
  obtain ⟨b, eb, rfl⟩ := GSRN.tagUri_form hu ht
  rw [ht, List.append_cancel_left eb]
  simp [tagUriPrefix, GSRN.Coding.value]

example : (GSRN.new (py "urn:epc:id:gsrn:9521141.1234567890")).isOk = true := by decide +kernel

/-- GSRNP: gsrnp-96, its only coding scheme, is available for every accepted object. -/
theorem C47_gsrnp (body : Str) (x : GSRNP) (f : Fin 8) (hu : GSRNP.new (py "urn:epc:id:gsrnp:" ++ body) = .ok x) :
    x.tagUri .gsrnp96 f = .ok (py "urn:epc:tag:gsrnp-96:" ++ natStr f ++ '.' :: body) := by
  have : ∃ t, x.tagUri .gsrnp96 f = .ok t := ⟨_, rfl⟩
  obtain ⟨t, ht⟩ := this
  obtain ⟨b, eb, rfl⟩ := GSRNP.tagUri_form hu ht
  rw [ht, List.append_cancel_left eb]
  simp [tagUriPrefix, GSRNP.Coding.value]

example : (GSRNP.new (py "urn:epc:id:gsrnp:9521141.1234567890")).isOk = true := by decide +kernel

/-- SGCN: sgcn-96, its only coding scheme, is available for every accepted object. -/
theorem C47_sgcn (body : Str) (x : SGCN) (f : Fin 8) (hu : SGCN.new (py "urn:epc:id:sgcn:" ++ body) = .ok x) :
    x.tagUri .sgcn96 f = .ok (py "urn:epc:tag:sgcn-96:" ++ natStr f ++ '.' :: body) := by
  have : ∃ t, x.tagUri .sgcn96 f = .ok t := ⟨_, rfl⟩
  obtain ⟨t, ht⟩ := this
  obtain ⟨b, eb, rfl⟩ := SGCN.tagUri_form hu ht
  rw [ht, List.append_cancel_left eb]
  simp [tagUriPrefix, SGCN.Coding.value]

example : (SGCN.new (py "urn:epc:id:sgcn:9521141.67890.04711")).isOk = true := by decide +kernel

/-- USDOD: usdod-96, its only coding scheme, is available for every accepted object. -/
theorem C47_usdod (body : Str) (x : USDOD) (f : Fin 16) (hu : USDOD.new (py "urn:epc:id:usdod:" ++ body) = .ok x) :
    x.tagUri .usdod96 f = .ok (py "urn:epc:tag:usdod-96:" ++ natStr f ++ '.' :: body) := by
  have : ∃ t, x.tagUri .usdod96 f = .ok t := ⟨_, rfl⟩
  obtain ⟨t, ht⟩ := this
  obtain ⟨b, eb, rfl⟩ := USDOD.tagUri_form hu ht
  rw [ht, List.append_cancel_left eb]
  simp [tagUriPrefix, USDOD.Coding.value]

example : (USDOD.new (py "urn:epc:id:usdod:CAGEY.5678")).isOk = true := by decide +kernel

/-- ADI: adi-var, its only coding scheme, is available for every accepted object. -/
theorem C47_adi (body : Str) (x : ADI) (f : Fin 64) (hu : ADI.new (py "urn:epc:id:adi:" ++ body) = .ok x) :
    x.tagUri .adiVar f = .ok (py "urn:epc:tag:adi-var:" ++ natStr f ++ '.' :: body) := by
  have : ∃ t, x.tagUri .adiVar f = .ok t := ⟨_, rfl⟩
  obtain ⟨t, ht⟩ := this
  obtain ⟨b, eb, rfl⟩ := ADI.tagUri_form hu ht
  rw [ht, List.append_cancel_left eb]
  simp [tagUriPrefix, ADI.Coding.value]

example : (ADI.new (py "urn:epc:id:adi:35962.PQ7VZ4.M37GXB92")).isOk = true := by decide +kernel

/-- GID: gid-96, its only coding scheme, is available for every accepted object. -/
theorem C47_gid (body : Str) (x : GID) (hu : GID.new (py "urn:epc:id:gid:" ++ body) = .ok x) :
    x.tagUri .gid96 = .ok (py "urn:epc:tag:gid-96:" ++ body) := by
  have : ∃ t, x.tagUri .gid96 = .ok t := ⟨_, rfl⟩
  obtain ⟨t, ht⟩ := this
  obtain ⟨b, eb, rfl⟩ := GID.tagUri_form hu ht
  rw [ht, List.append_cancel_left eb]
  simp [tagUriPrefix, GID.Coding.value]

example : (GID.new (py "urn:epc:id:gid:952056.2718.1414")).isOk = true := by decide +kernel

end Epc
