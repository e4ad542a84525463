/-
C21: binary round trip of the fixed numeric encodings: `from_binary(x.binary(scheme, f)) == x` whenever `tag_uri` returns.

Objects are compared as records of all attributes.  For SSCC, GSRN, GSRNP, SGCN, GID and USDOD `tag_uri` always returns.  GIAI: asset
references containing a colon are excluded (the claim is false for them); ITIP: piece and total of two digits below 99.
Generated by tools/gen_bin.py.
-/
import Verif.Lemmas.Avail
import Verif.Lemmas.Shape

namespace Epc
open Spec Re

/-- SGTIN-96. -/
theorem C21_sgtin96 (u t : Str) (x : SGTIN) (f : Fin 8) (ha : Ascii u) (hu : SGTIN.new u = .ok x)
    (ht : x.tagUri .sgtin96 f = .ok t) :
    ∃ b, x.binary .sgtin96 f = .ok b ∧ SGTIN.fromBinary b = .ok x := by
  obtain ⟨rest, _, H⟩ := SGTIN.avail_sgtin96 ha hu ht
  refine ⟨_, H.enc_eq f, ?_⟩
  have := H.dec_eq f []
  rwa [List.append_nil] at this

example : Ascii (py "urn:epc:id:sgtin:9521141.012345.4711") ∧ ((do let x ← SGTIN.new (py "urn:epc:id:sgtin:9521141.012345.4711"); x.tagUri .sgtin96 3) : Except Err Str).isOk = true := by decide +kernel

/-- SSCC-96. -/
theorem C21_sscc96 (u : Str) (x : SSCC) (f : Fin 8) (ha : Ascii u) (hu : SSCC.new u = .ok x) :
    ∃ b, x.binary .sscc96 f = .ok b ∧ SSCC.fromBinary b = .ok x := by
  obtain ⟨rest, _, H⟩ := SSCC.binOk_sscc96 ha hu
  refine ⟨_, H.enc_eq f, ?_⟩
  have := H.dec_eq f []
  rwa [List.append_nil] at this

example : Ascii (py "urn:epc:id:sscc:9521141.1234567890") ∧ ((do let x ← SSCC.new (py "urn:epc:id:sscc:9521141.1234567890"); x.tagUri .sscc96 3) : Except Err Str).isOk = true := by decide +kernel

/-- SGLN-96. -/
theorem C21_sgln96 (u t : Str) (x : SGLN) (f : Fin 8) (ha : Ascii u) (hu : SGLN.new u = .ok x)
    (ht : x.tagUri .sgln96 f = .ok t) :
    ∃ b, x.binary .sgln96 f = .ok b ∧ SGLN.fromBinary b = .ok x := by
  obtain ⟨rest, _, H⟩ := SGLN.avail_sgln96 ha hu ht
  refine ⟨_, H.enc_eq f, ?_⟩
  have := H.dec_eq f []
  rwa [List.append_nil] at this

example : Ascii (py "urn:epc:id:sgln:9521141.12345.4711") ∧ ((do let x ← SGLN.new (py "urn:epc:id:sgln:9521141.12345.4711"); x.tagUri .sgln96 3) : Except Err Str).isOk = true := by decide +kernel

/-- GRAI-96. -/
theorem C21_grai96 (u t : Str) (x : GRAI) (f : Fin 8) (ha : Ascii u) (hu : GRAI.new u = .ok x)
    (ht : x.tagUri .grai96 f = .ok t) :
    ∃ b, x.binary .grai96 f = .ok b ∧ GRAI.fromBinary b = .ok x := by
  obtain ⟨rest, _, H⟩ := GRAI.avail_grai96 ha hu ht
  refine ⟨_, H.enc_eq f, ?_⟩
  have := H.dec_eq f []
  rwa [List.append_nil] at this

example : Ascii (py "urn:epc:id:grai:9521141.12345.4711") ∧ ((do let x ← GRAI.new (py "urn:epc:id:grai:9521141.12345.4711"); x.tagUri .grai96 3) : Except Err Str).isOk = true := by decide +kernel

/-- GIAI-96. -/
theorem C21_giai96_partial (body t : Str) (x : GIAI) (f : Fin 8) (ha : Ascii body) (hc : ':' ∉ body)
    (hu : GIAI.new (py "urn:epc:id:giai:" ++ body) = .ok x)
    (ht : x.tagUri .giai96 f = .ok t) :
    ∃ b, x.binary .giai96 f = .ok b ∧ GIAI.fromBinary b = .ok x := by
  obtain ⟨rest, _, H⟩ := GIAI.binOk_giai96 (ascii_append.2 ⟨by decide, ha⟩) hu (GIAI.normal_of_no_colon hc hu) (GIAI.serial_of_tagUri hu ht)
  refine ⟨_, H.enc_eq f, ?_⟩
  have := H.dec_eq f []
  rwa [List.append_nil] at this

example : Ascii (py "urn:epc:id:giai:9521141.4711") ∧ ((do let x ← GIAI.new (py "urn:epc:id:giai:9521141.4711"); x.tagUri .giai96 3) : Except Err Str).isOk = true := by decide +kernel

/-- GSRN-96. -/
theorem C21_gsrn96 (u : Str) (x : GSRN) (f : Fin 8) (ha : Ascii u) (hu : GSRN.new u = .ok x) :
    ∃ b, x.binary .gsrn96 f = .ok b ∧ GSRN.fromBinary b = .ok x := by
  obtain ⟨rest, _, H⟩ := GSRN.binOk_gsrn96 ha hu
  refine ⟨_, H.enc_eq f, ?_⟩
  have := H.dec_eq f []
  rwa [List.append_nil] at this

example : Ascii (py "urn:epc:id:gsrn:9521141.1234567890") ∧ ((do let x ← GSRN.new (py "urn:epc:id:gsrn:9521141.1234567890"); x.tagUri .gsrn96 3) : Except Err Str).isOk = true := by decide +kernel

/-- GSRNP-96. -/
theorem C21_gsrnp96 (u : Str) (x : GSRNP) (f : Fin 8) (ha : Ascii u) (hu : GSRNP.new u = .ok x) :
    ∃ b, x.binary .gsrnp96 f = .ok b ∧ GSRNP.fromBinary b = .ok x := by
  obtain ⟨rest, _, H⟩ := GSRNP.binOk_gsrnp96 ha hu
  refine ⟨_, H.enc_eq f, ?_⟩
  have := H.dec_eq f []
  rwa [List.append_nil] at this

example : Ascii (py "urn:epc:id:gsrnp:9521141.1234567890") ∧ ((do let x ← GSRNP.new (py "urn:epc:id:gsrnp:9521141.1234567890"); x.tagUri .gsrnp96 3) : Except Err Str).isOk = true := by decide +kernel

/-- GDTI-96. -/
theorem C21_gdti96 (u t : Str) (x : GDTI) (f : Fin 8) (ha : Ascii u) (hu : GDTI.new u = .ok x)
    (ht : x.tagUri .gdti96 f = .ok t) :
    ∃ b, x.binary .gdti96 f = .ok b ∧ GDTI.fromBinary b = .ok x := by
  obtain ⟨rest, _, H⟩ := GDTI.avail_gdti96 ha hu ht
  refine ⟨_, H.enc_eq f, ?_⟩
  have := H.dec_eq f []
  rwa [List.append_nil] at this

example : Ascii (py "urn:epc:id:gdti:9521141.12345.4711") ∧ ((do let x ← GDTI.new (py "urn:epc:id:gdti:9521141.12345.4711"); x.tagUri .gdti96 3) : Except Err Str).isOk = true := by decide +kernel

/-- CPI-96. -/
theorem C21_cpi96 (u t : Str) (x : CPI) (f : Fin 8) (ha : Ascii u) (hu : CPI.new u = .ok x)
    (ht : x.tagUri .cpi96 f = .ok t) :
    ∃ b, x.binary .cpi96 f = .ok b ∧ CPI.fromBinary b = .ok x := by
  obtain ⟨rest, _, H⟩ := CPI.avail_cpi96 ha hu ht
  refine ⟨_, H.enc_eq f, ?_⟩
  have := H.dec_eq f []
  rwa [List.append_nil] at this

example : Ascii (py "urn:epc:id:cpi:9521141.98765.12345") ∧ ((do let x ← CPI.new (py "urn:epc:id:cpi:9521141.98765.12345"); x.tagUri .cpi96 3) : Except Err Str).isOk = true := by decide +kernel

/-- SGCN-96. -/
theorem C21_sgcn96 (u : Str) (x : SGCN) (f : Fin 8) (ha : Ascii u) (hu : SGCN.new u = .ok x) :
    ∃ b, x.binary .sgcn96 f = .ok b ∧ SGCN.fromBinary b = .ok x := by
  obtain ⟨rest, _, H⟩ := SGCN.binOk_sgcn96 ha hu
  refine ⟨_, H.enc_eq f, ?_⟩
  have := H.dec_eq f []
  rwa [List.append_nil] at this

example : Ascii (py "urn:epc:id:sgcn:9521141.67890.04711") ∧ ((do let x ← SGCN.new (py "urn:epc:id:sgcn:9521141.67890.04711"); x.tagUri .sgcn96 3) : Except Err Str).isOk = true := by decide +kernel

/-- ITIP-110. -/
theorem C21_itip110_partial (u t : Str) (x : ITIP) (f : Fin 8) (ha : Ascii u) (hu : ITIP.new u = .ok x)
    (hp : x.piece.length = 2 ∧ number x.piece < 99) (hq : x.total.length = 2 ∧ number x.total < 99) (ht : x.tagUri .itip110 f = .ok t) :
    ∃ b, x.binary .itip110 f = .ok b ∧ ITIP.fromBinary b = .ok x := by
  obtain ⟨rest, _, H⟩ := ITIP.avail_itip110 ha hu hp hq ht
  refine ⟨_, H.enc_eq f, ?_⟩
  have := H.dec_eq f []
  rwa [List.append_nil] at this

example : Ascii (py "urn:epc:id:itip:9521141.012345.02.04.981") ∧ ((do let x ← ITIP.new (py "urn:epc:id:itip:9521141.012345.02.04.981"); x.tagUri .itip110 3) : Except Err Str).isOk = true := by decide +kernel

/-- GID-96. -/
theorem C21_gid96 (u : Str) (x : GID) (ha : Ascii u) (hu : GID.new u = .ok x) :
    ∃ b, x.binary .gid96 = .ok b ∧ GID.fromBinary b = .ok x := by
  obtain ⟨rest, _, H⟩ := GID.binOk_gid96 ha hu
  refine ⟨_, H.enc_eq 0, ?_⟩
  have := H.dec_eq 0 []
  rwa [List.append_nil] at this

example : Ascii (py "urn:epc:id:gid:952056.2718.1414") ∧ ((do let x ← GID.new (py "urn:epc:id:gid:952056.2718.1414"); x.tagUri .gid96) : Except Err Str).isOk = true := by decide +kernel

/-- USDOD-96. -/
theorem C21_usdod96 (u : Str) (x : USDOD) (f : Fin 16) (ha : Ascii u) (hu : USDOD.new u = .ok x) :
    ∃ b, x.binary .usdod96 f = .ok b ∧ USDOD.fromBinary b = .ok x := by
  obtain ⟨rest, _, H⟩ := USDOD.binOk_usdod96 ha hu
  refine ⟨_, H.enc_eq f, ?_⟩
  have := H.dec_eq f []
  rwa [List.append_nil] at this

example : Ascii (py "urn:epc:id:usdod:CAGEY.5678") ∧ ((do let x ← USDOD.new (py "urn:epc:id:usdod:CAGEY.5678"); x.tagUri .usdod96 3) : Except Err Str).isOk = true := by decide +kernel

/-- The claim for GIAI-96 without the hypothesis on colons. -/
def C21_giai_claim : Prop := ∀ (u t : Str) (x : GIAI) (f : Fin 8), Ascii u → GIAI.new u = .ok x → x.tagUri .giai96 f = .ok t →
  ∃ b, x.binary .giai96 f = .ok b ∧ GIAI.fromBinary b = .ok x

/-- It is false: `urn:epc:id:giai:0614141.123:45` is decoded as `urn:epc:id:giai:0614141.123`. -/
theorem C21_giai_claim_false : ¬ C21_giai_claim := by
  intro h
  have h1 : ∃ x t y, GIAI.new (py "urn:epc:id:giai:0614141.123:45") = .ok x ∧ x.tagUri .giai96 0 = .ok t ∧
      x.binary .giai96 0 >>= GIAI.fromBinary = .ok y ∧ x.epcUri ≠ y.epcUri := by
    refine ⟨_, _, ⟨py "urn:epc:id:giai:0614141.123", py "0614141", py "123", py "0614141123"⟩, rfl, rfl, by decide +kernel, by decide +kernel⟩
  obtain ⟨x, t, y, h1, h2, h3, h4⟩ := h1
  obtain ⟨b, h5, h6⟩ := h _ t x 0 (by decide) h1 h2
  rw [h5] at h3
  have h3 : GIAI.fromBinary b = .ok y := h3
  rw [h6] at h3
  injection h3 with h3
  exact h4 (by rw [h3])

/-- The claim for ITIP-110 without the hypotheses on piece and total. -/
def C21_itip_claim : Prop := ∀ (u t : Str) (x : ITIP) (f : Fin 8), Ascii u → ITIP.new u = .ok x → x.tagUri .itip110 f = .ok t →
  ∃ b, x.binary .itip110 f = .ok b ∧ ITIP.fromBinary b = .ok x

/-- It is false: `binary` raises `ConvertException` for piece 99 of 99. -/
theorem C21_itip_claim_false : ¬ C21_itip_claim := by
  intro h
  have h1 : ∃ x t, ITIP.new (py "urn:epc:id:itip:9521141.012345.99.99.981") = .ok x ∧ x.tagUri .itip110 0 = .ok t ∧
      x.binary .itip110 0 = .error .convert := by
    refine ⟨_, _, rfl, rfl, by decide +kernel⟩
  obtain ⟨x, t, h1, h2, h3⟩ := h1
  obtain ⟨b, h4, _⟩ := h _ t x 0 (by decide) h1 h2
  rw [h3] at h4
  cases h4

/-- With piece and total of the wrong lengths, another object comes back: `….1.004.981` is decoded as `….01.04.981`. -/
theorem C21_itip_lengths_counterexample :
    ((do let x ← ITIP.new (py "urn:epc:id:itip:9521141.012345.1.004.981"); let b ← x.binary .itip110 0; let y ← ITIP.fromBinary b; return y.epcUri) :
      Except Err Str) = .ok (py "urn:epc:id:itip:9521141.012345.01.04.981") := by decide +kernel

end Epc
