/-
C20: binary encodings have the size their scheme names.

`bitsNumber` reads a bit string as a number.  Header: the first eight bits; filter value: the three (USDOD: four, ADI: six) bits after
it.  The digits may be of any script.  False for alphanumeric serials that are not in canonical form, and for ITIP with piece or total 99 or not of two digits.
Generated by tools/gen_bin.py.
-/
import Verif.Lemmas.Avail
import Verif.Lemmas.Shape
import Verif.Lemmas.BinSplit
import Verif.Lemmas.AvailAny

namespace Epc
open Spec Re

theorem C20_sgtin96 (u t : Str) (x : SGTIN) (f : Fin 8) (hu : SGTIN.new u = .ok x)
    (ht : x.tagUri .sgtin96 f = .ok t) :
    ∃ b, x.binary .sgtin96 f = .ok b ∧ Bits b ∧ b.length = 96 ∧ b.take 8 = py "00110000" ∧ bitsNumber ((b.drop 8).take 3) = f := by
  obtain ⟨y, _, rest, hl, H⟩ := SGTIN.any_sgtin96 hu ht
  obtain ⟨b, e, h1, h2, h3, h4⟩ := H.shape (by decide) rfl (fun f => length_bin (by omega) (by omega)) f
  exact ⟨b, e, h1, by omega, h3, h4⟩

example : Ascii (py "urn:epc:id:sgtin:9521141.012345.4711") ∧ ((do let x ← SGTIN.new (py "urn:epc:id:sgtin:9521141.012345.4711"); x.tagUri .sgtin96 3) : Except Err Str).isOk = true := by decide +kernel

theorem C20_sgtin198_partial (u : Str) (x : SGTIN) (f : Fin 8) (hu : SGTIN.new u = .ok x)
    (hs : Canonical x.serial) :
    ∃ b, x.binary .sgtin198 f = .ok b ∧ Bits b ∧ b.length = 198 ∧ b.take 8 = py "00110110" ∧ bitsNumber ((b.drop 8).take 3) = f := by
  obtain ⟨y, _, rest, hl, H⟩ := SGTIN.any_sgtin198 hu hs
  obtain ⟨b, e, h1, h2, h3, h4⟩ := H.shape (by decide) rfl (fun f => length_bin (by omega) (by omega)) f
  exact ⟨b, e, h1, by omega, h3, h4⟩

example : Ascii (py "urn:epc:id:sgtin:9521141.012345.32a%2Fb") ∧ ((do let x ← SGTIN.new (py "urn:epc:id:sgtin:9521141.012345.32a%2Fb"); x.tagUri .sgtin198 3) : Except Err Str).isOk = true := by decide +kernel
example : Canonical (py "32a%2Fb") := ⟨py "32a/b", by decide, by decide, by decide⟩

theorem C20_sscc96 (u : Str) (x : SSCC) (f : Fin 8) (hu : SSCC.new u = .ok x) :
    ∃ b, x.binary .sscc96 f = .ok b ∧ Bits b ∧ b.length = 96 ∧ b.take 8 = py "00110001" ∧ bitsNumber ((b.drop 8).take 3) = f := by
  obtain ⟨y, _, rest, hl, H⟩ := SSCC.any_sscc96 hu
  obtain ⟨b, e, h1, h2, h3, h4⟩ := H.shape (by decide) rfl (fun f => length_bin (by omega) (by omega)) f
  exact ⟨b, e, h1, by omega, h3, h4⟩

example : Ascii (py "urn:epc:id:sscc:9521141.1234567890") ∧ ((do let x ← SSCC.new (py "urn:epc:id:sscc:9521141.1234567890"); x.tagUri .sscc96 3) : Except Err Str).isOk = true := by decide +kernel

theorem C20_sgln96 (u t : Str) (x : SGLN) (f : Fin 8) (hu : SGLN.new u = .ok x)
    (ht : x.tagUri .sgln96 f = .ok t) :
    ∃ b, x.binary .sgln96 f = .ok b ∧ Bits b ∧ b.length = 96 ∧ b.take 8 = py "00110010" ∧ bitsNumber ((b.drop 8).take 3) = f := by
  obtain ⟨y, _, rest, hl, H⟩ := SGLN.any_sgln96 hu ht
  obtain ⟨b, e, h1, h2, h3, h4⟩ := H.shape (by decide) rfl (fun f => length_bin (by omega) (by omega)) f
  exact ⟨b, e, h1, by omega, h3, h4⟩

example : Ascii (py "urn:epc:id:sgln:9521141.12345.4711") ∧ ((do let x ← SGLN.new (py "urn:epc:id:sgln:9521141.12345.4711"); x.tagUri .sgln96 3) : Except Err Str).isOk = true := by decide +kernel

theorem C20_sgln195_partial (u : Str) (x : SGLN) (f : Fin 8) (hu : SGLN.new u = .ok x)
    (hs : Canonical x.serial) :
    ∃ b, x.binary .sgln195 f = .ok b ∧ Bits b ∧ b.length = 195 ∧ b.take 8 = py "00111001" ∧ bitsNumber ((b.drop 8).take 3) = f := by
  obtain ⟨y, _, rest, hl, H⟩ := SGLN.any_sgln195 hu hs
  obtain ⟨b, e, h1, h2, h3, h4⟩ := H.shape (by decide) rfl (fun f => length_bin (by omega) (by omega)) f
  exact ⟨b, e, h1, by omega, h3, h4⟩

example : Ascii (py "urn:epc:id:sgln:9521141.12345.32a%2Fb") ∧ ((do let x ← SGLN.new (py "urn:epc:id:sgln:9521141.12345.32a%2Fb"); x.tagUri .sgln195 3) : Except Err Str).isOk = true := by decide +kernel
example : Canonical (py "32a%2Fb") := ⟨py "32a/b", by decide, by decide, by decide⟩

theorem C20_grai96 (u t : Str) (x : GRAI) (f : Fin 8) (hu : GRAI.new u = .ok x)
    (ht : x.tagUri .grai96 f = .ok t) :
    ∃ b, x.binary .grai96 f = .ok b ∧ Bits b ∧ b.length = 96 ∧ b.take 8 = py "00110011" ∧ bitsNumber ((b.drop 8).take 3) = f := by
  obtain ⟨y, _, rest, hl, H⟩ := GRAI.any_grai96 hu ht
  obtain ⟨b, e, h1, h2, h3, h4⟩ := H.shape (by decide) rfl (fun f => length_bin (by omega) (by omega)) f
  exact ⟨b, e, h1, by omega, h3, h4⟩

example : Ascii (py "urn:epc:id:grai:9521141.12345.4711") ∧ ((do let x ← GRAI.new (py "urn:epc:id:grai:9521141.12345.4711"); x.tagUri .grai96 3) : Except Err Str).isOk = true := by decide +kernel

theorem C20_grai170_partial (u : Str) (x : GRAI) (f : Fin 8) (hu : GRAI.new u = .ok x)
    (hs : Canonical x.serial) :
    ∃ b, x.binary .grai170 f = .ok b ∧ Bits b ∧ b.length = 170 ∧ b.take 8 = py "00110111" ∧ bitsNumber ((b.drop 8).take 3) = f := by
  obtain ⟨y, _, rest, hl, H⟩ := GRAI.any_grai170 hu hs
  obtain ⟨b, e, h1, h2, h3, h4⟩ := H.shape (by decide) rfl (fun f => length_bin (by omega) (by omega)) f
  exact ⟨b, e, h1, by omega, h3, h4⟩

example : Ascii (py "urn:epc:id:grai:9521141.12345.32a%2Fb") ∧ ((do let x ← GRAI.new (py "urn:epc:id:grai:9521141.12345.32a%2Fb"); x.tagUri .grai170 3) : Except Err Str).isOk = true := by decide +kernel
example : Canonical (py "32a%2Fb") := ⟨py "32a/b", by decide, by decide, by decide⟩

theorem C20_giai96 (u t : Str) (x : GIAI) (f : Fin 8) (hu : GIAI.new u = .ok x)
    (ht : x.tagUri .giai96 f = .ok t) :
    ∃ b, x.binary .giai96 f = .ok b ∧ Bits b ∧ b.length = 96 ∧ b.take 8 = py "00110100" ∧ bitsNumber ((b.drop 8).take 3) = f := by
  obtain ⟨y, _, rest, hl, H⟩ := GIAI.any_giai96 hu ht
  obtain ⟨b, e, h1, h2, h3, h4⟩ := H.shape (by decide) rfl (fun f => length_bin (by omega) (by omega)) f
  exact ⟨b, e, h1, by omega, h3, h4⟩

example : Ascii (py "urn:epc:id:giai:9521141.4711") ∧ ((do let x ← GIAI.new (py "urn:epc:id:giai:9521141.4711"); x.tagUri .giai96 3) : Except Err Str).isOk = true := by decide +kernel

theorem C20_giai202_partial (u : Str) (x : GIAI) (f : Fin 8) (hu : GIAI.new u = .ok x)
    (hs : Canonical x.assetRef) :
    ∃ b, x.binary .giai202 f = .ok b ∧ Bits b ∧ b.length = 202 ∧ b.take 8 = py "00111000" ∧ bitsNumber ((b.drop 8).take 3) = f := by
  obtain ⟨y, _, rest, hl, H⟩ := GIAI.any_giai202 hu hs
  obtain ⟨b, e, h1, h2, h3, h4⟩ := H.shape (by decide) rfl (fun f => length_bin (by omega) (by omega)) f
  exact ⟨b, e, h1, by omega, h3, h4⟩

example : Ascii (py "urn:epc:id:giai:9521141.32a%2Fb") ∧ ((do let x ← GIAI.new (py "urn:epc:id:giai:9521141.32a%2Fb"); x.tagUri .giai202 3) : Except Err Str).isOk = true := by decide +kernel
example : Canonical (py "32a%2Fb") := ⟨py "32a/b", by decide, by decide, by decide⟩

theorem C20_gsrn96 (u : Str) (x : GSRN) (f : Fin 8) (hu : GSRN.new u = .ok x) :
    ∃ b, x.binary .gsrn96 f = .ok b ∧ Bits b ∧ b.length = 96 ∧ b.take 8 = py "00101101" ∧ bitsNumber ((b.drop 8).take 3) = f := by
  obtain ⟨y, _, rest, hl, H⟩ := GSRN.any_gsrn96 hu
  obtain ⟨b, e, h1, h2, h3, h4⟩ := H.shape (by decide) rfl (fun f => length_bin (by omega) (by omega)) f
  exact ⟨b, e, h1, by omega, h3, h4⟩

example : Ascii (py "urn:epc:id:gsrn:9521141.1234567890") ∧ ((do let x ← GSRN.new (py "urn:epc:id:gsrn:9521141.1234567890"); x.tagUri .gsrn96 3) : Except Err Str).isOk = true := by decide +kernel

theorem C20_gsrnp96 (u : Str) (x : GSRNP) (f : Fin 8) (hu : GSRNP.new u = .ok x) :
    ∃ b, x.binary .gsrnp96 f = .ok b ∧ Bits b ∧ b.length = 96 ∧ b.take 8 = py "00101110" ∧ bitsNumber ((b.drop 8).take 3) = f := by
  obtain ⟨y, _, rest, hl, H⟩ := GSRNP.any_gsrnp96 hu
  obtain ⟨b, e, h1, h2, h3, h4⟩ := H.shape (by decide) rfl (fun f => length_bin (by omega) (by omega)) f
  exact ⟨b, e, h1, by omega, h3, h4⟩

example : Ascii (py "urn:epc:id:gsrnp:9521141.1234567890") ∧ ((do let x ← GSRNP.new (py "urn:epc:id:gsrnp:9521141.1234567890"); x.tagUri .gsrnp96 3) : Except Err Str).isOk = true := by decide +kernel

theorem C20_gdti96 (u t : Str) (x : GDTI) (f : Fin 8) (hu : GDTI.new u = .ok x)
    (ht : x.tagUri .gdti96 f = .ok t) :
    ∃ b, x.binary .gdti96 f = .ok b ∧ Bits b ∧ b.length = 96 ∧ b.take 8 = py "00101100" ∧ bitsNumber ((b.drop 8).take 3) = f := by
  obtain ⟨y, _, rest, hl, H⟩ := GDTI.any_gdti96 hu ht
  obtain ⟨b, e, h1, h2, h3, h4⟩ := H.shape (by decide) rfl (fun f => length_bin (by omega) (by omega)) f
  exact ⟨b, e, h1, by omega, h3, h4⟩

example : Ascii (py "urn:epc:id:gdti:9521141.12345.4711") ∧ ((do let x ← GDTI.new (py "urn:epc:id:gdti:9521141.12345.4711"); x.tagUri .gdti96 3) : Except Err Str).isOk = true := by decide +kernel

theorem C20_gdti174_partial (u : Str) (x : GDTI) (f : Fin 8) (hu : GDTI.new u = .ok x)
    (hs : Canonical x.serial) :
    ∃ b, x.binary .gdti174 f = .ok b ∧ Bits b ∧ b.length = 174 ∧ b.take 8 = py "00111110" ∧ bitsNumber ((b.drop 8).take 3) = f := by
  obtain ⟨y, _, rest, hl, H⟩ := GDTI.any_gdti174 hu hs
  obtain ⟨b, e, h1, h2, h3, h4⟩ := H.shape (by decide) rfl (fun f => length_bin (by omega) (by omega)) f
  exact ⟨b, e, h1, by omega, h3, h4⟩

example : Ascii (py "urn:epc:id:gdti:9521141.12345.32a%2Fb") ∧ ((do let x ← GDTI.new (py "urn:epc:id:gdti:9521141.12345.32a%2Fb"); x.tagUri .gdti174 3) : Except Err Str).isOk = true := by decide +kernel
example : Canonical (py "32a%2Fb") := ⟨py "32a/b", by decide, by decide, by decide⟩

theorem C20_cpi96 (u t : Str) (x : CPI) (f : Fin 8) (hu : CPI.new u = .ok x)
    (ht : x.tagUri .cpi96 f = .ok t) :
    ∃ b, x.binary .cpi96 f = .ok b ∧ Bits b ∧ b.length = 96 ∧ b.take 8 = py "00111100" ∧ bitsNumber ((b.drop 8).take 3) = f := by
  obtain ⟨y, _, rest, hl, H⟩ := CPI.any_cpi96 hu ht
  obtain ⟨b, e, h1, h2, h3, h4⟩ := H.shape (by decide) rfl (fun f => length_bin (by omega) (by omega)) f
  exact ⟨b, e, h1, by omega, h3, h4⟩

example : Ascii (py "urn:epc:id:cpi:9521141.98765.12345") ∧ ((do let x ← CPI.new (py "urn:epc:id:cpi:9521141.98765.12345"); x.tagUri .cpi96 3) : Except Err Str).isOk = true := by decide +kernel

theorem C20_cpi_var (u : Str) (x : CPI) (f : Fin 8) (hu : CPI.new u = .ok x) :
    ∃ b, x.binary .cpiVar f = .ok b ∧ Bits b ∧ 61 ≤ b.length ∧ b.take 8 = py "00111101" ∧ bitsNumber ((b.drop 8).take 3) = f := by
  obtain ⟨y, _, rest, hl, H⟩ := CPI.any_cpiVar hu
  obtain ⟨b, e, h1, h2, h3, h4⟩ := H.shape (by decide) rfl (fun f => length_bin (by omega) (by omega)) f
  exact ⟨b, e, h1, by omega, h3, h4⟩

example : Ascii (py "urn:epc:id:cpi:9521141.5PQ7%2FZ43.12345") ∧ ((do let x ← CPI.new (py "urn:epc:id:cpi:9521141.5PQ7%2FZ43.12345"); x.tagUri .cpiVar 3) : Except Err Str).isOk = true := by decide +kernel

theorem C20_sgcn96 (u : Str) (x : SGCN) (f : Fin 8) (hu : SGCN.new u = .ok x) :
    ∃ b, x.binary .sgcn96 f = .ok b ∧ Bits b ∧ b.length = 96 ∧ b.take 8 = py "00111111" ∧ bitsNumber ((b.drop 8).take 3) = f := by
  obtain ⟨y, _, rest, hl, H⟩ := SGCN.any_sgcn96 hu
  obtain ⟨b, e, h1, h2, h3, h4⟩ := H.shape (by decide) rfl (fun f => length_bin (by omega) (by omega)) f
  exact ⟨b, e, h1, by omega, h3, h4⟩

example : Ascii (py "urn:epc:id:sgcn:9521141.67890.04711") ∧ ((do let x ← SGCN.new (py "urn:epc:id:sgcn:9521141.67890.04711"); x.tagUri .sgcn96 3) : Except Err Str).isOk = true := by decide +kernel

theorem C20_itip110_partial (u t : Str) (x : ITIP) (f : Fin 8) (hu : ITIP.new u = .ok x)
    (hp : x.piece.length = 2 ∧ unumber x.piece < 99) (hq : x.total.length = 2 ∧ unumber x.total < 99) (ht : x.tagUri .itip110 f = .ok t) :
    ∃ b, x.binary .itip110 f = .ok b ∧ Bits b ∧ b.length = 110 ∧ b.take 8 = py "01000000" ∧ bitsNumber ((b.drop 8).take 3) = f := by
  obtain ⟨y, _, rest, hl, H⟩ := ITIP.any_itip110 hu hp hq ht
  obtain ⟨b, e, h1, h2, h3, h4⟩ := H.shape (by decide) rfl (fun f => length_bin (by omega) (by omega)) f
  exact ⟨b, e, h1, by omega, h3, h4⟩

example : Ascii (py "urn:epc:id:itip:9521141.012345.02.04.981") ∧ ((do let x ← ITIP.new (py "urn:epc:id:itip:9521141.012345.02.04.981"); x.tagUri .itip110 3) : Except Err Str).isOk = true := by decide +kernel

theorem C20_itip212_partial (u : Str) (x : ITIP) (f : Fin 8) (hu : ITIP.new u = .ok x)
    (hp : x.piece.length = 2 ∧ unumber x.piece < 99) (hq : x.total.length = 2 ∧ unumber x.total < 99) (hs : Canonical x.serial) :
    ∃ b, x.binary .itip212 f = .ok b ∧ Bits b ∧ b.length = 212 ∧ b.take 8 = py "01000001" ∧ bitsNumber ((b.drop 8).take 3) = f := by
  obtain ⟨y, _, rest, hl, H⟩ := ITIP.any_itip212 hu hp hq hs
  obtain ⟨b, e, h1, h2, h3, h4⟩ := H.shape (by decide) rfl (fun f => length_bin (by omega) (by omega)) f
  exact ⟨b, e, h1, by omega, h3, h4⟩

example : Ascii (py "urn:epc:id:itip:9521141.012345.02.04.32a%2Fb") ∧ ((do let x ← ITIP.new (py "urn:epc:id:itip:9521141.012345.02.04.32a%2Fb"); x.tagUri .itip212 3) : Except Err Str).isOk = true := by decide +kernel
example : Canonical (py "32a%2Fb") := ⟨py "32a/b", by decide, by decide, by decide⟩

theorem C20_gid96 (u : Str) (x : GID) (hu : GID.new u = .ok x) :
    ∃ b, x.binary .gid96 = .ok b ∧ Bits b ∧ b.length = 96 ∧ b.take 8 = py "00110101" := by
  obtain ⟨y, _, rest, hl, H⟩ := GID.any_gid96 hu
  exact ⟨_, H.enc_eq 0, Bits_append.2 ⟨by decide, H.bits⟩, by rw [List.length_append, List.length_append, hl]; rfl, rfl⟩

example : Ascii (py "urn:epc:id:gid:952056.2718.1414") ∧ ((do let x ← GID.new (py "urn:epc:id:gid:952056.2718.1414"); x.tagUri .gid96) : Except Err Str).isOk = true := by decide +kernel

theorem C20_usdod96 (u : Str) (x : USDOD) (f : Fin 16) (hu : USDOD.new u = .ok x) :
    ∃ b, x.binary .usdod96 f = .ok b ∧ Bits b ∧ b.length = 96 ∧ b.take 8 = py "00101111" ∧ bitsNumber ((b.drop 8).take 4) = f := by
  obtain ⟨y, _, rest, hl, H⟩ := USDOD.any_usdod96 hu
  obtain ⟨b, e, h1, h2, h3, h4⟩ := H.shape (by decide) rfl (fun f => length_bin (by omega) (by omega)) f
  exact ⟨b, e, h1, by omega, h3, h4⟩

example : Ascii (py "urn:epc:id:usdod:CAGEY.5678") ∧ ((do let x ← USDOD.new (py "urn:epc:id:usdod:CAGEY.5678"); x.tagUri .usdod96 3) : Except Err Str).isOk = true := by decide +kernel

/-- ADI-var: a variable number of six-bit groups behind header and filter value. -/
theorem C20_adi_var (u : Str) (x : ADI) (f : Fin 64) (hu : ADI.new u = .ok x) :
    ∃ b, x.binary .adiVar f = .ok b ∧ Bits b ∧ b.length % 6 = 2 ∧ 68 ≤ b.length ∧ b.take 8 = py "00111011" ∧ bitsNumber ((b.drop 8).take 6) = f := by
  obtain ⟨rp, rs, hrp, hrs, _, ep, es, h1, h2, h3, _, _⟩ := ADI.parts hu
  obtain ⟨cb, c1, c2, _, hb⟩ := ADI.binary_form hu (fun c hc => (hrp c hc).1) hrs ep es
  have hl : (bin 6 f).length = 6 := length_bin (by omega) (by omega)
  have h6 : (py "000000").length = 6 := rfl
  have h8 : (ADI.Coding.header .adiVar).length = 8 := rfl
  have l1 := length_code6 rp
  have l2 := length_code6 rs
  refine ⟨_, hb f, ?_, ?_, ?_, rfl, ?_⟩
  · exact Bits_append.2 ⟨by decide, Bits_append.2 ⟨Bits_bin _ _, Bits_append.2 ⟨c1, Bits_append.2 ⟨Bits_code6 _, Bits_append.2
      ⟨by decide, Bits_append.2 ⟨Bits_code6 _, by decide⟩⟩⟩⟩⟩⟩
  · simp only [List.length_append]; omega
  · simp only [List.length_append]; omega
  · rw [drop_append_eq h8, take_append_eq hl, bitsNumber_bin]
example : Ascii (py "urn:epc:id:adi:W81X9C.3KL984PX1.2WMA-52") ∧ ((do let x ← ADI.new (py "urn:epc:id:adi:W81X9C.3KL984PX1.2WMA-52"); x.tagUri .adiVar 3) : Except Err Str).isOk = true := by decide +kernel

/-- The claim without the canonicity hypothesis. -/
def C20_claim : Prop := ∀ (u t : Str) (x : SGTIN) (f : Fin 8), SGTIN.new u = .ok x → x.tagUri .sgtin198 f = .ok t →
  ∃ b, x.binary .sgtin198 f = .ok b ∧ b.length = 198

/-- It is false: for the serial `a%2F%4zz` the tag URI is available but `binary` raises `ValueError`. -/
theorem C20_claim_false : ¬ C20_claim := by
  intro h
  have h1 : ∃ x t, SGTIN.new (py "urn:epc:id:sgtin:9521141.012345.a%2F%4zz") = .ok x ∧ x.tagUri .sgtin198 0 = .ok t ∧
      x.binary .sgtin198 0 = .error .value := by
    refine ⟨_, _, rfl, rfl, by decide +kernel⟩
  obtain ⟨x, t, h1, h2, h3⟩ := h1
  obtain ⟨b, h4, _⟩ := h _ t x 0 h1 h2
  rw [h3] at h4
  cases h4

/-- ITIP: a piece or total of 99 (or more) is refused by `binary` with `ConvertException`, although `tag_uri` returns. -/
theorem C20_itip_99 (u : Str) (x : ITIP) (cs : ITIP.Coding) (f : Fin 8) (hu : ITIP.new u = .ok x)
    (h : 99 ≤ unumber x.piece ∨ 99 ≤ unumber x.total) (b : Str) : x.binary cs f ≠ .ok b := by
  intro hb
  have := ITIP.any_small hu hb
  omega

example : ((do let x ← ITIP.new (py "urn:epc:id:itip:9521141.012345.99.99.981"); x.tagUri .itip110 3) : Except Err Str).isOk = true ∧
    ((do let x ← ITIP.new (py "urn:epc:id:itip:9521141.012345.99.99.981"); x.binary .itip110 3) : Except Err Str) = .error .convert := by decide +kernel

end Epc
