/-
C25: the hexadecimal form is word aligned and round-trips.

`hexBits h` are the bits of `h`, four per digit; `wordPad n` is the number of zero bits that bring n bits to a multiple of 16.  The
theorems `C25_<class>` hold for every binary made of zeros and ones; `binary` returns other text only for serials like `-5` under a
numeric scheme, for which `tag_uri` refuses.  The theorems `C25_<scheme>` are the round trips.
Generated by tools/gen_bin.py.
-/
import Verif.Lemmas.Avail
import Verif.Lemmas.Shape
import Verif.Lemmas.BinSplit

namespace Epc
open Spec Re

/-- SGTIN. -/
theorem C25_sgtin (x : SGTIN) (cs : SGTIN.Coding) (f : Fin 8) (b : Str) (hb : x.binary cs f = .ok b) (hB : Bits b) :
    ∃ h, x.hex cs f = .ok h ∧ UpperHex h ∧ h.length = (b.length + 15) / 16 * 4 ∧
      hexBits h = b ++ List.replicate (wordPad b.length) '0' ∧ SGTIN.fromHex h = SGTIN.fromBinary (b ++ List.replicate (wordPad b.length) '0') := by
  obtain ⟨s, hs, _⟩ := SGTIN.binary_split hb
  unfold SGTIN.hex
  rw [hb]
  exact hex_form hs (by cases cs <;> rfl) (by cases cs <;> decide) hB

/-- SGTIN-96. -/
theorem C25_sgtin96 (u t : Str) (x : SGTIN) (f : Fin 8) (ha : Ascii u) (hu : SGTIN.new u = .ok x)
    (ht : x.tagUri .sgtin96 f = .ok t) :
    ∃ h, x.hex .sgtin96 f = .ok h ∧ SGTIN.fromHex h = .ok x := by
  obtain ⟨rest, _, H⟩ := SGTIN.avail_sgtin96 ha hu ht
  obtain ⟨b, h, _, e, _, _, _, e2⟩ := H.hex (by decide) (fun _ => Bits_bin _ _) rfl (by decide) f
  exact ⟨h, e, e2⟩

example : Ascii (py "urn:epc:id:sgtin:9521141.012345.4711") ∧ ((do let x ← SGTIN.new (py "urn:epc:id:sgtin:9521141.012345.4711"); x.tagUri .sgtin96 3) : Except Err Str).isOk = true := by decide +kernel

/-- SGTIN-198. -/
theorem C25_sgtin198 (u : Str) (x : SGTIN) (f : Fin 8) (ha : Ascii u) (hu : SGTIN.new u = .ok x)
    (hs : Canonical x.serial) :
    ∃ h, x.hex .sgtin198 f = .ok h ∧ SGTIN.fromHex h = .ok x := by
  obtain ⟨rest, _, H⟩ := SGTIN.binOk_sgtin198 ha hu hs
  obtain ⟨b, h, _, e, _, _, _, e2⟩ := H.hex (by decide) (fun _ => Bits_bin _ _) rfl (by decide) f
  exact ⟨h, e, e2⟩

example : Ascii (py "urn:epc:id:sgtin:9521141.012345.32a%2Fb") ∧ ((do let x ← SGTIN.new (py "urn:epc:id:sgtin:9521141.012345.32a%2Fb"); x.tagUri .sgtin198 3) : Except Err Str).isOk = true := by decide +kernel
example : Canonical (py "32a%2Fb") := ⟨py "32a/b", by decide, by decide, by decide⟩

/-- SSCC. -/
theorem C25_sscc (x : SSCC) (cs : SSCC.Coding) (f : Fin 8) (b : Str) (hb : x.binary cs f = .ok b) (hB : Bits b) :
    ∃ h, x.hex cs f = .ok h ∧ UpperHex h ∧ h.length = (b.length + 15) / 16 * 4 ∧
      hexBits h = b ++ List.replicate (wordPad b.length) '0' ∧ SSCC.fromHex h = SSCC.fromBinary (b ++ List.replicate (wordPad b.length) '0') := by
  obtain ⟨s, hs, _⟩ := SSCC.binary_split hb
  unfold SSCC.hex
  rw [hb]
  exact hex_form hs (by cases cs <;> rfl) (by cases cs <;> decide) hB

/-- SSCC-96. -/
theorem C25_sscc96 (u : Str) (x : SSCC) (f : Fin 8) (ha : Ascii u) (hu : SSCC.new u = .ok x) :
    ∃ h, x.hex .sscc96 f = .ok h ∧ SSCC.fromHex h = .ok x := by
  obtain ⟨rest, _, H⟩ := SSCC.binOk_sscc96 ha hu
  obtain ⟨b, h, _, e, _, _, _, e2⟩ := H.hex (by decide) (fun _ => Bits_bin _ _) rfl (by decide) f
  exact ⟨h, e, e2⟩

example : Ascii (py "urn:epc:id:sscc:9521141.1234567890") ∧ ((do let x ← SSCC.new (py "urn:epc:id:sscc:9521141.1234567890"); x.tagUri .sscc96 3) : Except Err Str).isOk = true := by decide +kernel

/-- SGLN. -/
theorem C25_sgln (x : SGLN) (cs : SGLN.Coding) (f : Fin 8) (b : Str) (hb : x.binary cs f = .ok b) (hB : Bits b) :
    ∃ h, x.hex cs f = .ok h ∧ UpperHex h ∧ h.length = (b.length + 15) / 16 * 4 ∧
      hexBits h = b ++ List.replicate (wordPad b.length) '0' ∧ SGLN.fromHex h = SGLN.fromBinary (b ++ List.replicate (wordPad b.length) '0') := by
  obtain ⟨s, hs, _⟩ := SGLN.binary_split hb
  unfold SGLN.hex
  rw [hb]
  exact hex_form hs (by cases cs <;> rfl) (by cases cs <;> decide) hB

/-- SGLN-96. -/
theorem C25_sgln96 (u t : Str) (x : SGLN) (f : Fin 8) (ha : Ascii u) (hu : SGLN.new u = .ok x)
    (ht : x.tagUri .sgln96 f = .ok t) :
    ∃ h, x.hex .sgln96 f = .ok h ∧ SGLN.fromHex h = .ok x := by
  obtain ⟨rest, _, H⟩ := SGLN.avail_sgln96 ha hu ht
  obtain ⟨b, h, _, e, _, _, _, e2⟩ := H.hex (by decide) (fun _ => Bits_bin _ _) rfl (by decide) f
  exact ⟨h, e, e2⟩

example : Ascii (py "urn:epc:id:sgln:9521141.12345.4711") ∧ ((do let x ← SGLN.new (py "urn:epc:id:sgln:9521141.12345.4711"); x.tagUri .sgln96 3) : Except Err Str).isOk = true := by decide +kernel

/-- SGLN-195. -/
theorem C25_sgln195 (u : Str) (x : SGLN) (f : Fin 8) (ha : Ascii u) (hu : SGLN.new u = .ok x)
    (hs : Canonical x.serial) :
    ∃ h, x.hex .sgln195 f = .ok h ∧ SGLN.fromHex h = .ok x := by
  obtain ⟨rest, _, H⟩ := SGLN.binOk_sgln195 ha hu hs
  obtain ⟨b, h, _, e, _, _, _, e2⟩ := H.hex (by decide) (fun _ => Bits_bin _ _) rfl (by decide) f
  exact ⟨h, e, e2⟩

example : Ascii (py "urn:epc:id:sgln:9521141.12345.32a%2Fb") ∧ ((do let x ← SGLN.new (py "urn:epc:id:sgln:9521141.12345.32a%2Fb"); x.tagUri .sgln195 3) : Except Err Str).isOk = true := by decide +kernel
example : Canonical (py "32a%2Fb") := ⟨py "32a/b", by decide, by decide, by decide⟩

/-- GRAI. -/
theorem C25_grai (x : GRAI) (cs : GRAI.Coding) (f : Fin 8) (b : Str) (hb : x.binary cs f = .ok b) (hB : Bits b) :
    ∃ h, x.hex cs f = .ok h ∧ UpperHex h ∧ h.length = (b.length + 15) / 16 * 4 ∧
      hexBits h = b ++ List.replicate (wordPad b.length) '0' ∧ GRAI.fromHex h = GRAI.fromBinary (b ++ List.replicate (wordPad b.length) '0') := by
  obtain ⟨s, hs, _⟩ := GRAI.binary_split hb
  unfold GRAI.hex
  rw [hb]
  exact hex_form hs (by cases cs <;> rfl) (by cases cs <;> decide) hB

/-- GRAI-96. -/
theorem C25_grai96 (u t : Str) (x : GRAI) (f : Fin 8) (ha : Ascii u) (hu : GRAI.new u = .ok x)
    (ht : x.tagUri .grai96 f = .ok t) :
    ∃ h, x.hex .grai96 f = .ok h ∧ GRAI.fromHex h = .ok x := by
  obtain ⟨rest, _, H⟩ := GRAI.avail_grai96 ha hu ht
  obtain ⟨b, h, _, e, _, _, _, e2⟩ := H.hex (by decide) (fun _ => Bits_bin _ _) rfl (by decide) f
  exact ⟨h, e, e2⟩

example : Ascii (py "urn:epc:id:grai:9521141.12345.4711") ∧ ((do let x ← GRAI.new (py "urn:epc:id:grai:9521141.12345.4711"); x.tagUri .grai96 3) : Except Err Str).isOk = true := by decide +kernel

/-- GRAI-170. -/
theorem C25_grai170 (u : Str) (x : GRAI) (f : Fin 8) (ha : Ascii u) (hu : GRAI.new u = .ok x)
    (hs : Canonical x.serial) :
    ∃ h, x.hex .grai170 f = .ok h ∧ GRAI.fromHex h = .ok x := by
  obtain ⟨rest, _, H⟩ := GRAI.binOk_grai170 ha hu hs
  obtain ⟨b, h, _, e, _, _, _, e2⟩ := H.hex (by decide) (fun _ => Bits_bin _ _) rfl (by decide) f
  exact ⟨h, e, e2⟩

example : Ascii (py "urn:epc:id:grai:9521141.12345.32a%2Fb") ∧ ((do let x ← GRAI.new (py "urn:epc:id:grai:9521141.12345.32a%2Fb"); x.tagUri .grai170 3) : Except Err Str).isOk = true := by decide +kernel
example : Canonical (py "32a%2Fb") := ⟨py "32a/b", by decide, by decide, by decide⟩

/-- GIAI. -/
theorem C25_giai (x : GIAI) (cs : GIAI.Coding) (f : Fin 8) (b : Str) (hb : x.binary cs f = .ok b) (hB : Bits b) :
    ∃ h, x.hex cs f = .ok h ∧ UpperHex h ∧ h.length = (b.length + 15) / 16 * 4 ∧
      hexBits h = b ++ List.replicate (wordPad b.length) '0' ∧ GIAI.fromHex h = GIAI.fromBinary (b ++ List.replicate (wordPad b.length) '0') := by
  obtain ⟨s, hs, _⟩ := GIAI.binary_split hb
  unfold GIAI.hex
  rw [hb]
  exact hex_form hs (by cases cs <;> rfl) (by cases cs <;> decide) hB

/-- GIAI-96. -/
theorem C25_giai96_partial (body t : Str) (x : GIAI) (f : Fin 8) (ha : Ascii body) (hc : ':' ∉ body)
    (hu : GIAI.new (py "urn:epc:id:giai:" ++ body) = .ok x)
    (ht : x.tagUri .giai96 f = .ok t) :
    ∃ h, x.hex .giai96 f = .ok h ∧ GIAI.fromHex h = .ok x := by
  obtain ⟨rest, _, H⟩ := GIAI.binOk_giai96 (ascii_append.2 ⟨by decide, ha⟩) hu (GIAI.normal_of_no_colon hc hu) (GIAI.serial_of_tagUri hu ht)
  obtain ⟨b, h, _, e, _, _, _, e2⟩ := H.hex (by decide) (fun _ => Bits_bin _ _) rfl (by decide) f
  exact ⟨h, e, e2⟩

example : Ascii (py "urn:epc:id:giai:9521141.4711") ∧ ((do let x ← GIAI.new (py "urn:epc:id:giai:9521141.4711"); x.tagUri .giai96 3) : Except Err Str).isOk = true := by decide +kernel

/-- GIAI-202. -/
theorem C25_giai202_partial (body : Str) (x : GIAI) (f : Fin 8) (ha : Ascii body) (hc : ':' ∉ body)
    (hu : GIAI.new (py "urn:epc:id:giai:" ++ body) = .ok x)
    (hs : Canonical x.assetRef) :
    ∃ h, x.hex .giai202 f = .ok h ∧ GIAI.fromHex h = .ok x := by
  obtain ⟨rest, _, H⟩ := GIAI.binOk_giai202 (ascii_append.2 ⟨by decide, ha⟩) hu (GIAI.normal_of_no_colon hc hu) hs
  obtain ⟨b, h, _, e, _, _, _, e2⟩ := H.hex (by decide) (fun _ => Bits_bin _ _) rfl (by decide) f
  exact ⟨h, e, e2⟩

example : Ascii (py "urn:epc:id:giai:9521141.32a%2Fb") ∧ ((do let x ← GIAI.new (py "urn:epc:id:giai:9521141.32a%2Fb"); x.tagUri .giai202 3) : Except Err Str).isOk = true := by decide +kernel
example : Canonical (py "32a%2Fb") := ⟨py "32a/b", by decide, by decide, by decide⟩

/-- GSRN. -/
theorem C25_gsrn (x : GSRN) (cs : GSRN.Coding) (f : Fin 8) (b : Str) (hb : x.binary cs f = .ok b) (hB : Bits b) :
    ∃ h, x.hex cs f = .ok h ∧ UpperHex h ∧ h.length = (b.length + 15) / 16 * 4 ∧
      hexBits h = b ++ List.replicate (wordPad b.length) '0' ∧ GSRN.fromHex h = GSRN.fromBinary (b ++ List.replicate (wordPad b.length) '0') := by
  obtain ⟨s, hs, _⟩ := GSRN.binary_split hb
  unfold GSRN.hex
  rw [hb]
  exact hex_form hs (by cases cs <;> rfl) (by cases cs <;> decide) hB

/-- GSRN-96. -/
theorem C25_gsrn96 (u : Str) (x : GSRN) (f : Fin 8) (ha : Ascii u) (hu : GSRN.new u = .ok x) :
    ∃ h, x.hex .gsrn96 f = .ok h ∧ GSRN.fromHex h = .ok x := by
  obtain ⟨rest, _, H⟩ := GSRN.binOk_gsrn96 ha hu
  obtain ⟨b, h, _, e, _, _, _, e2⟩ := H.hex (by decide) (fun _ => Bits_bin _ _) rfl (by decide) f
  exact ⟨h, e, e2⟩

example : Ascii (py "urn:epc:id:gsrn:9521141.1234567890") ∧ ((do let x ← GSRN.new (py "urn:epc:id:gsrn:9521141.1234567890"); x.tagUri .gsrn96 3) : Except Err Str).isOk = true := by decide +kernel

/-- GSRNP. -/
theorem C25_gsrnp (x : GSRNP) (cs : GSRNP.Coding) (f : Fin 8) (b : Str) (hb : x.binary cs f = .ok b) (hB : Bits b) :
    ∃ h, x.hex cs f = .ok h ∧ UpperHex h ∧ h.length = (b.length + 15) / 16 * 4 ∧
      hexBits h = b ++ List.replicate (wordPad b.length) '0' ∧ GSRNP.fromHex h = GSRNP.fromBinary (b ++ List.replicate (wordPad b.length) '0') := by
  obtain ⟨s, hs, _⟩ := GSRNP.binary_split hb
  unfold GSRNP.hex
  rw [hb]
  exact hex_form hs (by cases cs <;> rfl) (by cases cs <;> decide) hB

/-- GSRNP-96. -/
theorem C25_gsrnp96 (u : Str) (x : GSRNP) (f : Fin 8) (ha : Ascii u) (hu : GSRNP.new u = .ok x) :
    ∃ h, x.hex .gsrnp96 f = .ok h ∧ GSRNP.fromHex h = .ok x := by
  obtain ⟨rest, _, H⟩ := GSRNP.binOk_gsrnp96 ha hu
  obtain ⟨b, h, _, e, _, _, _, e2⟩ := H.hex (by decide) (fun _ => Bits_bin _ _) rfl (by decide) f
  exact ⟨h, e, e2⟩

example : Ascii (py "urn:epc:id:gsrnp:9521141.1234567890") ∧ ((do let x ← GSRNP.new (py "urn:epc:id:gsrnp:9521141.1234567890"); x.tagUri .gsrnp96 3) : Except Err Str).isOk = true := by decide +kernel

/-- GDTI. -/
theorem C25_gdti (x : GDTI) (cs : GDTI.Coding) (f : Fin 8) (b : Str) (hb : x.binary cs f = .ok b) (hB : Bits b) :
    ∃ h, x.hex cs f = .ok h ∧ UpperHex h ∧ h.length = (b.length + 15) / 16 * 4 ∧
      hexBits h = b ++ List.replicate (wordPad b.length) '0' ∧ GDTI.fromHex h = GDTI.fromBinary (b ++ List.replicate (wordPad b.length) '0') := by
  obtain ⟨s, hs, _⟩ := GDTI.binary_split hb
  unfold GDTI.hex
  rw [hb]
  exact hex_form hs (by cases cs <;> rfl) (by cases cs <;> decide) hB

/-- GDTI-96. -/
theorem C25_gdti96 (u t : Str) (x : GDTI) (f : Fin 8) (ha : Ascii u) (hu : GDTI.new u = .ok x)
    (ht : x.tagUri .gdti96 f = .ok t) :
    ∃ h, x.hex .gdti96 f = .ok h ∧ GDTI.fromHex h = .ok x := by
  obtain ⟨rest, _, H⟩ := GDTI.avail_gdti96 ha hu ht
  obtain ⟨b, h, _, e, _, _, _, e2⟩ := H.hex (by decide) (fun _ => Bits_bin _ _) rfl (by decide) f
  exact ⟨h, e, e2⟩

example : Ascii (py "urn:epc:id:gdti:9521141.12345.4711") ∧ ((do let x ← GDTI.new (py "urn:epc:id:gdti:9521141.12345.4711"); x.tagUri .gdti96 3) : Except Err Str).isOk = true := by decide +kernel

/-- GDTI-174. -/
theorem C25_gdti174 (u : Str) (x : GDTI) (f : Fin 8) (ha : Ascii u) (hu : GDTI.new u = .ok x)
    (hs : Canonical x.serial) :
    ∃ h, x.hex .gdti174 f = .ok h ∧ GDTI.fromHex h = .ok x := by
  obtain ⟨rest, _, H⟩ := GDTI.binOk_gdti174 ha hu hs
  obtain ⟨b, h, _, e, _, _, _, e2⟩ := H.hex (by decide) (fun _ => Bits_bin _ _) rfl (by decide) f
  exact ⟨h, e, e2⟩

example : Ascii (py "urn:epc:id:gdti:9521141.12345.32a%2Fb") ∧ ((do let x ← GDTI.new (py "urn:epc:id:gdti:9521141.12345.32a%2Fb"); x.tagUri .gdti174 3) : Except Err Str).isOk = true := by decide +kernel
example : Canonical (py "32a%2Fb") := ⟨py "32a/b", by decide, by decide, by decide⟩

/-- CPI. -/
theorem C25_cpi (x : CPI) (cs : CPI.Coding) (f : Fin 8) (b : Str) (hb : x.binary cs f = .ok b) (hB : Bits b) :
    ∃ h, x.hex cs f = .ok h ∧ UpperHex h ∧ h.length = (b.length + 15) / 16 * 4 ∧
      hexBits h = b ++ List.replicate (wordPad b.length) '0' ∧ CPI.fromHex h = CPI.fromBinary (b ++ List.replicate (wordPad b.length) '0') := by
  obtain ⟨s, hs, _⟩ := CPI.binary_split hb
  unfold CPI.hex
  rw [hb]
  exact hex_form hs (by cases cs <;> rfl) (by cases cs <;> decide) hB

/-- CPI-96. -/
theorem C25_cpi96 (u t : Str) (x : CPI) (f : Fin 8) (ha : Ascii u) (hu : CPI.new u = .ok x)
    (ht : x.tagUri .cpi96 f = .ok t) :
    ∃ h, x.hex .cpi96 f = .ok h ∧ CPI.fromHex h = .ok x := by
  obtain ⟨rest, _, H⟩ := CPI.avail_cpi96 ha hu ht
  obtain ⟨b, h, _, e, _, _, _, e2⟩ := H.hex (by decide) (fun _ => Bits_bin _ _) rfl (by decide) f
  exact ⟨h, e, e2⟩

example : Ascii (py "urn:epc:id:cpi:9521141.98765.12345") ∧ ((do let x ← CPI.new (py "urn:epc:id:cpi:9521141.98765.12345"); x.tagUri .cpi96 3) : Except Err Str).isOk = true := by decide +kernel

/-- CPI-var. -/
theorem C25_cpi_var (u : Str) (x : CPI) (f : Fin 8) (ha : Ascii u) (hu : CPI.new u = .ok x) :
    ∃ h, x.hex .cpiVar f = .ok h ∧ CPI.fromHex h = .ok x := by
  obtain ⟨rest, _, H⟩ := CPI.binOk_cpiVar ha hu
  obtain ⟨b, h, _, e, _, _, _, e2⟩ := H.hex (by decide) (fun _ => Bits_bin _ _) rfl (by decide) f
  exact ⟨h, e, e2⟩

example : Ascii (py "urn:epc:id:cpi:9521141.5PQ7%2FZ43.12345") ∧ ((do let x ← CPI.new (py "urn:epc:id:cpi:9521141.5PQ7%2FZ43.12345"); x.tagUri .cpiVar 3) : Except Err Str).isOk = true := by decide +kernel

/-- SGCN. -/
theorem C25_sgcn (x : SGCN) (cs : SGCN.Coding) (f : Fin 8) (b : Str) (hb : x.binary cs f = .ok b) (hB : Bits b) :
    ∃ h, x.hex cs f = .ok h ∧ UpperHex h ∧ h.length = (b.length + 15) / 16 * 4 ∧
      hexBits h = b ++ List.replicate (wordPad b.length) '0' ∧ SGCN.fromHex h = SGCN.fromBinary (b ++ List.replicate (wordPad b.length) '0') := by
  obtain ⟨s, hs, _⟩ := SGCN.binary_split hb
  unfold SGCN.hex
  rw [hb]
  exact hex_form hs (by cases cs <;> rfl) (by cases cs <;> decide) hB

/-- SGCN-96. -/
theorem C25_sgcn96 (u : Str) (x : SGCN) (f : Fin 8) (ha : Ascii u) (hu : SGCN.new u = .ok x) :
    ∃ h, x.hex .sgcn96 f = .ok h ∧ SGCN.fromHex h = .ok x := by
  obtain ⟨rest, _, H⟩ := SGCN.binOk_sgcn96 ha hu
  obtain ⟨b, h, _, e, _, _, _, e2⟩ := H.hex (by decide) (fun _ => Bits_bin _ _) rfl (by decide) f
  exact ⟨h, e, e2⟩

example : Ascii (py "urn:epc:id:sgcn:9521141.67890.04711") ∧ ((do let x ← SGCN.new (py "urn:epc:id:sgcn:9521141.67890.04711"); x.tagUri .sgcn96 3) : Except Err Str).isOk = true := by decide +kernel

/-- ITIP. -/
theorem C25_itip (x : ITIP) (cs : ITIP.Coding) (f : Fin 8) (b : Str) (hb : x.binary cs f = .ok b) (hB : Bits b) :
    ∃ h, x.hex cs f = .ok h ∧ UpperHex h ∧ h.length = (b.length + 15) / 16 * 4 ∧
      hexBits h = b ++ List.replicate (wordPad b.length) '0' ∧ ITIP.fromHex h = ITIP.fromBinary (b ++ List.replicate (wordPad b.length) '0') := by
  obtain ⟨s, hs, _⟩ := ITIP.binary_split hb
  unfold ITIP.hex
  rw [hb]
  exact hex_form hs (by cases cs <;> rfl) (by cases cs <;> decide) hB

/-- ITIP-110. -/
theorem C25_itip110_partial (u t : Str) (x : ITIP) (f : Fin 8) (ha : Ascii u) (hu : ITIP.new u = .ok x)
    (hp : x.piece.length = 2 ∧ number x.piece < 99) (hq : x.total.length = 2 ∧ number x.total < 99) (ht : x.tagUri .itip110 f = .ok t) :
    ∃ h, x.hex .itip110 f = .ok h ∧ ITIP.fromHex h = .ok x := by
  obtain ⟨rest, _, H⟩ := ITIP.avail_itip110 ha hu hp hq ht
  obtain ⟨b, h, _, e, _, _, _, e2⟩ := H.hex (by decide) (fun _ => Bits_bin _ _) rfl (by decide) f
  exact ⟨h, e, e2⟩

example : Ascii (py "urn:epc:id:itip:9521141.012345.02.04.981") ∧ ((do let x ← ITIP.new (py "urn:epc:id:itip:9521141.012345.02.04.981"); x.tagUri .itip110 3) : Except Err Str).isOk = true := by decide +kernel

/-- ITIP-212. -/
theorem C25_itip212_partial (u : Str) (x : ITIP) (f : Fin 8) (ha : Ascii u) (hu : ITIP.new u = .ok x)
    (hp : x.piece.length = 2 ∧ number x.piece < 99) (hq : x.total.length = 2 ∧ number x.total < 99) (hs : Canonical x.serial) :
    ∃ h, x.hex .itip212 f = .ok h ∧ ITIP.fromHex h = .ok x := by
  obtain ⟨rest, _, H⟩ := ITIP.binOk_itip212 ha hu hp hq hs
  obtain ⟨b, h, _, e, _, _, _, e2⟩ := H.hex (by decide) (fun _ => Bits_bin _ _) rfl (by decide) f
  exact ⟨h, e, e2⟩

example : Ascii (py "urn:epc:id:itip:9521141.012345.02.04.32a%2Fb") ∧ ((do let x ← ITIP.new (py "urn:epc:id:itip:9521141.012345.02.04.32a%2Fb"); x.tagUri .itip212 3) : Except Err Str).isOk = true := by decide +kernel
example : Canonical (py "32a%2Fb") := ⟨py "32a/b", by decide, by decide, by decide⟩

/-- GID. -/
theorem C25_gid (x : GID) (cs : GID.Coding) (b : Str) (hb : x.binary cs = .ok b) (hB : Bits b) :
    ∃ h, x.hex cs = .ok h ∧ UpperHex h ∧ h.length = (b.length + 15) / 16 * 4 ∧
      hexBits h = b ++ List.replicate (wordPad b.length) '0' ∧ GID.fromHex h = GID.fromBinary (b ++ List.replicate (wordPad b.length) '0') := by
  obtain ⟨s, hs⟩ := GID.binary_split hb
  unfold GID.hex
  rw [hb]
  exact hex_form hs (by cases cs <;> rfl) (by cases cs <;> decide) hB

/-- GID-96. -/
theorem C25_gid96 (u : Str) (x : GID) (ha : Ascii u) (hu : GID.new u = .ok x) :
    ∃ h, x.hex .gid96 = .ok h ∧ GID.fromHex h = .ok x := by
  obtain ⟨rest, _, H⟩ := GID.binOk_gid96 ha hu
  obtain ⟨b, h, _, e, _, _, _, e2⟩ := H.hex (by decide) (fun _ => by decide) rfl (by decide) 0
  exact ⟨h, e, e2⟩

example : Ascii (py "urn:epc:id:gid:952056.2718.1414") ∧ ((do let x ← GID.new (py "urn:epc:id:gid:952056.2718.1414"); x.tagUri .gid96) : Except Err Str).isOk = true := by decide +kernel

/-- USDOD. -/
theorem C25_usdod (x : USDOD) (cs : USDOD.Coding) (f : Fin 16) (b : Str) (hb : x.binary cs f = .ok b) (hB : Bits b) :
    ∃ h, x.hex cs f = .ok h ∧ UpperHex h ∧ h.length = (b.length + 15) / 16 * 4 ∧
      hexBits h = b ++ List.replicate (wordPad b.length) '0' ∧ USDOD.fromHex h = USDOD.fromBinary (b ++ List.replicate (wordPad b.length) '0') := by
  obtain ⟨s, hs, _⟩ := USDOD.binary_split hb
  unfold USDOD.hex
  rw [hb]
  exact hex_form hs (by cases cs <;> rfl) (by cases cs <;> decide) hB

/-- USDOD-96. -/
theorem C25_usdod96 (u : Str) (x : USDOD) (f : Fin 16) (ha : Ascii u) (hu : USDOD.new u = .ok x) :
    ∃ h, x.hex .usdod96 f = .ok h ∧ USDOD.fromHex h = .ok x := by
  obtain ⟨rest, _, H⟩ := USDOD.binOk_usdod96 ha hu
  obtain ⟨b, h, _, e, _, _, _, e2⟩ := H.hex (by decide) (fun _ => Bits_bin _ _) rfl (by decide) f
  exact ⟨h, e, e2⟩

example : Ascii (py "urn:epc:id:usdod:CAGEY.5678") ∧ ((do let x ← USDOD.new (py "urn:epc:id:usdod:CAGEY.5678"); x.tagUri .usdod96 3) : Except Err Str).isOk = true := by decide +kernel

/-- ADI. -/
theorem C25_adi (x : ADI) (cs : ADI.Coding) (f : Fin 64) (b : Str) (hb : x.binary cs f = .ok b) (hB : Bits b) :
    ∃ h, x.hex cs f = .ok h ∧ UpperHex h ∧ h.length = (b.length + 15) / 16 * 4 ∧
      hexBits h = b ++ List.replicate (wordPad b.length) '0' ∧ ADI.fromHex h = ADI.fromBinary (b ++ List.replicate (wordPad b.length) '0') := by
  obtain ⟨s, hs, _⟩ := ADI.binary_split hb
  unfold ADI.hex
  rw [hb]
  exact hex_form hs (by cases cs <;> rfl) (by cases cs <;> decide) hB

/-- ADI-var. -/
theorem C25_adi_var_partial (u : Str) (x : ADI) (f : Fin 64) (hu : ADI.new u = .ok x)
    (rp : Str) (hr : ∀ c ∈ rp, c ∈ gs39) (hp : x.partNumber = escape39 rp) (hz : ¬ EarlyTerminator rp) :
    ∃ h, x.hex .adiVar f = .ok h ∧ ADI.fromHex h = .ok x := by
  obtain ⟨rest, _, H⟩ := ADI.binOk_adiVar hu hr hp hz
  obtain ⟨b, h, _, e, _, _, _, e2⟩ := H.hex (by decide) (fun _ => Bits_bin _ _) rfl (by decide) f
  exact ⟨h, e, e2⟩

example : Ascii (py "urn:epc:id:adi:W81X9C.3KL984PX1.2WMA-52") ∧ ((do let x ← ADI.new (py "urn:epc:id:adi:W81X9C.3KL984PX1.2WMA-52"); x.tagUri .adiVar 3) : Except Err Str).isOk = true := by decide +kernel
example : (∀ c ∈ py "3KL984PX1", c ∈ gs39) ∧ escape39 (py "3KL984PX1") = py "3KL984PX1" ∧ ¬ EarlyTerminator (py "3KL984PX1") := by decide +kernel

end Epc
