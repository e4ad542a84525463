/-
C26: the base64 form round-trips, also after any number of the padding characters at its end were dropped.

`C26_<class>`: reading the base64 text is the same as reading the padded binary; `C26_<scheme>`: the round trips.
Generated by tools/gen_bin.py.
-/
import Verif.Lemmas.Avail
import Verif.Lemmas.Shape
import Verif.Lemmas.BinSplit

namespace Epc
open Spec Re

/-- SGTIN. -/
theorem C26_sgtin (x : SGTIN) (cs : SGTIN.Coding) (f : Fin 8) (b : Str) (hb : x.binary cs f = .ok b) (hB : Bits b) :
    ∃ t, x.base64 cs f = .ok t ∧ ∀ t' k, t = t' ++ List.replicate k '=' →
      SGTIN.fromBase64 t' = SGTIN.fromBinary (b ++ List.replicate (wordPad b.length) '0') := by
  obtain ⟨s, hs, _⟩ := SGTIN.binary_split hb
  unfold SGTIN.base64
  rw [hb]
  exact base64_form hs (by cases cs <;> rfl) (by cases cs <;> decide) hB

/-- SGTIN-96. -/
theorem C26_sgtin96 (u t : Str) (x : SGTIN) (f : Fin 8) (ha : Ascii u) (hu : SGTIN.new u = .ok x)
    (ht : x.tagUri .sgtin96 f = .ok t) :
    ∃ s, x.base64 .sgtin96 f = .ok s ∧ ∀ s' k, s = s' ++ List.replicate k '=' → SGTIN.fromBase64 s' = .ok x := by
  obtain ⟨rest, _, H⟩ := SGTIN.avail_sgtin96 ha hu ht
  exact H.base64_pads (by decide) (fun _ => Bits_bin _ _) rfl (by decide) f

example : Ascii (py "urn:epc:id:sgtin:9521141.012345.4711") ∧ ((do let x ← SGTIN.new (py "urn:epc:id:sgtin:9521141.012345.4711"); x.tagUri .sgtin96 3) : Except Err Str).isOk = true := by decide +kernel

/-- SGTIN-198. -/
theorem C26_sgtin198 (u : Str) (x : SGTIN) (f : Fin 8) (ha : Ascii u) (hu : SGTIN.new u = .ok x)
    (hs : Canonical x.serial) :
    ∃ s, x.base64 .sgtin198 f = .ok s ∧ ∀ s' k, s = s' ++ List.replicate k '=' → SGTIN.fromBase64 s' = .ok x := by
  obtain ⟨rest, _, H⟩ := SGTIN.binOk_sgtin198 ha hu hs
  exact H.base64_pads (by decide) (fun _ => Bits_bin _ _) rfl (by decide) f

example : Ascii (py "urn:epc:id:sgtin:9521141.012345.32a%2Fb") ∧ ((do let x ← SGTIN.new (py "urn:epc:id:sgtin:9521141.012345.32a%2Fb"); x.tagUri .sgtin198 3) : Except Err Str).isOk = true := by decide +kernel
example : Canonical (py "32a%2Fb") := ⟨py "32a/b", by decide, by decide, by decide⟩

/-- SSCC. -/
theorem C26_sscc (x : SSCC) (cs : SSCC.Coding) (f : Fin 8) (b : Str) (hb : x.binary cs f = .ok b) (hB : Bits b) :
    ∃ t, x.base64 cs f = .ok t ∧ ∀ t' k, t = t' ++ List.replicate k '=' →
      SSCC.fromBase64 t' = SSCC.fromBinary (b ++ List.replicate (wordPad b.length) '0') := by
  obtain ⟨s, hs, _⟩ := SSCC.binary_split hb
  unfold SSCC.base64
  rw [hb]
  exact base64_form hs (by cases cs <;> rfl) (by cases cs <;> decide) hB

/-- SSCC-96. -/
theorem C26_sscc96 (u : Str) (x : SSCC) (f : Fin 8) (ha : Ascii u) (hu : SSCC.new u = .ok x) :
    ∃ s, x.base64 .sscc96 f = .ok s ∧ ∀ s' k, s = s' ++ List.replicate k '=' → SSCC.fromBase64 s' = .ok x := by
  obtain ⟨rest, _, H⟩ := SSCC.binOk_sscc96 ha hu
  exact H.base64_pads (by decide) (fun _ => Bits_bin _ _) rfl (by decide) f

example : Ascii (py "urn:epc:id:sscc:9521141.1234567890") ∧ ((do let x ← SSCC.new (py "urn:epc:id:sscc:9521141.1234567890"); x.tagUri .sscc96 3) : Except Err Str).isOk = true := by decide +kernel

/-- SGLN. -/
theorem C26_sgln (x : SGLN) (cs : SGLN.Coding) (f : Fin 8) (b : Str) (hb : x.binary cs f = .ok b) (hB : Bits b) :
    ∃ t, x.base64 cs f = .ok t ∧ ∀ t' k, t = t' ++ List.replicate k '=' →
      SGLN.fromBase64 t' = SGLN.fromBinary (b ++ List.replicate (wordPad b.length) '0') := by
  obtain ⟨s, hs, _⟩ := SGLN.binary_split hb
  unfold SGLN.base64
  rw [hb]
  exact base64_form hs (by cases cs <;> rfl) (by cases cs <;> decide) hB

/-- SGLN-96. -/
theorem C26_sgln96 (u t : Str) (x : SGLN) (f : Fin 8) (ha : Ascii u) (hu : SGLN.new u = .ok x)
    (ht : x.tagUri .sgln96 f = .ok t) :
    ∃ s, x.base64 .sgln96 f = .ok s ∧ ∀ s' k, s = s' ++ List.replicate k '=' → SGLN.fromBase64 s' = .ok x := by
  obtain ⟨rest, _, H⟩ := SGLN.avail_sgln96 ha hu ht
  exact H.base64_pads (by decide) (fun _ => Bits_bin _ _) rfl (by decide) f

example : Ascii (py "urn:epc:id:sgln:9521141.12345.4711") ∧ ((do let x ← SGLN.new (py "urn:epc:id:sgln:9521141.12345.4711"); x.tagUri .sgln96 3) : Except Err Str).isOk = true := by decide +kernel

/-- SGLN-195. -/
theorem C26_sgln195 (u : Str) (x : SGLN) (f : Fin 8) (ha : Ascii u) (hu : SGLN.new u = .ok x)
    (hs : Canonical x.serial) :
    ∃ s, x.base64 .sgln195 f = .ok s ∧ ∀ s' k, s = s' ++ List.replicate k '=' → SGLN.fromBase64 s' = .ok x := by
  obtain ⟨rest, _, H⟩ := SGLN.binOk_sgln195 ha hu hs
  exact H.base64_pads (by decide) (fun _ => Bits_bin _ _) rfl (by decide) f

example : Ascii (py "urn:epc:id:sgln:9521141.12345.32a%2Fb") ∧ ((do let x ← SGLN.new (py "urn:epc:id:sgln:9521141.12345.32a%2Fb"); x.tagUri .sgln195 3) : Except Err Str).isOk = true := by decide +kernel
example : Canonical (py "32a%2Fb") := ⟨py "32a/b", by decide, by decide, by decide⟩

/-- GRAI. -/
theorem C26_grai (x : GRAI) (cs : GRAI.Coding) (f : Fin 8) (b : Str) (hb : x.binary cs f = .ok b) (hB : Bits b) :
    ∃ t, x.base64 cs f = .ok t ∧ ∀ t' k, t = t' ++ List.replicate k '=' →
      GRAI.fromBase64 t' = GRAI.fromBinary (b ++ List.replicate (wordPad b.length) '0') := by
  obtain ⟨s, hs, _⟩ := GRAI.binary_split hb
  unfold GRAI.base64
  rw [hb]
  exact base64_form hs (by cases cs <;> rfl) (by cases cs <;> decide) hB

/-- GRAI-96. -/
theorem C26_grai96 (u t : Str) (x : GRAI) (f : Fin 8) (ha : Ascii u) (hu : GRAI.new u = .ok x)
    (ht : x.tagUri .grai96 f = .ok t) :
    ∃ s, x.base64 .grai96 f = .ok s ∧ ∀ s' k, s = s' ++ List.replicate k '=' → GRAI.fromBase64 s' = .ok x := by
  obtain ⟨rest, _, H⟩ := GRAI.avail_grai96 ha hu ht
  exact H.base64_pads (by decide) (fun _ => Bits_bin _ _) rfl (by decide) f

example : Ascii (py "urn:epc:id:grai:9521141.12345.4711") ∧ ((do let x ← GRAI.new (py "urn:epc:id:grai:9521141.12345.4711"); x.tagUri .grai96 3) : Except Err Str).isOk = true := by decide +kernel

/-- GRAI-170. -/
theorem C26_grai170 (u : Str) (x : GRAI) (f : Fin 8) (ha : Ascii u) (hu : GRAI.new u = .ok x)
    (hs : Canonical x.serial) :
    ∃ s, x.base64 .grai170 f = .ok s ∧ ∀ s' k, s = s' ++ List.replicate k '=' → GRAI.fromBase64 s' = .ok x := by
  obtain ⟨rest, _, H⟩ := GRAI.binOk_grai170 ha hu hs
  exact H.base64_pads (by decide) (fun _ => Bits_bin _ _) rfl (by decide) f

example : Ascii (py "urn:epc:id:grai:9521141.12345.32a%2Fb") ∧ ((do let x ← GRAI.new (py "urn:epc:id:grai:9521141.12345.32a%2Fb"); x.tagUri .grai170 3) : Except Err Str).isOk = true := by decide +kernel
example : Canonical (py "32a%2Fb") := ⟨py "32a/b", by decide, by decide, by decide⟩

/-- GIAI. -/
theorem C26_giai (x : GIAI) (cs : GIAI.Coding) (f : Fin 8) (b : Str) (hb : x.binary cs f = .ok b) (hB : Bits b) :
    ∃ t, x.base64 cs f = .ok t ∧ ∀ t' k, t = t' ++ List.replicate k '=' →
      GIAI.fromBase64 t' = GIAI.fromBinary (b ++ List.replicate (wordPad b.length) '0') := by
  obtain ⟨s, hs, _⟩ := GIAI.binary_split hb
  unfold GIAI.base64
  rw [hb]
  exact base64_form hs (by cases cs <;> rfl) (by cases cs <;> decide) hB

/-- GIAI-96. -/
theorem C26_giai96_partial (body t : Str) (x : GIAI) (f : Fin 8) (ha : Ascii body) (hc : ':' ∉ body)
    (hu : GIAI.new (py "urn:epc:id:giai:" ++ body) = .ok x)
    (ht : x.tagUri .giai96 f = .ok t) :
    ∃ s, x.base64 .giai96 f = .ok s ∧ ∀ s' k, s = s' ++ List.replicate k '=' → GIAI.fromBase64 s' = .ok x := by
  obtain ⟨rest, _, H⟩ := GIAI.binOk_giai96 (ascii_append.2 ⟨by decide, ha⟩) hu (GIAI.normal_of_no_colon hc hu) (GIAI.serial_of_tagUri hu ht)
  exact H.base64_pads (by decide) (fun _ => Bits_bin _ _) rfl (by decide) f

example : Ascii (py "urn:epc:id:giai:9521141.4711") ∧ ((do let x ← GIAI.new (py "urn:epc:id:giai:9521141.4711"); x.tagUri .giai96 3) : Except Err Str).isOk = true := by decide +kernel

/-- GIAI-202. -/
theorem C26_giai202_partial (body : Str) (x : GIAI) (f : Fin 8) (ha : Ascii body) (hc : ':' ∉ body)
    (hu : GIAI.new (py "urn:epc:id:giai:" ++ body) = .ok x)
    (hs : Canonical x.assetRef) :
    ∃ s, x.base64 .giai202 f = .ok s ∧ ∀ s' k, s = s' ++ List.replicate k '=' → GIAI.fromBase64 s' = .ok x := by
  obtain ⟨rest, _, H⟩ := GIAI.binOk_giai202 (ascii_append.2 ⟨by decide, ha⟩) hu (GIAI.normal_of_no_colon hc hu) hs
  exact H.base64_pads (by decide) (fun _ => Bits_bin _ _) rfl (by decide) f

example : Ascii (py "urn:epc:id:giai:9521141.32a%2Fb") ∧ ((do let x ← GIAI.new (py "urn:epc:id:giai:9521141.32a%2Fb"); x.tagUri .giai202 3) : Except Err Str).isOk = true := by decide +kernel
example : Canonical (py "32a%2Fb") := ⟨py "32a/b", by decide, by decide, by decide⟩

/-- GSRN. -/
theorem C26_gsrn (x : GSRN) (cs : GSRN.Coding) (f : Fin 8) (b : Str) (hb : x.binary cs f = .ok b) (hB : Bits b) :
    ∃ t, x.base64 cs f = .ok t ∧ ∀ t' k, t = t' ++ List.replicate k '=' →
      GSRN.fromBase64 t' = GSRN.fromBinary (b ++ List.replicate (wordPad b.length) '0') := by
  obtain ⟨s, hs, _⟩ := GSRN.binary_split hb
  unfold GSRN.base64
  rw [hb]
  exact base64_form hs (by cases cs <;> rfl) (by cases cs <;> decide) hB

/-- GSRN-96. -/
theorem C26_gsrn96 (u : Str) (x : GSRN) (f : Fin 8) (ha : Ascii u) (hu : GSRN.new u = .ok x) :
    ∃ s, x.base64 .gsrn96 f = .ok s ∧ ∀ s' k, s = s' ++ List.replicate k '=' → GSRN.fromBase64 s' = .ok x := by
  obtain ⟨rest, _, H⟩ := GSRN.binOk_gsrn96 ha hu
  exact H.base64_pads (by decide) (fun _ => Bits_bin _ _) rfl (by decide) f

example : Ascii (py "urn:epc:id:gsrn:9521141.1234567890") ∧ ((do let x ← GSRN.new (py "urn:epc:id:gsrn:9521141.1234567890"); x.tagUri .gsrn96 3) : Except Err Str).isOk = true := by decide +kernel

/-- GSRNP. -/
theorem C26_gsrnp (x : GSRNP) (cs : GSRNP.Coding) (f : Fin 8) (b : Str) (hb : x.binary cs f = .ok b) (hB : Bits b) :
    ∃ t, x.base64 cs f = .ok t ∧ ∀ t' k, t = t' ++ List.replicate k '=' →
      GSRNP.fromBase64 t' = GSRNP.fromBinary (b ++ List.replicate (wordPad b.length) '0') := by
  obtain ⟨s, hs, _⟩ := GSRNP.binary_split hb
  unfold GSRNP.base64
  rw [hb]
  exact base64_form hs (by cases cs <;> rfl) (by cases cs <;> decide) hB

/-- GSRNP-96. -/
theorem C26_gsrnp96 (u : Str) (x : GSRNP) (f : Fin 8) (ha : Ascii u) (hu : GSRNP.new u = .ok x) :
    ∃ s, x.base64 .gsrnp96 f = .ok s ∧ ∀ s' k, s = s' ++ List.replicate k '=' → GSRNP.fromBase64 s' = .ok x := by
  obtain ⟨rest, _, H⟩ := GSRNP.binOk_gsrnp96 ha hu
  exact H.base64_pads (by decide) (fun _ => Bits_bin _ _) rfl (by decide) f

example : Ascii (py "urn:epc:id:gsrnp:9521141.1234567890") ∧ ((do let x ← GSRNP.new (py "urn:epc:id:gsrnp:9521141.1234567890"); x.tagUri .gsrnp96 3) : Except Err Str).isOk = true := by decide +kernel

/-- GDTI. -/
theorem C26_gdti (x : GDTI) (cs : GDTI.Coding) (f : Fin 8) (b : Str) (hb : x.binary cs f = .ok b) (hB : Bits b) :
    ∃ t, x.base64 cs f = .ok t ∧ ∀ t' k, t = t' ++ List.replicate k '=' →
      GDTI.fromBase64 t' = GDTI.fromBinary (b ++ List.replicate (wordPad b.length) '0') := by
  obtain ⟨s, hs, _⟩ := GDTI.binary_split hb
  unfold GDTI.base64
  rw [hb]
  exact base64_form hs (by cases cs <;> rfl) (by cases cs <;> decide) hB

/-- GDTI-96. -/
theorem C26_gdti96 (u t : Str) (x : GDTI) (f : Fin 8) (ha : Ascii u) (hu : GDTI.new u = .ok x)
    (ht : x.tagUri .gdti96 f = .ok t) :
    ∃ s, x.base64 .gdti96 f = .ok s ∧ ∀ s' k, s = s' ++ List.replicate k '=' → GDTI.fromBase64 s' = .ok x := by
  obtain ⟨rest, _, H⟩ := GDTI.avail_gdti96 ha hu ht
  exact H.base64_pads (by decide) (fun _ => Bits_bin _ _) rfl (by decide) f

example : Ascii (py "urn:epc:id:gdti:9521141.12345.4711") ∧ ((do let x ← GDTI.new (py "urn:epc:id:gdti:9521141.12345.4711"); x.tagUri .gdti96 3) : Except Err Str).isOk = true := by decide +kernel

/-- GDTI-174. -/
theorem C26_gdti174 (u : Str) (x : GDTI) (f : Fin 8) (ha : Ascii u) (hu : GDTI.new u = .ok x)
    (hs : Canonical x.serial) :
    ∃ s, x.base64 .gdti174 f = .ok s ∧ ∀ s' k, s = s' ++ List.replicate k '=' → GDTI.fromBase64 s' = .ok x := by
  obtain ⟨rest, _, H⟩ := GDTI.binOk_gdti174 ha hu hs
  exact H.base64_pads (by decide) (fun _ => Bits_bin _ _) rfl (by decide) f

example : Ascii (py "urn:epc:id:gdti:9521141.12345.32a%2Fb") ∧ ((do let x ← GDTI.new (py "urn:epc:id:gdti:9521141.12345.32a%2Fb"); x.tagUri .gdti174 3) : Except Err Str).isOk = true := by decide +kernel
example : Canonical (py "32a%2Fb") := ⟨py "32a/b", by decide, by decide, by decide⟩

/-- CPI. -/
theorem C26_cpi (x : CPI) (cs : CPI.Coding) (f : Fin 8) (b : Str) (hb : x.binary cs f = .ok b) (hB : Bits b) :
    ∃ t, x.base64 cs f = .ok t ∧ ∀ t' k, t = t' ++ List.replicate k '=' →
      CPI.fromBase64 t' = CPI.fromBinary (b ++ List.replicate (wordPad b.length) '0') := by
  obtain ⟨s, hs, _⟩ := CPI.binary_split hb
  unfold CPI.base64
  rw [hb]
  exact base64_form hs (by cases cs <;> rfl) (by cases cs <;> decide) hB

/-- CPI-96. -/
theorem C26_cpi96 (u t : Str) (x : CPI) (f : Fin 8) (ha : Ascii u) (hu : CPI.new u = .ok x)
    (ht : x.tagUri .cpi96 f = .ok t) :
    ∃ s, x.base64 .cpi96 f = .ok s ∧ ∀ s' k, s = s' ++ List.replicate k '=' → CPI.fromBase64 s' = .ok x := by
  obtain ⟨rest, _, H⟩ := CPI.avail_cpi96 ha hu ht
  exact H.base64_pads (by decide) (fun _ => Bits_bin _ _) rfl (by decide) f

example : Ascii (py "urn:epc:id:cpi:9521141.98765.12345") ∧ ((do let x ← CPI.new (py "urn:epc:id:cpi:9521141.98765.12345"); x.tagUri .cpi96 3) : Except Err Str).isOk = true := by decide +kernel

/-- CPI-var. -/
theorem C26_cpi_var (u : Str) (x : CPI) (f : Fin 8) (ha : Ascii u) (hu : CPI.new u = .ok x) :
    ∃ s, x.base64 .cpiVar f = .ok s ∧ ∀ s' k, s = s' ++ List.replicate k '=' → CPI.fromBase64 s' = .ok x := by
  obtain ⟨rest, _, H⟩ := CPI.binOk_cpiVar ha hu
  exact H.base64_pads (by decide) (fun _ => Bits_bin _ _) rfl (by decide) f

example : Ascii (py "urn:epc:id:cpi:9521141.5PQ7%2FZ43.12345") ∧ ((do let x ← CPI.new (py "urn:epc:id:cpi:9521141.5PQ7%2FZ43.12345"); x.tagUri .cpiVar 3) : Except Err Str).isOk = true := by decide +kernel

/-- SGCN. -/
theorem C26_sgcn (x : SGCN) (cs : SGCN.Coding) (f : Fin 8) (b : Str) (hb : x.binary cs f = .ok b) (hB : Bits b) :
    ∃ t, x.base64 cs f = .ok t ∧ ∀ t' k, t = t' ++ List.replicate k '=' →
      SGCN.fromBase64 t' = SGCN.fromBinary (b ++ List.replicate (wordPad b.length) '0') := by
  obtain ⟨s, hs, _⟩ := SGCN.binary_split hb
  unfold SGCN.base64
  rw [hb]
  exact base64_form hs (by cases cs <;> rfl) (by cases cs <;> decide) hB

/-- SGCN-96. -/
theorem C26_sgcn96 (u : Str) (x : SGCN) (f : Fin 8) (ha : Ascii u) (hu : SGCN.new u = .ok x) :
    ∃ s, x.base64 .sgcn96 f = .ok s ∧ ∀ s' k, s = s' ++ List.replicate k '=' → SGCN.fromBase64 s' = .ok x := by
  obtain ⟨rest, _, H⟩ := SGCN.binOk_sgcn96 ha hu
  exact H.base64_pads (by decide) (fun _ => Bits_bin _ _) rfl (by decide) f

example : Ascii (py "urn:epc:id:sgcn:9521141.67890.04711") ∧ ((do let x ← SGCN.new (py "urn:epc:id:sgcn:9521141.67890.04711"); x.tagUri .sgcn96 3) : Except Err Str).isOk = true := by decide +kernel

/-- ITIP. -/
theorem C26_itip (x : ITIP) (cs : ITIP.Coding) (f : Fin 8) (b : Str) (hb : x.binary cs f = .ok b) (hB : Bits b) :
    ∃ t, x.base64 cs f = .ok t ∧ ∀ t' k, t = t' ++ List.replicate k '=' →
      ITIP.fromBase64 t' = ITIP.fromBinary (b ++ List.replicate (wordPad b.length) '0') := by
  obtain ⟨s, hs, _⟩ := ITIP.binary_split hb
  unfold ITIP.base64
  rw [hb]
  exact base64_form hs (by cases cs <;> rfl) (by cases cs <;> decide) hB

/-- ITIP-110. -/
theorem C26_itip110_partial (u t : Str) (x : ITIP) (f : Fin 8) (ha : Ascii u) (hu : ITIP.new u = .ok x)
    (hp : x.piece.length = 2 ∧ number x.piece < 99) (hq : x.total.length = 2 ∧ number x.total < 99) (ht : x.tagUri .itip110 f = .ok t) :
    ∃ s, x.base64 .itip110 f = .ok s ∧ ∀ s' k, s = s' ++ List.replicate k '=' → ITIP.fromBase64 s' = .ok x := by
  obtain ⟨rest, _, H⟩ := ITIP.avail_itip110 ha hu hp hq ht
  exact H.base64_pads (by decide) (fun _ => Bits_bin _ _) rfl (by decide) f

example : Ascii (py "urn:epc:id:itip:9521141.012345.02.04.981") ∧ ((do let x ← ITIP.new (py "urn:epc:id:itip:9521141.012345.02.04.981"); x.tagUri .itip110 3) : Except Err Str).isOk = true := by decide +kernel

/-- ITIP-212. -/
theorem C26_itip212_partial (u : Str) (x : ITIP) (f : Fin 8) (ha : Ascii u) (hu : ITIP.new u = .ok x)
    (hp : x.piece.length = 2 ∧ number x.piece < 99) (hq : x.total.length = 2 ∧ number x.total < 99) (hs : Canonical x.serial) :
    ∃ s, x.base64 .itip212 f = .ok s ∧ ∀ s' k, s = s' ++ List.replicate k '=' → ITIP.fromBase64 s' = .ok x := by
  obtain ⟨rest, _, H⟩ := ITIP.binOk_itip212 ha hu hp hq hs
  exact H.base64_pads (by decide) (fun _ => Bits_bin _ _) rfl (by decide) f

example : Ascii (py "urn:epc:id:itip:9521141.012345.02.04.32a%2Fb") ∧ ((do let x ← ITIP.new (py "urn:epc:id:itip:9521141.012345.02.04.32a%2Fb"); x.tagUri .itip212 3) : Except Err Str).isOk = true := by decide +kernel
example : Canonical (py "32a%2Fb") := ⟨py "32a/b", by decide, by decide, by decide⟩

/-- GID. -/
theorem C26_gid (x : GID) (cs : GID.Coding) (b : Str) (hb : x.binary cs = .ok b) (hB : Bits b) :
    ∃ t, x.base64 cs = .ok t ∧ ∀ t' k, t = t' ++ List.replicate k '=' →
      GID.fromBase64 t' = GID.fromBinary (b ++ List.replicate (wordPad b.length) '0') := by
  obtain ⟨s, hs⟩ := GID.binary_split hb
  unfold GID.base64
  rw [hb]
  exact base64_form hs (by cases cs <;> rfl) (by cases cs <;> decide) hB

/-- GID-96. -/
theorem C26_gid96 (u : Str) (x : GID) (ha : Ascii u) (hu : GID.new u = .ok x) :
    ∃ s, x.base64 .gid96 = .ok s ∧ ∀ s' k, s = s' ++ List.replicate k '=' → GID.fromBase64 s' = .ok x := by
  obtain ⟨rest, _, H⟩ := GID.binOk_gid96 ha hu
  exact H.base64_pads (by decide) (fun _ => by decide) rfl (by decide) 0

example : Ascii (py "urn:epc:id:gid:952056.2718.1414") ∧ ((do let x ← GID.new (py "urn:epc:id:gid:952056.2718.1414"); x.tagUri .gid96) : Except Err Str).isOk = true := by decide +kernel

/-- USDOD. -/
theorem C26_usdod (x : USDOD) (cs : USDOD.Coding) (f : Fin 16) (b : Str) (hb : x.binary cs f = .ok b) (hB : Bits b) :
    ∃ t, x.base64 cs f = .ok t ∧ ∀ t' k, t = t' ++ List.replicate k '=' →
      USDOD.fromBase64 t' = USDOD.fromBinary (b ++ List.replicate (wordPad b.length) '0') := by
  obtain ⟨s, hs, _⟩ := USDOD.binary_split hb
  unfold USDOD.base64
  rw [hb]
  exact base64_form hs (by cases cs <;> rfl) (by cases cs <;> decide) hB

/-- USDOD-96. -/
theorem C26_usdod96 (u : Str) (x : USDOD) (f : Fin 16) (ha : Ascii u) (hu : USDOD.new u = .ok x) :
    ∃ s, x.base64 .usdod96 f = .ok s ∧ ∀ s' k, s = s' ++ List.replicate k '=' → USDOD.fromBase64 s' = .ok x := by
  obtain ⟨rest, _, H⟩ := USDOD.binOk_usdod96 ha hu
  exact H.base64_pads (by decide) (fun _ => Bits_bin _ _) rfl (by decide) f

example : Ascii (py "urn:epc:id:usdod:CAGEY.5678") ∧ ((do let x ← USDOD.new (py "urn:epc:id:usdod:CAGEY.5678"); x.tagUri .usdod96 3) : Except Err Str).isOk = true := by decide +kernel

/-- ADI. -/
theorem C26_adi (x : ADI) (cs : ADI.Coding) (f : Fin 64) (b : Str) (hb : x.binary cs f = .ok b) (hB : Bits b) :
    ∃ t, x.base64 cs f = .ok t ∧ ∀ t' k, t = t' ++ List.replicate k '=' →
      ADI.fromBase64 t' = ADI.fromBinary (b ++ List.replicate (wordPad b.length) '0') := by
  obtain ⟨s, hs, _⟩ := ADI.binary_split hb
  unfold ADI.base64
  rw [hb]
  exact base64_form hs (by cases cs <;> rfl) (by cases cs <;> decide) hB

/-- ADI-var. -/
theorem C26_adi_var_partial (u : Str) (x : ADI) (f : Fin 64) (hu : ADI.new u = .ok x)
    (rp : Str) (hr : ∀ c ∈ rp, c ∈ gs39) (hp : x.partNumber = escape39 rp) (hz : ¬ EarlyTerminator rp) :
    ∃ s, x.base64 .adiVar f = .ok s ∧ ∀ s' k, s = s' ++ List.replicate k '=' → ADI.fromBase64 s' = .ok x := by
  obtain ⟨rest, _, H⟩ := ADI.binOk_adiVar hu hr hp hz
  exact H.base64_pads (by decide) (fun _ => Bits_bin _ _) rfl (by decide) f

example : Ascii (py "urn:epc:id:adi:W81X9C.3KL984PX1.2WMA-52") ∧ ((do let x ← ADI.new (py "urn:epc:id:adi:W81X9C.3KL984PX1.2WMA-52"); x.tagUri .adiVar 3) : Except Err Str).isOk = true := by decide +kernel
example : (∀ c ∈ py "3KL984PX1", c ∈ gs39) ∧ escape39 (py "3KL984PX1") = py "3KL984PX1" ∧ ¬ EarlyTerminator (py "3KL984PX1") := by decide +kernel

end Epc
