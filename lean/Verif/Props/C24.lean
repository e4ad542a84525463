/-
C24: encoding is injective.  Equal binary, hexadecimal or base64 forms under one coding scheme come from equal objects (as records of
all attributes, the URI included) and equal filter values.

Components in canonical form, and `tag_uri` returns.  False for GIAI references containing a colon, and for ITIP with piece and
total not of two digits.  ADI: also for part numbers that `from_binary` cannot recover (C23).
Generated by tools/gen_bin.py.
-/
import Verif.Lemmas.Avail
import Verif.Lemmas.Shape
import Verif.Lemmas.AdiInj

namespace Epc
open Spec Re

/-- SGTIN-96. -/
theorem C24_sgtin96 (u t : Str) (x : SGTIN) (f : Fin 8) (ha : Ascii u) (hu : SGTIN.new u = .ok x)
    (ht : x.tagUri .sgtin96 f = .ok t)
    (v t' : Str) (y : SGTIN) (g : Fin 8) (ha' : Ascii v) (hu' : SGTIN.new v = .ok y)
    (ht' : y.tagUri .sgtin96 g = .ok t') :
    (x.binary .sgtin96 f = y.binary .sgtin96 g → x = y ∧ f = g) ∧ (x.hex .sgtin96 f = y.hex .sgtin96 g → x = y ∧ f = g) ∧
      (x.base64 .sgtin96 f = y.base64 .sgtin96 g → x = y ∧ f = g) := by
  obtain ⟨rest, _, H⟩ := SGTIN.avail_sgtin96 ha hu ht
  obtain ⟨rest', _, H'⟩ := SGTIN.avail_sgtin96 ha' hu' ht'
  exact H.inj H' (by decide) (fun _ => Bits_bin _ _) rfl (by decide) (w := 3) (fun f => length_bin (by omega) (by omega)) (fun f g e => Fin.ext (bin_inj e)) f g

example : Ascii (py "urn:epc:id:sgtin:9521141.012345.4711") ∧ ((do let x ← SGTIN.new (py "urn:epc:id:sgtin:9521141.012345.4711"); x.tagUri .sgtin96 3) : Except Err Str).isOk = true := by decide +kernel

/-- SGTIN-198. -/
theorem C24_sgtin198 (u : Str) (x : SGTIN) (f : Fin 8) (ha : Ascii u) (hu : SGTIN.new u = .ok x)
    (hs : Canonical x.serial)
    (v : Str) (y : SGTIN) (g : Fin 8) (ha' : Ascii v) (hu' : SGTIN.new v = .ok y)
    (hs' : Canonical y.serial) :
    (x.binary .sgtin198 f = y.binary .sgtin198 g → x = y ∧ f = g) ∧ (x.hex .sgtin198 f = y.hex .sgtin198 g → x = y ∧ f = g) ∧
      (x.base64 .sgtin198 f = y.base64 .sgtin198 g → x = y ∧ f = g) := by
  obtain ⟨rest, _, H⟩ := SGTIN.binOk_sgtin198 ha hu hs
  obtain ⟨rest', _, H'⟩ := SGTIN.binOk_sgtin198 ha' hu' hs'
  exact H.inj H' (by decide) (fun _ => Bits_bin _ _) rfl (by decide) (w := 3) (fun f => length_bin (by omega) (by omega)) (fun f g e => Fin.ext (bin_inj e)) f g

example : Ascii (py "urn:epc:id:sgtin:9521141.012345.32a%2Fb") ∧ ((do let x ← SGTIN.new (py "urn:epc:id:sgtin:9521141.012345.32a%2Fb"); x.tagUri .sgtin198 3) : Except Err Str).isOk = true := by decide +kernel
example : Canonical (py "32a%2Fb") := ⟨py "32a/b", by decide, by decide, by decide⟩

/-- SSCC-96. -/
theorem C24_sscc96 (u : Str) (x : SSCC) (f : Fin 8) (ha : Ascii u) (hu : SSCC.new u = .ok x)
    (v : Str) (y : SSCC) (g : Fin 8) (ha' : Ascii v) (hu' : SSCC.new v = .ok y) :
    (x.binary .sscc96 f = y.binary .sscc96 g → x = y ∧ f = g) ∧ (x.hex .sscc96 f = y.hex .sscc96 g → x = y ∧ f = g) ∧
      (x.base64 .sscc96 f = y.base64 .sscc96 g → x = y ∧ f = g) := by
  obtain ⟨rest, _, H⟩ := SSCC.binOk_sscc96 ha hu
  obtain ⟨rest', _, H'⟩ := SSCC.binOk_sscc96 ha' hu'
  exact H.inj H' (by decide) (fun _ => Bits_bin _ _) rfl (by decide) (w := 3) (fun f => length_bin (by omega) (by omega)) (fun f g e => Fin.ext (bin_inj e)) f g

example : Ascii (py "urn:epc:id:sscc:9521141.1234567890") ∧ ((do let x ← SSCC.new (py "urn:epc:id:sscc:9521141.1234567890"); x.tagUri .sscc96 3) : Except Err Str).isOk = true := by decide +kernel

/-- SGLN-96. -/
theorem C24_sgln96 (u t : Str) (x : SGLN) (f : Fin 8) (ha : Ascii u) (hu : SGLN.new u = .ok x)
    (ht : x.tagUri .sgln96 f = .ok t)
    (v t' : Str) (y : SGLN) (g : Fin 8) (ha' : Ascii v) (hu' : SGLN.new v = .ok y)
    (ht' : y.tagUri .sgln96 g = .ok t') :
    (x.binary .sgln96 f = y.binary .sgln96 g → x = y ∧ f = g) ∧ (x.hex .sgln96 f = y.hex .sgln96 g → x = y ∧ f = g) ∧
      (x.base64 .sgln96 f = y.base64 .sgln96 g → x = y ∧ f = g) := by
  obtain ⟨rest, _, H⟩ := SGLN.avail_sgln96 ha hu ht
  obtain ⟨rest', _, H'⟩ := SGLN.avail_sgln96 ha' hu' ht'
  exact H.inj H' (by decide) (fun _ => Bits_bin _ _) rfl (by decide) (w := 3) (fun f => length_bin (by omega) (by omega)) (fun f g e => Fin.ext (bin_inj e)) f g

example : Ascii (py "urn:epc:id:sgln:9521141.12345.4711") ∧ ((do let x ← SGLN.new (py "urn:epc:id:sgln:9521141.12345.4711"); x.tagUri .sgln96 3) : Except Err Str).isOk = true := by decide +kernel

/-- SGLN-195. -/
theorem C24_sgln195 (u : Str) (x : SGLN) (f : Fin 8) (ha : Ascii u) (hu : SGLN.new u = .ok x)
    (hs : Canonical x.serial)
    (v : Str) (y : SGLN) (g : Fin 8) (ha' : Ascii v) (hu' : SGLN.new v = .ok y)
    (hs' : Canonical y.serial) :
    (x.binary .sgln195 f = y.binary .sgln195 g → x = y ∧ f = g) ∧ (x.hex .sgln195 f = y.hex .sgln195 g → x = y ∧ f = g) ∧
      (x.base64 .sgln195 f = y.base64 .sgln195 g → x = y ∧ f = g) := by
  obtain ⟨rest, _, H⟩ := SGLN.binOk_sgln195 ha hu hs
  obtain ⟨rest', _, H'⟩ := SGLN.binOk_sgln195 ha' hu' hs'
  exact H.inj H' (by decide) (fun _ => Bits_bin _ _) rfl (by decide) (w := 3) (fun f => length_bin (by omega) (by omega)) (fun f g e => Fin.ext (bin_inj e)) f g

example : Ascii (py "urn:epc:id:sgln:9521141.12345.32a%2Fb") ∧ ((do let x ← SGLN.new (py "urn:epc:id:sgln:9521141.12345.32a%2Fb"); x.tagUri .sgln195 3) : Except Err Str).isOk = true := by decide +kernel
example : Canonical (py "32a%2Fb") := ⟨py "32a/b", by decide, by decide, by decide⟩

/-- GRAI-96. -/
theorem C24_grai96 (u t : Str) (x : GRAI) (f : Fin 8) (ha : Ascii u) (hu : GRAI.new u = .ok x)
    (ht : x.tagUri .grai96 f = .ok t)
    (v t' : Str) (y : GRAI) (g : Fin 8) (ha' : Ascii v) (hu' : GRAI.new v = .ok y)
    (ht' : y.tagUri .grai96 g = .ok t') :
    (x.binary .grai96 f = y.binary .grai96 g → x = y ∧ f = g) ∧ (x.hex .grai96 f = y.hex .grai96 g → x = y ∧ f = g) ∧
      (x.base64 .grai96 f = y.base64 .grai96 g → x = y ∧ f = g) := by
  obtain ⟨rest, _, H⟩ := GRAI.avail_grai96 ha hu ht
  obtain ⟨rest', _, H'⟩ := GRAI.avail_grai96 ha' hu' ht'
  exact H.inj H' (by decide) (fun _ => Bits_bin _ _) rfl (by decide) (w := 3) (fun f => length_bin (by omega) (by omega)) (fun f g e => Fin.ext (bin_inj e)) f g

example : Ascii (py "urn:epc:id:grai:9521141.12345.4711") ∧ ((do let x ← GRAI.new (py "urn:epc:id:grai:9521141.12345.4711"); x.tagUri .grai96 3) : Except Err Str).isOk = true := by decide +kernel

/-- GRAI-170. -/
theorem C24_grai170 (u : Str) (x : GRAI) (f : Fin 8) (ha : Ascii u) (hu : GRAI.new u = .ok x)
    (hs : Canonical x.serial)
    (v : Str) (y : GRAI) (g : Fin 8) (ha' : Ascii v) (hu' : GRAI.new v = .ok y)
    (hs' : Canonical y.serial) :
    (x.binary .grai170 f = y.binary .grai170 g → x = y ∧ f = g) ∧ (x.hex .grai170 f = y.hex .grai170 g → x = y ∧ f = g) ∧
      (x.base64 .grai170 f = y.base64 .grai170 g → x = y ∧ f = g) := by
  obtain ⟨rest, _, H⟩ := GRAI.binOk_grai170 ha hu hs
  obtain ⟨rest', _, H'⟩ := GRAI.binOk_grai170 ha' hu' hs'
  exact H.inj H' (by decide) (fun _ => Bits_bin _ _) rfl (by decide) (w := 3) (fun f => length_bin (by omega) (by omega)) (fun f g e => Fin.ext (bin_inj e)) f g

example : Ascii (py "urn:epc:id:grai:9521141.12345.32a%2Fb") ∧ ((do let x ← GRAI.new (py "urn:epc:id:grai:9521141.12345.32a%2Fb"); x.tagUri .grai170 3) : Except Err Str).isOk = true := by decide +kernel
example : Canonical (py "32a%2Fb") := ⟨py "32a/b", by decide, by decide, by decide⟩

/-- GIAI-96. -/
theorem C24_giai96_partial (body t : Str) (x : GIAI) (f : Fin 8) (ha : Ascii body) (hc : ':' ∉ body)
    (hu : GIAI.new (py "urn:epc:id:giai:" ++ body) = .ok x)
    (ht : x.tagUri .giai96 f = .ok t)
    (body' t' : Str) (y : GIAI) (g : Fin 8) (ha' : Ascii body') (hc' : ':' ∉ body')
    (hu' : GIAI.new (py "urn:epc:id:giai:" ++ body') = .ok y)
    (ht' : y.tagUri .giai96 g = .ok t') :
    (x.binary .giai96 f = y.binary .giai96 g → x = y ∧ f = g) ∧ (x.hex .giai96 f = y.hex .giai96 g → x = y ∧ f = g) ∧
      (x.base64 .giai96 f = y.base64 .giai96 g → x = y ∧ f = g) := by
  obtain ⟨rest, _, H⟩ := GIAI.binOk_giai96 (ascii_append.2 ⟨by decide, ha⟩) hu (GIAI.normal_of_no_colon hc hu) (GIAI.serial_of_tagUri hu ht)
  obtain ⟨rest', _, H'⟩ := GIAI.binOk_giai96 (ascii_append.2 ⟨by decide, ha'⟩) hu' (GIAI.normal_of_no_colon hc' hu') (GIAI.serial_of_tagUri hu' ht')
  exact H.inj H' (by decide) (fun _ => Bits_bin _ _) rfl (by decide) (w := 3) (fun f => length_bin (by omega) (by omega)) (fun f g e => Fin.ext (bin_inj e)) f g

example : Ascii (py "urn:epc:id:giai:9521141.4711") ∧ ((do let x ← GIAI.new (py "urn:epc:id:giai:9521141.4711"); x.tagUri .giai96 3) : Except Err Str).isOk = true := by decide +kernel

/-- GIAI-202. -/
theorem C24_giai202_partial (body : Str) (x : GIAI) (f : Fin 8) (ha : Ascii body) (hc : ':' ∉ body)
    (hu : GIAI.new (py "urn:epc:id:giai:" ++ body) = .ok x)
    (hs : Canonical x.assetRef)
    (body' : Str) (y : GIAI) (g : Fin 8) (ha' : Ascii body') (hc' : ':' ∉ body')
    (hu' : GIAI.new (py "urn:epc:id:giai:" ++ body') = .ok y)
    (hs' : Canonical y.assetRef) :
    (x.binary .giai202 f = y.binary .giai202 g → x = y ∧ f = g) ∧ (x.hex .giai202 f = y.hex .giai202 g → x = y ∧ f = g) ∧
      (x.base64 .giai202 f = y.base64 .giai202 g → x = y ∧ f = g) := by
  obtain ⟨rest, _, H⟩ := GIAI.binOk_giai202 (ascii_append.2 ⟨by decide, ha⟩) hu (GIAI.normal_of_no_colon hc hu) hs
  obtain ⟨rest', _, H'⟩ := GIAI.binOk_giai202 (ascii_append.2 ⟨by decide, ha'⟩) hu' (GIAI.normal_of_no_colon hc' hu') hs'
  exact H.inj H' (by decide) (fun _ => Bits_bin _ _) rfl (by decide) (w := 3) (fun f => length_bin (by omega) (by omega)) (fun f g e => Fin.ext (bin_inj e)) f g

example : Ascii (py "urn:epc:id:giai:9521141.32a%2Fb") ∧ ((do let x ← GIAI.new (py "urn:epc:id:giai:9521141.32a%2Fb"); x.tagUri .giai202 3) : Except Err Str).isOk = true := by decide +kernel
example : Canonical (py "32a%2Fb") := ⟨py "32a/b", by decide, by decide, by decide⟩

/-- GSRN-96. -/
theorem C24_gsrn96 (u : Str) (x : GSRN) (f : Fin 8) (ha : Ascii u) (hu : GSRN.new u = .ok x)
    (v : Str) (y : GSRN) (g : Fin 8) (ha' : Ascii v) (hu' : GSRN.new v = .ok y) :
    (x.binary .gsrn96 f = y.binary .gsrn96 g → x = y ∧ f = g) ∧ (x.hex .gsrn96 f = y.hex .gsrn96 g → x = y ∧ f = g) ∧
      (x.base64 .gsrn96 f = y.base64 .gsrn96 g → x = y ∧ f = g) := by
  obtain ⟨rest, _, H⟩ := GSRN.binOk_gsrn96 ha hu
  obtain ⟨rest', _, H'⟩ := GSRN.binOk_gsrn96 ha' hu'
  exact H.inj H' (by decide) (fun _ => Bits_bin _ _) rfl (by decide) (w := 3) (fun f => length_bin (by omega) (by omega)) (fun f g e => Fin.ext (bin_inj e)) f g

example : Ascii (py "urn:epc:id:gsrn:9521141.1234567890") ∧ ((do let x ← GSRN.new (py "urn:epc:id:gsrn:9521141.1234567890"); x.tagUri .gsrn96 3) : Except Err Str).isOk = true := by decide +kernel

/-- GSRNP-96. -/
theorem C24_gsrnp96 (u : Str) (x : GSRNP) (f : Fin 8) (ha : Ascii u) (hu : GSRNP.new u = .ok x)
    (v : Str) (y : GSRNP) (g : Fin 8) (ha' : Ascii v) (hu' : GSRNP.new v = .ok y) :
    (x.binary .gsrnp96 f = y.binary .gsrnp96 g → x = y ∧ f = g) ∧ (x.hex .gsrnp96 f = y.hex .gsrnp96 g → x = y ∧ f = g) ∧
      (x.base64 .gsrnp96 f = y.base64 .gsrnp96 g → x = y ∧ f = g) := by
  obtain ⟨rest, _, H⟩ := GSRNP.binOk_gsrnp96 ha hu
  obtain ⟨rest', _, H'⟩ := GSRNP.binOk_gsrnp96 ha' hu'
  exact H.inj H' (by decide) (fun _ => Bits_bin _ _) rfl (by decide) (w := 3) (fun f => length_bin (by omega) (by omega)) (fun f g e => Fin.ext (bin_inj e)) f g

example : Ascii (py "urn:epc:id:gsrnp:9521141.1234567890") ∧ ((do let x ← GSRNP.new (py "urn:epc:id:gsrnp:9521141.1234567890"); x.tagUri .gsrnp96 3) : Except Err Str).isOk = true := by decide +kernel

/-- GDTI-96. -/
theorem C24_gdti96 (u t : Str) (x : GDTI) (f : Fin 8) (ha : Ascii u) (hu : GDTI.new u = .ok x)
    (ht : x.tagUri .gdti96 f = .ok t)
    (v t' : Str) (y : GDTI) (g : Fin 8) (ha' : Ascii v) (hu' : GDTI.new v = .ok y)
    (ht' : y.tagUri .gdti96 g = .ok t') :
    (x.binary .gdti96 f = y.binary .gdti96 g → x = y ∧ f = g) ∧ (x.hex .gdti96 f = y.hex .gdti96 g → x = y ∧ f = g) ∧
      (x.base64 .gdti96 f = y.base64 .gdti96 g → x = y ∧ f = g) := by
  obtain ⟨rest, _, H⟩ := GDTI.avail_gdti96 ha hu ht
  obtain ⟨rest', _, H'⟩ := GDTI.avail_gdti96 ha' hu' ht'
  exact H.inj H' (by decide) (fun _ => Bits_bin _ _) rfl (by decide) (w := 3) (fun f => length_bin (by omega) (by omega)) (fun f g e => Fin.ext (bin_inj e)) f g

example : Ascii (py "urn:epc:id:gdti:9521141.12345.4711") ∧ ((do let x ← GDTI.new (py "urn:epc:id:gdti:9521141.12345.4711"); x.tagUri .gdti96 3) : Except Err Str).isOk = true := by decide +kernel

/-- GDTI-174. -/
theorem C24_gdti174 (u : Str) (x : GDTI) (f : Fin 8) (ha : Ascii u) (hu : GDTI.new u = .ok x)
    (hs : Canonical x.serial)
    (v : Str) (y : GDTI) (g : Fin 8) (ha' : Ascii v) (hu' : GDTI.new v = .ok y)
    (hs' : Canonical y.serial) :
    (x.binary .gdti174 f = y.binary .gdti174 g → x = y ∧ f = g) ∧ (x.hex .gdti174 f = y.hex .gdti174 g → x = y ∧ f = g) ∧
      (x.base64 .gdti174 f = y.base64 .gdti174 g → x = y ∧ f = g) := by
  obtain ⟨rest, _, H⟩ := GDTI.binOk_gdti174 ha hu hs
  obtain ⟨rest', _, H'⟩ := GDTI.binOk_gdti174 ha' hu' hs'
  exact H.inj H' (by decide) (fun _ => Bits_bin _ _) rfl (by decide) (w := 3) (fun f => length_bin (by omega) (by omega)) (fun f g e => Fin.ext (bin_inj e)) f g

example : Ascii (py "urn:epc:id:gdti:9521141.12345.32a%2Fb") ∧ ((do let x ← GDTI.new (py "urn:epc:id:gdti:9521141.12345.32a%2Fb"); x.tagUri .gdti174 3) : Except Err Str).isOk = true := by decide +kernel
example : Canonical (py "32a%2Fb") := ⟨py "32a/b", by decide, by decide, by decide⟩

/-- CPI-96. -/
theorem C24_cpi96 (u t : Str) (x : CPI) (f : Fin 8) (ha : Ascii u) (hu : CPI.new u = .ok x)
    (ht : x.tagUri .cpi96 f = .ok t)
    (v t' : Str) (y : CPI) (g : Fin 8) (ha' : Ascii v) (hu' : CPI.new v = .ok y)
    (ht' : y.tagUri .cpi96 g = .ok t') :
    (x.binary .cpi96 f = y.binary .cpi96 g → x = y ∧ f = g) ∧ (x.hex .cpi96 f = y.hex .cpi96 g → x = y ∧ f = g) ∧
      (x.base64 .cpi96 f = y.base64 .cpi96 g → x = y ∧ f = g) := by
  obtain ⟨rest, _, H⟩ := CPI.avail_cpi96 ha hu ht
  obtain ⟨rest', _, H'⟩ := CPI.avail_cpi96 ha' hu' ht'
  exact H.inj H' (by decide) (fun _ => Bits_bin _ _) rfl (by decide) (w := 3) (fun f => length_bin (by omega) (by omega)) (fun f g e => Fin.ext (bin_inj e)) f g

example : Ascii (py "urn:epc:id:cpi:9521141.98765.12345") ∧ ((do let x ← CPI.new (py "urn:epc:id:cpi:9521141.98765.12345"); x.tagUri .cpi96 3) : Except Err Str).isOk = true := by decide +kernel

/-- CPI-var. -/
theorem C24_cpi_var (u : Str) (x : CPI) (f : Fin 8) (ha : Ascii u) (hu : CPI.new u = .ok x)
    (v : Str) (y : CPI) (g : Fin 8) (ha' : Ascii v) (hu' : CPI.new v = .ok y) :
    (x.binary .cpiVar f = y.binary .cpiVar g → x = y ∧ f = g) ∧ (x.hex .cpiVar f = y.hex .cpiVar g → x = y ∧ f = g) ∧
      (x.base64 .cpiVar f = y.base64 .cpiVar g → x = y ∧ f = g) := by
  obtain ⟨rest, _, H⟩ := CPI.binOk_cpiVar ha hu
  obtain ⟨rest', _, H'⟩ := CPI.binOk_cpiVar ha' hu'
  exact H.inj H' (by decide) (fun _ => Bits_bin _ _) rfl (by decide) (w := 3) (fun f => length_bin (by omega) (by omega)) (fun f g e => Fin.ext (bin_inj e)) f g

example : Ascii (py "urn:epc:id:cpi:9521141.5PQ7%2FZ43.12345") ∧ ((do let x ← CPI.new (py "urn:epc:id:cpi:9521141.5PQ7%2FZ43.12345"); x.tagUri .cpiVar 3) : Except Err Str).isOk = true := by decide +kernel

/-- SGCN-96. -/
theorem C24_sgcn96 (u : Str) (x : SGCN) (f : Fin 8) (ha : Ascii u) (hu : SGCN.new u = .ok x)
    (v : Str) (y : SGCN) (g : Fin 8) (ha' : Ascii v) (hu' : SGCN.new v = .ok y) :
    (x.binary .sgcn96 f = y.binary .sgcn96 g → x = y ∧ f = g) ∧ (x.hex .sgcn96 f = y.hex .sgcn96 g → x = y ∧ f = g) ∧
      (x.base64 .sgcn96 f = y.base64 .sgcn96 g → x = y ∧ f = g) := by
  obtain ⟨rest, _, H⟩ := SGCN.binOk_sgcn96 ha hu
  obtain ⟨rest', _, H'⟩ := SGCN.binOk_sgcn96 ha' hu'
  exact H.inj H' (by decide) (fun _ => Bits_bin _ _) rfl (by decide) (w := 3) (fun f => length_bin (by omega) (by omega)) (fun f g e => Fin.ext (bin_inj e)) f g

example : Ascii (py "urn:epc:id:sgcn:9521141.67890.04711") ∧ ((do let x ← SGCN.new (py "urn:epc:id:sgcn:9521141.67890.04711"); x.tagUri .sgcn96 3) : Except Err Str).isOk = true := by decide +kernel

/-- ITIP-110. -/
theorem C24_itip110_partial (u t : Str) (x : ITIP) (f : Fin 8) (ha : Ascii u) (hu : ITIP.new u = .ok x)
    (hp : x.piece.length = 2 ∧ number x.piece < 99) (hq : x.total.length = 2 ∧ number x.total < 99) (ht : x.tagUri .itip110 f = .ok t)
    (v t' : Str) (y : ITIP) (g : Fin 8) (ha' : Ascii v) (hu' : ITIP.new v = .ok y)
    (hp' : y.piece.length = 2 ∧ number y.piece < 99) (hq' : y.total.length = 2 ∧ number y.total < 99) (ht' : y.tagUri .itip110 g = .ok t') :
    (x.binary .itip110 f = y.binary .itip110 g → x = y ∧ f = g) ∧ (x.hex .itip110 f = y.hex .itip110 g → x = y ∧ f = g) ∧
      (x.base64 .itip110 f = y.base64 .itip110 g → x = y ∧ f = g) := by
  obtain ⟨rest, _, H⟩ := ITIP.avail_itip110 ha hu hp hq ht
  obtain ⟨rest', _, H'⟩ := ITIP.avail_itip110 ha' hu' hp' hq' ht'
  exact H.inj H' (by decide) (fun _ => Bits_bin _ _) rfl (by decide) (w := 3) (fun f => length_bin (by omega) (by omega)) (fun f g e => Fin.ext (bin_inj e)) f g

example : Ascii (py "urn:epc:id:itip:9521141.012345.02.04.981") ∧ ((do let x ← ITIP.new (py "urn:epc:id:itip:9521141.012345.02.04.981"); x.tagUri .itip110 3) : Except Err Str).isOk = true := by decide +kernel

/-- ITIP-212. -/
theorem C24_itip212_partial (u : Str) (x : ITIP) (f : Fin 8) (ha : Ascii u) (hu : ITIP.new u = .ok x)
    (hp : x.piece.length = 2 ∧ number x.piece < 99) (hq : x.total.length = 2 ∧ number x.total < 99) (hs : Canonical x.serial)
    (v : Str) (y : ITIP) (g : Fin 8) (ha' : Ascii v) (hu' : ITIP.new v = .ok y)
    (hp' : y.piece.length = 2 ∧ number y.piece < 99) (hq' : y.total.length = 2 ∧ number y.total < 99) (hs' : Canonical y.serial) :
    (x.binary .itip212 f = y.binary .itip212 g → x = y ∧ f = g) ∧ (x.hex .itip212 f = y.hex .itip212 g → x = y ∧ f = g) ∧
      (x.base64 .itip212 f = y.base64 .itip212 g → x = y ∧ f = g) := by
  obtain ⟨rest, _, H⟩ := ITIP.binOk_itip212 ha hu hp hq hs
  obtain ⟨rest', _, H'⟩ := ITIP.binOk_itip212 ha' hu' hp' hq' hs'
  exact H.inj H' (by decide) (fun _ => Bits_bin _ _) rfl (by decide) (w := 3) (fun f => length_bin (by omega) (by omega)) (fun f g e => Fin.ext (bin_inj e)) f g

example : Ascii (py "urn:epc:id:itip:9521141.012345.02.04.32a%2Fb") ∧ ((do let x ← ITIP.new (py "urn:epc:id:itip:9521141.012345.02.04.32a%2Fb"); x.tagUri .itip212 3) : Except Err Str).isOk = true := by decide +kernel
example : Canonical (py "32a%2Fb") := ⟨py "32a/b", by decide, by decide, by decide⟩

/-- GID-96. -/
theorem C24_gid96 (u : Str) (x : GID) (ha : Ascii u) (hu : GID.new u = .ok x)
    (v : Str) (y : GID) (ha' : Ascii v) (hu' : GID.new v = .ok y) :
    (x.binary .gid96 = y.binary .gid96 → x = y) ∧ (x.hex .gid96 = y.hex .gid96 → x = y) ∧
      (x.base64 .gid96 = y.base64 .gid96 → x = y) := by
  obtain ⟨rest, _, H⟩ := GID.binOk_gid96 ha hu
  obtain ⟨rest', _, H'⟩ := GID.binOk_gid96 ha' hu'
  have := H.inj H' (by decide) (fun _ => by decide) rfl (by decide) (w := 0) (fun _ => rfl) (fun _ _ _ => Subsingleton.elim _ _) 0 0
  exact ⟨fun e => (this.1 e).1, fun e => (this.2.1 e).1, fun e => (this.2.2 e).1⟩

example : Ascii (py "urn:epc:id:gid:952056.2718.1414") ∧ ((do let x ← GID.new (py "urn:epc:id:gid:952056.2718.1414"); x.tagUri .gid96) : Except Err Str).isOk = true := by decide +kernel

/-- USDOD-96. -/
theorem C24_usdod96 (u : Str) (x : USDOD) (f : Fin 16) (ha : Ascii u) (hu : USDOD.new u = .ok x)
    (v : Str) (y : USDOD) (g : Fin 16) (ha' : Ascii v) (hu' : USDOD.new v = .ok y) :
    (x.binary .usdod96 f = y.binary .usdod96 g → x = y ∧ f = g) ∧ (x.hex .usdod96 f = y.hex .usdod96 g → x = y ∧ f = g) ∧
      (x.base64 .usdod96 f = y.base64 .usdod96 g → x = y ∧ f = g) := by
  obtain ⟨rest, _, H⟩ := USDOD.binOk_usdod96 ha hu
  obtain ⟨rest', _, H'⟩ := USDOD.binOk_usdod96 ha' hu'
  exact H.inj H' (by decide) (fun _ => Bits_bin _ _) rfl (by decide) (w := 4) (fun f => length_bin (by omega) (by omega)) (fun f g e => Fin.ext (bin_inj e)) f g

example : Ascii (py "urn:epc:id:usdod:CAGEY.5678") ∧ ((do let x ← USDOD.new (py "urn:epc:id:usdod:CAGEY.5678"); x.tagUri .usdod96 3) : Except Err Str).isOk = true := by decide +kernel

/-- ADI-var. -/
theorem C24_adi_var (u : Str) (x : ADI) (f : Fin 64) (hu : ADI.new u = .ok x)
    (v : Str) (y : ADI) (g : Fin 64) (hu' : ADI.new v = .ok y) :
    (x.binary .adiVar f = y.binary .adiVar g → x = y ∧ f = g) ∧ (x.hex .adiVar f = y.hex .adiVar g → x = y ∧ f = g) ∧
      (x.base64 .adiVar f = y.base64 .adiVar g → x = y ∧ f = g) := by
  obtain ⟨rest, _, H⟩ := ADI.binOk_aligned hu
  obtain ⟨rest', _, H'⟩ := ADI.binOk_aligned hu'
  exact H.inj H' (by decide) (fun _ => Bits_bin _ _) rfl (by decide) (w := 6) (fun f => length_bin (by omega) (by omega)) (fun f g e => Fin.ext (bin_inj e)) f g

example : Ascii (py "urn:epc:id:adi:W81X9C.3KL984PX1.2WMA-52") ∧ ((do let x ← ADI.new (py "urn:epc:id:adi:W81X9C.3KL984PX1.2WMA-52"); x.tagUri .adiVar 3) : Except Err Str).isOk = true := by decide +kernel
example : (∀ c ∈ py "3KL984PX1", c ∈ gs39) ∧ escape39 (py "3KL984PX1") = py "3KL984PX1" ∧ ¬ EarlyTerminator (py "3KL984PX1") := by decide +kernel

/-- The claim for GIAI-202 without the hypothesis on colons. -/
def C24_giai_claim : Prop := ∀ (u v : Str) (x y : GIAI) (f : Fin 8), Ascii u → Ascii v → GIAI.new u = .ok x → GIAI.new v = .ok y →
  Canonical x.assetRef → Canonical y.assetRef → x.binary .giai202 f = y.binary .giai202 f → x.epcUri = y.epcUri

/-- It is false: the references `a:b` and `a:c` have the same binary. -/
theorem C24_giai_claim_false : ¬ C24_giai_claim := by
  intro h
  have h1 : ∃ x y, GIAI.new (py "urn:epc:id:giai:9521141.a:b") = .ok x ∧ GIAI.new (py "urn:epc:id:giai:9521141.a:c") = .ok y ∧
      x.assetRef = py "a" ∧ y.assetRef = py "a" ∧ x.binary .giai202 0 = y.binary .giai202 0 ∧ x.epcUri ≠ y.epcUri := by
    refine ⟨_, _, rfl, rfl, by decide +kernel, by decide +kernel, by decide +kernel, by decide +kernel⟩
  obtain ⟨x, y, h1, h2, h3, h4, h5, h6⟩ := h1
  have hc : Canonical (py "a") := ⟨py "a", by decide, by decide, by decide⟩
  exact h6 (h _ _ x y 0 (by decide) (by decide) h1 h2 (h3 ▸ hc) (h4 ▸ hc) h5)

/-- ITIP: piece 1 of 004 and piece 01 of 04 have the same binary. -/
theorem C24_itip_lengths_counterexample : ∃ x y, ITIP.new (py "urn:epc:id:itip:9521141.012345.1.004.981") = .ok x ∧
    ITIP.new (py "urn:epc:id:itip:9521141.012345.01.04.981") = .ok y ∧ x.binary .itip110 0 = y.binary .itip110 0 ∧
    (x.binary .itip110 0).isOk = true ∧ x.epcUri ≠ y.epcUri :=
  ⟨_, _, rfl, rfl, by decide +kernel, by decide +kernel, by decide +kernel⟩

/-- ADI: a part number that `from_binary` cannot recover (C23) is covered. -/
example : EarlyTerminator (py "PQ7VZ4") ∧ (ADI.new (py "urn:epc:id:adi:35962.PQ7VZ4.M37GXB92")).isOk = true := by decide +kernel

end Epc
