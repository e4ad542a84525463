/-
The binary of an object whose digits are of any script is the one of the object with ASCII digits, and is read as that object.
Generated by tools/gen_any.py.
-/
import Verif.Lemmas.Avail
import Verif.Lemmas.SpecDigits
import Verif.Props.C14
import Verif.Props.C63

namespace Epc
open Spec Re

theorem number_asciiDigits {s : Str} (h : UDigits s) : number (asciiDigits s) = unumber s := by
  have hd : Dec s := uDigits_iff s |>.1 h
  have ha : Digits (asciiDigits s) := digits_of_dec_ascii (dec_asciiDigits hd) (ascii_of_dec hd)
  rw [← decVal_Digits ha, decVal_asciiDigits, unumber_eq hd]

theorem canonical_asciiDigits {s : Str} (h : Canonical s) : asciiDigits s = s := by
  obtain ⟨raw, hne, hr, rfl⟩ := h
  exact asciiDigits_ascii (gs3a3_ascii (gs3a3_escape hr hne))

theorem SGTIN.any_sgtin96 {u t : Str} {x : SGTIN} {f : Fin 8} (hu : SGTIN.new u = .ok x)
    (ht : x.tagUri .sgtin96 f = .ok t) :
    ∃ y, SGTIN.new (asciiDigits u) = .ok y ∧ ∃ rest, rest.length = 85 ∧
      BinOk y (x.binary .sgtin96) SGTIN.fromBinary (Coding.header .sgtin96) (fun f : Fin 8 => bin 3 f) rest := by
  obtain ⟨y, ha, hy, rfl, _, _, h⟩ := C63_sgtin u x hu
  refine ⟨_, hy, ?_⟩
  obtain ⟨rest, hl, H⟩ := SGTIN.avail_sgtin96 ha hy (t := asciiDigits t) (f := f) (by rw [(h .sgtin96 f).1, ht]; rfl)
  exact ⟨rest, hl, H.bits, fun f => (h .sgtin96 f).2.symm.trans (H.enc_eq f), H.dec_eq⟩

theorem SGTIN.any_sgtin198 {u : Str} {x : SGTIN} (hu : SGTIN.new u = .ok x)
    (hs : Canonical x.serial) :
    ∃ y, SGTIN.new (asciiDigits u) = .ok y ∧ ∃ rest, rest.length = 187 ∧
      BinOk y (x.binary .sgtin198) SGTIN.fromBinary (Coding.header .sgtin198) (fun f : Fin 8 => bin 3 f) rest := by
  obtain ⟨y, ha, hy, rfl, _, _, h⟩ := C63_sgtin u x hu
  refine ⟨_, hy, ?_⟩
  obtain ⟨rest, hl, H⟩ := SGTIN.binOk_sgtin198 ha hy (by show Canonical (asciiDigits x.serial); rw [canonical_asciiDigits hs]; exact hs)
  exact ⟨rest, hl, H.bits, fun f => (h .sgtin198 f).2.symm.trans (H.enc_eq f), H.dec_eq⟩

theorem SSCC.any_sscc96 {u : Str} {x : SSCC} (hu : SSCC.new u = .ok x) :
    ∃ y, SSCC.new (asciiDigits u) = .ok y ∧ ∃ rest, rest.length = 85 ∧
      BinOk y (x.binary .sscc96) SSCC.fromBinary (Coding.header .sscc96) (fun f : Fin 8 => bin 3 f) rest := by
  obtain ⟨y, ha, hy, rfl, _, _, h⟩ := C63_sscc u x hu
  refine ⟨_, hy, ?_⟩
  obtain ⟨rest, hl, H⟩ := SSCC.binOk_sscc96 ha hy
  exact ⟨rest, hl, H.bits, fun f => (h .sscc96 f).2.symm.trans (H.enc_eq f), H.dec_eq⟩

theorem SGLN.any_sgln96 {u t : Str} {x : SGLN} {f : Fin 8} (hu : SGLN.new u = .ok x)
    (ht : x.tagUri .sgln96 f = .ok t) :
    ∃ y, SGLN.new (asciiDigits u) = .ok y ∧ ∃ rest, rest.length = 85 ∧
      BinOk y (x.binary .sgln96) SGLN.fromBinary (Coding.header .sgln96) (fun f : Fin 8 => bin 3 f) rest := by
  obtain ⟨y, ha, hy, rfl, _, _, h⟩ := C63_sgln u x hu
  refine ⟨_, hy, ?_⟩
  obtain ⟨rest, hl, H⟩ := SGLN.avail_sgln96 ha hy (t := asciiDigits t) (f := f) (by rw [(h .sgln96 f).1, ht]; rfl)
  exact ⟨rest, hl, H.bits, fun f => (h .sgln96 f).2.symm.trans (H.enc_eq f), H.dec_eq⟩

theorem SGLN.any_sgln195 {u : Str} {x : SGLN} (hu : SGLN.new u = .ok x)
    (hs : Canonical x.serial) :
    ∃ y, SGLN.new (asciiDigits u) = .ok y ∧ ∃ rest, rest.length = 184 ∧
      BinOk y (x.binary .sgln195) SGLN.fromBinary (Coding.header .sgln195) (fun f : Fin 8 => bin 3 f) rest := by
  obtain ⟨y, ha, hy, rfl, _, _, h⟩ := C63_sgln u x hu
  refine ⟨_, hy, ?_⟩
  obtain ⟨rest, hl, H⟩ := SGLN.binOk_sgln195 ha hy (by show Canonical (asciiDigits x.serial); rw [canonical_asciiDigits hs]; exact hs)
  exact ⟨rest, hl, H.bits, fun f => (h .sgln195 f).2.symm.trans (H.enc_eq f), H.dec_eq⟩

theorem GRAI.any_grai96 {u t : Str} {x : GRAI} {f : Fin 8} (hu : GRAI.new u = .ok x)
    (ht : x.tagUri .grai96 f = .ok t) :
    ∃ y, GRAI.new (asciiDigits u) = .ok y ∧ ∃ rest, rest.length = 85 ∧
      BinOk y (x.binary .grai96) GRAI.fromBinary (Coding.header .grai96) (fun f : Fin 8 => bin 3 f) rest := by
  obtain ⟨y, ha, hy, rfl, _, _, h⟩ := C63_grai u x hu
  refine ⟨_, hy, ?_⟩
  obtain ⟨rest, hl, H⟩ := GRAI.avail_grai96 ha hy (t := asciiDigits t) (f := f) (by rw [(h .grai96 f).1, ht]; rfl)
  exact ⟨rest, hl, H.bits, fun f => (h .grai96 f).2.symm.trans (H.enc_eq f), H.dec_eq⟩

theorem GRAI.any_grai170 {u : Str} {x : GRAI} (hu : GRAI.new u = .ok x)
    (hs : Canonical x.serial) :
    ∃ y, GRAI.new (asciiDigits u) = .ok y ∧ ∃ rest, rest.length = 159 ∧
      BinOk y (x.binary .grai170) GRAI.fromBinary (Coding.header .grai170) (fun f : Fin 8 => bin 3 f) rest := by
  obtain ⟨y, ha, hy, rfl, _, _, h⟩ := C63_grai u x hu
  refine ⟨_, hy, ?_⟩
  obtain ⟨rest, hl, H⟩ := GRAI.binOk_grai170 ha hy (by show Canonical (asciiDigits x.serial); rw [canonical_asciiDigits hs]; exact hs)
  exact ⟨rest, hl, H.bits, fun f => (h .grai170 f).2.symm.trans (H.enc_eq f), H.dec_eq⟩

theorem GSRN.any_gsrn96 {u : Str} {x : GSRN} (hu : GSRN.new u = .ok x) :
    ∃ y, GSRN.new (asciiDigits u) = .ok y ∧ ∃ rest, rest.length = 85 ∧
      BinOk y (x.binary .gsrn96) GSRN.fromBinary (Coding.header .gsrn96) (fun f : Fin 8 => bin 3 f) rest := by
  obtain ⟨y, ha, hy, rfl, _, _, h⟩ := C63_gsrn u x hu
  refine ⟨_, hy, ?_⟩
  obtain ⟨rest, hl, H⟩ := GSRN.binOk_gsrn96 ha hy
  exact ⟨rest, hl, H.bits, fun f => (h .gsrn96 f).2.symm.trans (H.enc_eq f), H.dec_eq⟩

theorem GSRNP.any_gsrnp96 {u : Str} {x : GSRNP} (hu : GSRNP.new u = .ok x) :
    ∃ y, GSRNP.new (asciiDigits u) = .ok y ∧ ∃ rest, rest.length = 85 ∧
      BinOk y (x.binary .gsrnp96) GSRNP.fromBinary (Coding.header .gsrnp96) (fun f : Fin 8 => bin 3 f) rest := by
  obtain ⟨y, ha, hy, rfl, _, _, h⟩ := C63_gsrnp u x hu
  refine ⟨_, hy, ?_⟩
  obtain ⟨rest, hl, H⟩ := GSRNP.binOk_gsrnp96 ha hy
  exact ⟨rest, hl, H.bits, fun f => (h .gsrnp96 f).2.symm.trans (H.enc_eq f), H.dec_eq⟩

theorem GDTI.any_gdti96 {u t : Str} {x : GDTI} {f : Fin 8} (hu : GDTI.new u = .ok x)
    (ht : x.tagUri .gdti96 f = .ok t) :
    ∃ y, GDTI.new (asciiDigits u) = .ok y ∧ ∃ rest, rest.length = 85 ∧
      BinOk y (x.binary .gdti96) GDTI.fromBinary (Coding.header .gdti96) (fun f : Fin 8 => bin 3 f) rest := by
  obtain ⟨y, ha, hy, rfl, _, _, h⟩ := C63_gdti u x hu
  refine ⟨_, hy, ?_⟩
  obtain ⟨rest, hl, H⟩ := GDTI.avail_gdti96 ha hy (t := asciiDigits t) (f := f) (by rw [(h .gdti96 f).1, ht]; rfl)
  exact ⟨rest, hl, H.bits, fun f => (h .gdti96 f).2.symm.trans (H.enc_eq f), H.dec_eq⟩

theorem GDTI.any_gdti174 {u : Str} {x : GDTI} (hu : GDTI.new u = .ok x)
    (hs : Canonical x.serial) :
    ∃ y, GDTI.new (asciiDigits u) = .ok y ∧ ∃ rest, rest.length = 163 ∧
      BinOk y (x.binary .gdti174) GDTI.fromBinary (Coding.header .gdti174) (fun f : Fin 8 => bin 3 f) rest := by
  obtain ⟨y, ha, hy, rfl, _, _, h⟩ := C63_gdti u x hu
  refine ⟨_, hy, ?_⟩
  obtain ⟨rest, hl, H⟩ := GDTI.binOk_gdti174 ha hy (by show Canonical (asciiDigits x.serial); rw [canonical_asciiDigits hs]; exact hs)
  exact ⟨rest, hl, H.bits, fun f => (h .gdti174 f).2.symm.trans (H.enc_eq f), H.dec_eq⟩

theorem CPI.any_cpi96 {u t : Str} {x : CPI} {f : Fin 8} (hu : CPI.new u = .ok x)
    (ht : x.tagUri .cpi96 f = .ok t) :
    ∃ y, CPI.new (asciiDigits u) = .ok y ∧ ∃ rest, rest.length = 85 ∧
      BinOk y (x.binary .cpi96) CPI.fromBinary (Coding.header .cpi96) (fun f : Fin 8 => bin 3 f) rest := by
  obtain ⟨y, ha, hy, rfl, _, h⟩ := C63_cpi u x hu
  refine ⟨_, hy, ?_⟩
  obtain ⟨rest, hl, H⟩ := CPI.avail_cpi96 ha hy (t := asciiDigits t) (f := f) (by rw [(h .cpi96 f).1, ht]; rfl)
  exact ⟨rest, hl, H.bits, fun f => (h .cpi96 f).2.symm.trans (H.enc_eq f), H.dec_eq⟩

theorem CPI.any_cpiVar {u : Str} {x : CPI} (hu : CPI.new u = .ok x) :
    ∃ y, CPI.new (asciiDigits u) = .ok y ∧ ∃ rest, 50 ≤ rest.length ∧
      BinOk y (x.binary .cpiVar) CPI.fromBinary (Coding.header .cpiVar) (fun f : Fin 8 => bin 3 f) rest := by
  obtain ⟨y, ha, hy, rfl, _, h⟩ := C63_cpi u x hu
  refine ⟨_, hy, ?_⟩
  obtain ⟨rest, hl, H⟩ := CPI.binOk_cpiVar ha hy
  exact ⟨rest, hl, H.bits, fun f => (h .cpiVar f).2.symm.trans (H.enc_eq f), H.dec_eq⟩

theorem SGCN.any_sgcn96 {u : Str} {x : SGCN} (hu : SGCN.new u = .ok x) :
    ∃ y, SGCN.new (asciiDigits u) = .ok y ∧ ∃ rest, rest.length = 85 ∧
      BinOk y (x.binary .sgcn96) SGCN.fromBinary (Coding.header .sgcn96) (fun f : Fin 8 => bin 3 f) rest := by
  obtain ⟨y, ha, hy, rfl, _, _, h⟩ := C63_sgcn u x hu
  refine ⟨_, hy, ?_⟩
  obtain ⟨rest, hl, H⟩ := SGCN.binOk_sgcn96 ha hy
  exact ⟨rest, hl, H.bits, fun f => (h .sgcn96 f).2.symm.trans (H.enc_eq f), H.dec_eq⟩

theorem ITIP.any_itip110 {u t : Str} {x : ITIP} {f : Fin 8} (hu : ITIP.new u = .ok x)
    (hp : x.piece.length = 2 ∧ unumber x.piece < 99) (hq : x.total.length = 2 ∧ unumber x.total < 99)
    (ht : x.tagUri .itip110 f = .ok t) :
    ∃ y, ITIP.new (asciiDigits u) = .ok y ∧ ∃ rest, rest.length = 99 ∧
      BinOk y (x.binary .itip110) ITIP.fromBinary (Coding.header .itip110) (fun f : Fin 8 => bin 3 f) rest := by
  obtain ⟨y, ha, hy, rfl, _, h⟩ := C63_itip u x hu
  obtain ⟨_, _, dp, dq⟩ := C14_itip_partial u x hu
  have hp' : (asciiDigits x.piece).length = 2 ∧ number (asciiDigits x.piece) < 99 := by
    rw [length_asciiDigits, number_asciiDigits dp]; exact hp
  have hq' : (asciiDigits x.total).length = 2 ∧ number (asciiDigits x.total) < 99 := by
    rw [length_asciiDigits, number_asciiDigits dq]; exact hq
  refine ⟨_, hy, ?_⟩
  obtain ⟨rest, hl, H⟩ := ITIP.avail_itip110 ha hy hp' hq' (t := asciiDigits t) (f := f) (by rw [(h .itip110 f).1, ht]; rfl)
  exact ⟨rest, hl, H.bits, fun f => (h .itip110 f).2.symm.trans (H.enc_eq f), H.dec_eq⟩

theorem ITIP.any_itip212 {u : Str} {x : ITIP} (hu : ITIP.new u = .ok x)
    (hp : x.piece.length = 2 ∧ unumber x.piece < 99) (hq : x.total.length = 2 ∧ unumber x.total < 99)
    (hs : Canonical x.serial) :
    ∃ y, ITIP.new (asciiDigits u) = .ok y ∧ ∃ rest, rest.length = 201 ∧
      BinOk y (x.binary .itip212) ITIP.fromBinary (Coding.header .itip212) (fun f : Fin 8 => bin 3 f) rest := by
  obtain ⟨y, ha, hy, rfl, _, h⟩ := C63_itip u x hu
  obtain ⟨_, _, dp, dq⟩ := C14_itip_partial u x hu
  have hp' : (asciiDigits x.piece).length = 2 ∧ number (asciiDigits x.piece) < 99 := by
    rw [length_asciiDigits, number_asciiDigits dp]; exact hp
  have hq' : (asciiDigits x.total).length = 2 ∧ number (asciiDigits x.total) < 99 := by
    rw [length_asciiDigits, number_asciiDigits dq]; exact hq
  refine ⟨_, hy, ?_⟩
  obtain ⟨rest, hl, H⟩ := ITIP.binOk_itip212 ha hy hp' hq' (by show Canonical (asciiDigits x.serial); rw [canonical_asciiDigits hs]; exact hs)
  exact ⟨rest, hl, H.bits, fun f => (h .itip212 f).2.symm.trans (H.enc_eq f), H.dec_eq⟩

theorem USDOD.any_usdod96 {u : Str} {x : USDOD} (hu : USDOD.new u = .ok x) :
    ∃ y, USDOD.new (asciiDigits u) = .ok y ∧ ∃ rest, rest.length = 84 ∧
      BinOk y (x.binary .usdod96) USDOD.fromBinary (Coding.header .usdod96) (fun f : Fin 16 => bin 4 f) rest := by
  obtain ⟨y, ha, hy, rfl, h⟩ := C63_usdod u x hu
  refine ⟨_, hy, ?_⟩
  obtain ⟨rest, hl, H⟩ := USDOD.binOk_usdod96 ha hy
  exact ⟨rest, hl, H.bits, fun f => (h .usdod96 f).2.symm.trans (H.enc_eq f), H.dec_eq⟩

theorem GID.any_gid96 {u : Str} {x : GID} (hu : GID.new u = .ok x) :
    ∃ y, GID.new (asciiDigits u) = .ok y ∧ ∃ rest, rest.length = 88 ∧
      BinOk y (fun _ : Fin 1 => x.binary .gid96) GID.fromBinary (Coding.header .gid96) (fun _ : Fin 1 => []) rest := by
  obtain ⟨y, ha, hy, rfl, h⟩ := C63_gid u x hu
  refine ⟨_, hy, ?_⟩
  obtain ⟨rest, hl, H⟩ := GID.binOk_gid96 ha hy
  exact ⟨rest, hl, H.bits, fun f => (h .gid96).2.symm.trans (H.enc_eq f), H.dec_eq⟩

theorem GIAI.any_giai96 {u t : Str} {x : GIAI} {f : Fin 8} (hu : GIAI.new u = .ok x) (ht : x.tagUri .giai96 f = .ok t) :
    ∃ y, GIAI.new (py "urn:epc:id:giai:" ++ (asciiDigits x.companyPref ++ '.' :: x.assetRef)) = .ok y ∧ ∃ rest, rest.length = 85 ∧
      BinOk y (x.binary .giai96) GIAI.fromBinary (Coding.header .giai96) (fun f : Fin 8 => bin 3 f) rest := by
  have has : asciiDigits x.assetRef = x.assetRef := canonical_asciiDigits (numeral_canonical (GIAI.serial_of_tagUri hu ht).1)
  obtain ⟨y, ha, hy, rfl, _, _, h⟩ := C63_giai u x hu
  obtain ⟨z, hz, rest, hl, H⟩ := GIAI.avail_giai96 ha hy (t := asciiDigits t) (f := f) (by rw [(h .giai96 f).1, ht]; rfl)
  dsimp only at hz
  rw [has] at hz
  exact ⟨z, hz, rest, hl, H.bits, fun f => (h .giai96 f).2.symm.trans (H.enc_eq f), H.dec_eq⟩

theorem GIAI.any_giai202 {u : Str} {x : GIAI} (hu : GIAI.new u = .ok x) (hs : Canonical x.assetRef) :
    ∃ y, GIAI.new (py "urn:epc:id:giai:" ++ (asciiDigits x.companyPref ++ '.' :: x.assetRef)) = .ok y ∧ ∃ rest, rest.length = 191 ∧
      BinOk y (x.binary .giai202) GIAI.fromBinary (Coding.header .giai202) (fun f : Fin 8 => bin 3 f) rest := by
  have has : asciiDigits x.assetRef = x.assetRef := canonical_asciiDigits hs
  obtain ⟨y, ha, hy, rfl, _, _, h⟩ := C63_giai u x hu
  obtain ⟨z, hz, rest, hl, H⟩ := GIAI.avail_giai202 ha hy (by show Canonical (asciiDigits x.assetRef); rw [canonical_asciiDigits hs]; exact hs)
  dsimp only at hz
  rw [has] at hz
  exact ⟨z, hz, rest, hl, H.bits, fun f => (h .giai202 f).2.symm.trans (H.enc_eq f), H.dec_eq⟩

theorem ITIP.any_small {u b : Str} {x : ITIP} {cs : ITIP.Coding} {f : Fin 8} (hu : ITIP.new u = .ok x) (hb : x.binary cs f = .ok b) :
    unumber x.piece < 99 ∧ unumber x.total < 99 := by
  obtain ⟨_, _, dp, dq⟩ := C14_itip_partial u x hu
  obtain ⟨y, ha, hy, rfl, _, hc⟩ := C63_itip u x hu
  have hs := ITIP.binary_small ha hy ((hc cs f).2.trans hb)
  dsimp only at hs
  rwa [number_asciiDigits dp, number_asciiDigits dq] at hs

end Epc
