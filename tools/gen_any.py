#!/usr/bin/env python3
"""Generate lean/Verif/Lemmas/AvailAny.lean: the binary of an object whose digits are of any script is that of the object with ASCII digits."""
import os
ROOT = os.path.dirname(os.path.dirname(os.path.abspath(__file__)))
# class, coding, filter type, filter bits, kind, bits behind the filter value
R = [
 ("SGTIN", "sgtin96", 8, 3, "num", 85), ("SGTIN", "sgtin198", 8, 3, "str", 187), ("SSCC", "sscc96", 8, 3, "all", 85),
 ("SGLN", "sgln96", 8, 3, "num", 85), ("SGLN", "sgln195", 8, 3, "str", 184), ("GRAI", "grai96", 8, 3, "num", 85),
 ("GRAI", "grai170", 8, 3, "str", 159), ("GSRN", "gsrn96", 8, 3, "all", 85), ("GSRNP", "gsrnp96", 8, 3, "all", 85),
 ("GDTI", "gdti96", 8, 3, "num", 85), ("GDTI", "gdti174", 8, 3, "str", 163), ("CPI", "cpi96", 8, 3, "num", 85),
 ("CPI", "cpiVar", 8, 3, "all", 0), ("SGCN", "sgcn96", 8, 3, "all", 85), ("ITIP", "itip110", 8, 3, "num", 99),
 ("ITIP", "itip212", 8, 3, "str", 201), ("USDOD", "usdod96", 16, 4, "all", 84),
]
KEY = {"SGTIN", "SSCC", "SGLN", "GRAI", "GSRN", "GSRNP", "GDTI", "SGCN"}  # C63 has a clause for the GS1 key
out = '''/-
The binary of an object whose digits are of any script is the one of the object with ASCII digits, and is read as that object.
Generated by tools/gen_any.py.
-/
import Verif.Lemmas.Avail
import Verif.Lemmas.SpecDigits
import Verif.Props.C14
import Verif.Props.C63

namespace Epc
open Spec Re

theorem number_asciiDigits {s : Str} (h : UDigits s) : number (asciiDigits s) = unumber s := by
  have hd : Dec s := uDigits_iff s |>.1 h
  have ha : Digits (asciiDigits s) := digits_of_dec_ascii (dec_asciiDigits hd) (ascii_of_dec hd)
  rw [← decVal_Digits ha, decVal_asciiDigits, unumber_eq hd]

theorem canonical_asciiDigits {s : Str} (h : Canonical s) : asciiDigits s = s := by
  obtain ⟨raw, hne, hr, rfl⟩ := h
  exact asciiDigits_ascii (gs3a3_ascii (gs3a3_escape hr hne))
'''
for C, cs, fn, w, kind, n in R:
    nm = C.lower()
    hy = pre = ""
    args = "ha hy"
    if C == "ITIP":
        hy += "\n    (hp : x.piece.length = 2 ∧ unumber x.piece < 99) (hq : x.total.length = 2 ∧ unumber x.total < 99)"
        pre += f'''
  obtain ⟨_, _, dp, dq⟩ := C14_itip_partial u x hu
  have hp' : (asciiDigits x.piece).length = 2 ∧ number (asciiDigits x.piece) < 99 := by
    rw [length_asciiDigits, number_asciiDigits dp]; exact hp
  have hq' : (asciiDigits x.total).length = 2 ∧ number (asciiDigits x.total) < 99 := by
    rw [length_asciiDigits, number_asciiDigits dq]; exact hq'''
        args += " hp' hq'"
    if kind == "num":
        hy += f"\n    (ht : x.tagUri .{cs} f = .ok t)"
        args += f" (t := asciiDigits t) (f := f) (by rw [(h .{cs} f).1, ht]; rfl)"
    if kind == "str":
        hy += f"\n    (hs : Canonical x.serial)"
        args += " (by show Canonical (asciiDigits x.serial); rw [canonical_asciiDigits hs]; exact hs)"
    vs = f"{{u t : Str}} {{x : {C}}} {{f : Fin {fn}}}" if kind == "num" else f"{{u : Str}} {{x : {C}}}"
    pat = "⟨y, ha, hy, rfl, " + ("_, " if C in KEY else "") + ("_, " if C not in ("USDOD",) else "") + "h⟩"
    if C == "CPI": pat = "⟨y, ha, hy, rfl, _, h⟩"
    src = f"{C}.avail_{cs}" if kind == "num" else f"{C}.binOk_{cs}"
    ln = f"rest.length = {n}" if n else "50 ≤ rest.length"
    out += f'''
theorem {C}.any_{cs} {vs} (hu : {C}.new u = .ok x){hy} :
    ∃ y, {C}.new (asciiDigits u) = .ok y ∧ ∃ rest, {ln} ∧
      BinOk y (x.binary .{cs}) {C}.fromBinary (Coding.header .{cs}) (fun f : Fin {fn} => bin {w} f) rest := by
  obtain {pat} := C63_{nm} u x hu{pre}
  refine ⟨_, hy, ?_⟩
  obtain ⟨rest, hl, H⟩ := {src} {args}
  exact ⟨rest, hl, H.bits, fun f => (h .{cs} f).2.symm.trans (H.enc_eq f), H.dec_eq⟩
'''
out += '''
theorem GID.any_gid96 {u : Str} {x : GID} (hu : GID.new u = .ok x) :
    ∃ y, GID.new (asciiDigits u) = .ok y ∧ ∃ rest, rest.length = 88 ∧
      BinOk y (fun _ : Fin 1 => x.binary .gid96) GID.fromBinary (Coding.header .gid96) (fun _ : Fin 1 => []) rest := by
  obtain ⟨y, ha, hy, rfl, h⟩ := C63_gid u x hu
  refine ⟨_, hy, ?_⟩
  obtain ⟨rest, hl, H⟩ := GID.binOk_gid96 ha hy
  exact ⟨rest, hl, H.bits, fun f => (h .gid96).2.symm.trans (H.enc_eq f), H.dec_eq⟩
'''
for cs, n in [("giai96", 85), ("giai202", 191)]:
    hy = "(ht : x.tagUri .giai96 f = .ok t)" if n == 85 else "(hs : Canonical x.assetRef)"
    vs = "{u t : Str} {x : GIAI} {f : Fin 8}" if n == 85 else "{u : Str} {x : GIAI}"
    arg = "(t := asciiDigits t) (f := f) (by rw [(h .giai96 f).1, ht]; rfl)" if n == 85 else \
          "(by show Canonical (asciiDigits x.assetRef); rw [canonical_asciiDigits hs]; exact hs)"
    out += f'''
theorem GIAI.any_{cs} {vs} (hu : GIAI.new u = .ok x) {hy} :
    ∃ y, GIAI.new (py "urn:epc:id:giai:" ++ (asciiDigits x.companyPref ++ '.' :: x.assetRef)) = .ok y ∧ ∃ rest, rest.length = {n} ∧
      BinOk y (x.binary .{cs}) GIAI.fromBinary (Coding.header .{cs}) (fun f : Fin 8 => bin 3 f) rest := by
  have has : asciiDigits x.assetRef = x.assetRef := {"canonical_asciiDigits (numeral_canonical (GIAI.serial_of_tagUri hu ht).1)" if n == 85 else "canonical_asciiDigits hs"}
  obtain ⟨y, ha, hy, rfl, _, _, h⟩ := C63_giai u x hu
  obtain ⟨z, hz, rest, hl, H⟩ := GIAI.avail_{cs} ha hy {arg}
  dsimp only at hz
  rw [has] at hz
  exact ⟨z, hz, rest, hl, H.bits, fun f => (h .{cs} f).2.symm.trans (H.enc_eq f), H.dec_eq⟩
'''
out += '''
theorem ITIP.any_small {u b : Str} {x : ITIP} {cs : ITIP.Coding} {f : Fin 8} (hu : ITIP.new u = .ok x) (hb : x.binary cs f = .ok b) :
    unumber x.piece < 99 ∧ unumber x.total < 99 := by
  obtain ⟨_, _, dp, dq⟩ := C14_itip_partial u x hu
  obtain ⟨y, ha, hy, rfl, _, hc⟩ := C63_itip u x hu
  have hs := ITIP.binary_small ha hy ((hc cs f).2.trans hb)
  dsimp only at hs
  rwa [number_asciiDigits dp, number_asciiDigits dq] at hs
'''
open(os.path.join(ROOT, "lean/Verif/Lemmas/AvailAny.lean"), "w").write(out + "\nend Epc\n")
