#!/usr/bin/env python3
"""Generate lean/Verif/Lemmas/Binary.lean: the exact form of the binary encodings of the schemes with a partition table."""
import os
ROOT = os.path.dirname(os.path.dirname(os.path.abspath(__file__)))
# class, reference field, coding, size, partition bits, total digits, serial kind, serial bits, D nonempty, drop offset
A = [("SGTIN", "itemRef", "sgtin96", 96, 47, 13, "num", 38), ("SGTIN", "itemRef", "sgtin198", 198, 47, 13, "str", 140),
     ("SGLN", "locationRef", "sgln96", 96, 44, 12, "num", 41), ("SGLN", "locationRef", "sgln195", 195, 44, 12, "str", 140),
     ("GRAI", "assetType", "grai96", 96, 47, 12, "num", 38), ("GRAI", "assetType", "grai170", 170, 47, 12, "str", 112),
     ("GDTI", "docType", "gdti96", 96, 44, 12, "num", 41), ("GDTI", "docType", "gdti174", 174, 44, 12, "str", 119),
     ("SGCN", "couponRef", "sgcn96", 96, 44, 12, "gcn", 41),
     ("SSCC", "serial", "sscc96", 96, 61, 17, "zero", 24), ("GSRN", "serviceRef", "gsrn96", 96, 61, 17, "zero", 24),
     ("GSRNP", "serviceRef", "gsrnp96", 96, 61, 17, "zero", 24)]
out = '''/-
The exact form of the binary encodings of SGTIN, SGLN, GRAI, GDTI, SGCN, SSCC, GSRN and GSRNP, and what decoding makes of them.
Generated by tools/gen_binary.py.
-/
import Verif.Lemmas.BinOk

namespace Epc
open Spec Re
'''
for cl, ref, cs, size, W, T, kind, k in A:
    nm = cl.lower()
    three = kind != "zero"
    nonempty = cl in ("SGTIN", "SSCC", "GSRN", "GSRNP")
    hd = "hD.2" if nonempty else "hD"
    hyp = {"num": f"\n    (hs : Numeral x.serial ∧ number x.serial < 2 ^ {k})", "str": "\n    (hs : Canonical x.serial)", "gcn": "", "zero": ""}[kind]
    vs, hv = ("C, D, S", "hC, hD, hS") if three else ("C, D", "hC, hD")
    body = "C ++ '.' :: (D ++ '.' :: S)" if three else "C ++ '.' :: D"
    if kind == "str": body = body.replace("S)", "escape raw)")
    ser = {"num": f"bin {k} (number S)", "str": "sb", "gcn": f"bin {k} (number ('1' :: S))", "zero": f"List.replicate {k} '0'"}[kind]
    out += f'''
theorem {cl}.binOk_{cs} {{u : Str}} {{x : {cl}}} (ha : Ascii u) (hu : {cl}.new u = .ok x){hyp} :
    ∃ rest, rest.length = {size-11} ∧
      BinOk x (x.binary .{cs}) {cl}.fromBinary (Coding.header .{cs}) (fun f : Fin 8 => bin 3 f) rest := by
  obtain ⟨{vs}, ⟨{hv}⟩, hlen, e, rfl⟩ := {cl}.new_iff.1 hu
  obtain ⟨aC, aD{", aS" if three else ""}⟩ := ascii_uri{3 if three else 2} (e ▸ ha)
  obtain ⟨p, p1, p2, p3, p4⟩ := part_ok (t := {cl}.table) (W := {W}) (T := {T}) (by decide) (by decide) (by decide) (by decide)
    (digits_of_dec_ascii hC.2 aC) (digits_of_dec_ascii {hd} aD) (by omega) (by omega) (by omega)
'''
    if kind == "num":
        out += f'''  dsimp only at hs
  obtain ⟨s1, s2⟩ := numeral_bin hs.1 {k}
  have s3 : (bin {k} (number S)).length = {k} := length_bin (by omega) hs.2
  have sB : Bits (bin {k} (number S)) := Bits_bin _ _
'''
    elif kind == "str":
        cap = {"SGTIN": 20, "SGLN": 20, "GRAI": 16, "GDTI": 17}[cl]
        if cl in ("SGTIN", "SGLN"):
            lenpf = "by have := hlen; rw [replaceUriEscapes_escape] at this; omega"
        else:
            lenpf = "by have := length_le_escape raw; omega"
        out += f'''  dsimp only at hs
  obtain ⟨raw, hne, hraw, rfl⟩ := hs
  have hl : raw.length ≤ {cap} := {lenpf}
  obtain ⟨sb, s1, sB, s3, s2⟩ := canonical_bin hraw (w := {k}) (by omega)
'''
    elif kind == "gcn":
        out += f'''  have dS := digits_of_dec_ascii hS.2 aS
  have hw : 2 * 10 ^ S.length < 2 ^ {k} :=
    Nat.lt_of_le_of_lt (Nat.mul_le_mul_left 2 (Nat.pow_le_pow_right (by decide) hlen.2.1)) (by decide)
  have s1 := encodeNumeric_ok dS hw
  have s2 := decodeNumeric_ok (w := {k}) dS hS.1
  have s3 : (bin {k} (number ('1' :: S))).length = {k} := length_bin (by omega) (numeric_lt dS hw)
  have sB : Bits (bin {k} (number ('1' :: S))) := Bits_bin _ _
'''
    else:
        out += f'''  have s3 : (List.replicate {k} '0').length = {k} := List.length_replicate ..
  have sB : Bits (List.replicate {k} '0') := fun c hc => .inl (List.eq_of_mem_replicate hc)
'''
    encS = {"num": "if_pos rfl, s1, ok_bind, ", "str": "if_neg (by decide), s1, ok_bind, ", "gcn": "s1, ok_bind, ", "zero": ""}[kind]
    decS = {"num": f"drop_append3 (by omega), if_pos rfl, s2, ok_bind, ", "str": f"drop_append3 (by omega), if_neg (by decide), s2, ok_bind, ",
            "gcn": f"drop_append3 (by omega), s2, ok_bind, ", "zero": ""}[kind]
    out += f'''  refine ⟨p ++ {ser}, by simp; omega, Bits_append.2 ⟨p2, sB⟩, fun f => ?_, fun f tail => ?_⟩
  · unfold {cl}.binary
    rw [filter_ok, ok_bind]
    dsimp only
    rw [p1, ok_bind, {encS}pure_ok]
    simp
  · have hf := length_bin3 f
    have hh : (Coding.header .{cs}).length = 8 := rfl
    unfold {cl}.fromBinary
    rw [parseHeader_frame (cs := Coding.{cs}) (p := py "{nm}") (sz := py "{size}") (n := {size}) rfl (by decide) (by decide) (by decide)
      (by decide) (by simp; omega), ok_bind]
    dsimp only
    rw [slice_append (by omega) (by omega), binaryToInt_bin, ok_bind, slice_append2 (by omega) (by omega)]
    have p4' := p4 []
    rw [List.append_nil] at p4'
    rw [p4', ok_bind, {decS}intStr_ofNat]
    refine Eq.trans (congrArg _ ?_) ({cl}.fromTagUri_of_new (cs := .{cs}) (f := natStr f) (b := {body}) (num_natStr _)
      (by rw [← hu, e]; rfl))
    simp
'''
out += "\nend Epc\n"
open(os.path.join(ROOT, "lean/Verif/Lemmas/Binary.lean"), "w").write(out)
