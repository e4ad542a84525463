#!/usr/bin/env python3
"""Generate lean/Verif/Lemmas/DecodeAll.lean (what from_binary does with an arbitrary bit string of sufficient length)."""
import os
ROOT = os.path.dirname(os.path.dirname(os.path.abspath(__file__)))
from gen_bin import R

# coding -> (width of the partition field, table, mode, start and width of the serial, how it is decoded)
P = {
 "sgtin96": (47, "SGTIN.table", "", 58, 38, "int"),
 "sgtin198": (47, "SGTIN.table", "", 58, 140, "str"),
 "sscc96": (61, "SSCC.table", "", None, None, None),
 "sgln96": (44, "SGLN.table", "", 55, 41, "int"),
 "sgln195": (44, "SGLN.table", "", 55, 140, "str"),
 "grai96": (47, "GRAI.table", "", 58, 38, "int"),
 "grai170": (47, "GRAI.table", "", 58, 112, "str"),
 "giai96": (85, "GIAI.table96", " .unpadded", None, None, None),
 "giai202": (191, "GIAI.table202", " .string", None, None, None),
 "gsrn96": (61, "GSRN.table", "", None, None, None),
 "gsrnp96": (61, "GSRNP.table", "", None, None, None),
 "gdti96": (44, "GDTI.table", "", 55, 41, "int"),
 "gdti174": (44, "GDTI.table", "", 55, 119, "str"),
 "cpi96": (54, "CPI.table96", " .unpadded", 65, 31, "int"),
 "sgcn96": (44, "SGCN.table", "", 55, 41, "num"),
 "itip110": (47, "ITIP.table", "", 72, 38, "int"),
 "itip212": (47, "ITIP.table", "", 72, 140, "str"),
}
if __name__ == "__main__":
    o = '''/-
What `from_binary` does with an arbitrary bit string of sufficient length.
Generated by tools/gen_decode.py.
-/
import Verif.Lemmas.Decode

namespace Epc
open Spec Re

theorem drop_of_take {b : Str} {lo n : Nat} : (b.take n).drop lo = (b.drop lo).take (n - lo) := List.drop_take

theorem filter_bits {b : Str} (hB : Bits b) {n : Nat} (hn : 11 ≤ n) (hl : n ≤ b.length) :
    binaryToInt (slice (b.take n) 8 11) = .ok (bitsNumber ((b.drop 8).take 3) : Int) := by
  rw [slice_of_take hn, binaryToInt_bits (bits_take (bits_drop hB 8) 3) (ne_nil_of_length (field_length (by omega)) (by decide))]

theorem binIntStr_bits {s : Str} (h : Bits s) (hne : s ≠ []) : binIntStr s = .ok (natStr (bitsNumber s)) := by
  unfold binIntStr
  rw [binaryToInt_bits h hne, ok_bind, intStr_ofNat, pure_ok]

theorem serial_bits {b : Str} (hB : Bits b) {lo n : Nat} (h : lo < n) (hl : n ≤ b.length) :
    binIntStr ((b.drop lo).take (n - lo)) = .ok (natStr (bitsNumber ((b.drop lo).take (n - lo)))) :=
  binIntStr_bits (bits_take (bits_drop hB lo) _) (ne_nil_of_length (field_length (by omega)) (by omega))
'''
    for C, cs, name, size, hd, fn, w, kind, ex, can in R:
        if cs not in P:
            continue
        W, T, mode, lo, sw, ser = P[cs]
        nm = C.lower()
        other = cs in ("sgtin198", "sgln195", "grai170", "giai202", "gdti174", "itip212")
        multi = cs not in ("sscc96", "gsrn96", "gsrnp96", "sgcn96")
        tagp = f"tagUriPrefix ++ Coding.value .{cs} ++ ':' :: (natStr (bitsNumber ((b.drop 8).take 3)) ++ '.' :: "
        sfield = f"((b.drop {lo}).take {sw})" if lo else ""
        if ser is None:
            body = f"{C}.fromTagUri ({tagp}g)"
        elif ser == "int":
            body = f"{C}.fromTagUri ({tagp}(g ++ '.' :: natStr (bitsNumber {sfield})))"
        elif ser == "str":
            body = f"decodeString {sfield} >>= fun S => {C}.fromTagUri ({tagp}(g ++ '.' :: S))"
        else:
            body = f"decodeNumericString {sfield} >>= fun S => {C}.fromTagUri ({tagp}(g ++ '.' :: S))"
        if C == "ITIP":
            AB = "decodeFixedWidthInteger ((b.drop 58).take 7) >>= fun A => decodeFixedWidthInteger ((b.drop 65).take 7) >>= fun B =>\n        "
            body = AB + body.replace("(g ++ '.' ::", "(g ++ '.' :: (A ++ '.' :: (B ++ '.' ::") + "))"
        o += f'''
theorem {C}.decode_{cs} {{b : Str}} (hB : Bits b) (hb : b.take 8 = py "{hd}") (hl : {size} ≤ b.length) :
    {C}.fromBinary b = (decodePartitionTable ((b.drop 11).take {W}) {T}{mode} >>= fun g =>
      {body})) := by
  unfold {C}.fromBinary
  rw [parseHeader_fixed (cs := Coding.{cs}) (p := py "{nm}") (sz := py "{size}") (n := {size}) hb (by decide) (by decide) (by decide) (by decide) hl, ok_bind]
  dsimp only
'''
        ifs = ("if_neg (by decide)" if other else "if_pos rfl") if multi else None
        fin = "  refine congrArg _ (funext fun g => ?_)\n"
        if C == "CPI":
            o += f'''  unfold CPI.decodeParts
  rw [if_pos rfl, slice_of_take (by decide), filter_bits hB (by decide) hl]
  show ((_ >>= fun cpi => pure (cpi, _)) >>= _) = _
  rw [bind_assoc]
{fin}  rw [pure_ok, ok_bind, ok_bind, drop_of_take, serial_bits hB (by decide) hl, ok_bind, intStr_ofNat]
  exact congrArg _ (by simp)
'''
            continue
        o += "  rw [filter_bits hB (by decide) hl, ok_bind, intStr_ofNat]\n"
        if C == "GIAI":
            o += f"  rw [{ifs}, drop_of_take]\n{fin}  exact congrArg _ (by simp)\n"
            continue
        o += f"  rw [slice_of_take (by decide)]\n{fin}"
        if C == "ITIP":
            o += "  rw [slice_of_take (by decide), slice_of_take (by decide)]\n  refine congrArg _ (funext fun A => congrArg _ (funext fun B => ?_))\n"
        if ser == "int":
            o += f"  rw [{ifs}, drop_of_take, serial_bits hB (by decide) hl, ok_bind]\n  exact congrArg _ (by simp)\n"
        elif ser == "str":
            o += f"  rw [{ifs}, drop_of_take]\n  exact congrArg _ (funext fun S => congrArg _ (by simp))\n"
        elif ser == "num":
            o += f"  rw [drop_of_take]\n  exact congrArg _ (funext fun S => congrArg _ (by simp))\n"
        else:
            o += "  exact congrArg _ (by simp)\n"
    o += "\nend Epc\n"
    open(os.path.join(ROOT, "lean/Verif/Lemmas/DecodeAll.lean"), "w").write(o)
