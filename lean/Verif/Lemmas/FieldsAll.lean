/-
`from_binary` on two texts with the same numbers in their fields.
Generated by tools/gen_c75.py.
-/
import Verif.Lemmas.Fields

set_option linter.unusedSimpArgs false

namespace Epc
open Spec

theorem fixed_same {b b' : Str} {lo hi n : Nat} (hl : n ≤ b.length) (hl' : n ≤ b'.length) (hi' : hi ≤ n)
    (h : pyInt 2 ((b.drop lo).take (hi - lo)) = pyInt 2 ((b'.drop lo).take (hi - lo))) :
    decodeFixedWidthInteger ((b.drop lo).take (hi - lo)) = decodeFixedWidthInteger ((b'.drop lo).take (hi - lo)) := by
  have e : ((b.drop lo).take (hi - lo)).length = ((b'.drop lo).take (hi - lo)).length := by
    rw [List.length_take, List.length_take, List.length_drop, List.length_drop]; omega
  unfold decodeFixedWidthInteger
  rw [e, h]

theorem SGTIN.same_sgtin96 {b b' : Str} (hb : b.take 8 = py "00110000") (hb' : b'.take 8 = py "00110000")
    (hl : 96 ≤ b.length) (hl' : 96 ≤ b'.length) (hf : Same b b' 8 3)
    (hk : decodePartitionTable ((b.drop 11).take 47) SGTIN.table .plain = decodePartitionTable ((b'.drop 11).take 47) SGTIN.table .plain)
    (hs : Same b b' 58 38) :
    SGTIN.fromBinary b = SGTIN.fromBinary b' := by
  unfold Same at *
  unfold SGTIN.fromBinary
  rw [parseHeader_fixed (cs := SGTIN.Coding.sgtin96) (p := py "sgtin") (sz := py "96") (n := 96) hb (by decide) (by decide) (by decide) (by decide) hl,
    parseHeader_fixed (cs := SGTIN.Coding.sgtin96) (p := py "sgtin") (sz := py "96") (n := 96) hb' (by decide) (by decide) (by decide) (by decide) hl', ok_bind, ok_bind]
  simp only [reduceIte, reduceCtorEq, drop_of_take, slice_of_take (show 11 ≤ 96 by decide), slice_of_take (show 58 ≤ 96 by decide), binIntStr, binaryToInt]
  rw [show pyInt 2 ((b.drop 8).take (11 - 8)) = pyInt 2 ((b'.drop 8).take (11 - 8)) from hf]
  rw [show decodePartitionTable ((b.drop 11).take (58 - 11)) SGTIN.table .plain = decodePartitionTable ((b'.drop 11).take (58 - 11)) SGTIN.table .plain from hk]
  rw [show pyInt 2 ((b.drop 58).take (96 - 58)) = pyInt 2 ((b'.drop 58).take (96 - 58)) from hs]

theorem SGTIN.same_sgtin198 {b b' : Str} (hb : b.take 8 = py "00110110") (hb' : b'.take 8 = py "00110110")
    (hl : 198 ≤ b.length) (hl' : 198 ≤ b'.length) (hf : Same b b' 8 3)
    (hk : decodePartitionTable ((b.drop 11).take 47) SGTIN.table .plain = decodePartitionTable ((b'.drop 11).take 47) SGTIN.table .plain)
    (hs : b.drop 58 = b'.drop 58) :
    SGTIN.fromBinary b = SGTIN.fromBinary b' := by
  unfold Same at *
  unfold SGTIN.fromBinary
  rw [parseHeader_fixed (cs := SGTIN.Coding.sgtin198) (p := py "sgtin") (sz := py "198") (n := 198) hb (by decide) (by decide) (by decide) (by decide) hl,
    parseHeader_fixed (cs := SGTIN.Coding.sgtin198) (p := py "sgtin") (sz := py "198") (n := 198) hb' (by decide) (by decide) (by decide) (by decide) hl', ok_bind, ok_bind]
  simp only [reduceIte, reduceCtorEq, drop_of_take, slice_of_take (show 11 ≤ 198 by decide), slice_of_take (show 58 ≤ 198 by decide), binIntStr, binaryToInt]
  rw [show pyInt 2 ((b.drop 8).take (11 - 8)) = pyInt 2 ((b'.drop 8).take (11 - 8)) from hf]
  rw [show decodePartitionTable ((b.drop 11).take (58 - 11)) SGTIN.table .plain = decodePartitionTable ((b'.drop 11).take (58 - 11)) SGTIN.table .plain from hk]
  rw [hs]

theorem SSCC.same_sscc96 {b b' : Str} (hb : b.take 8 = py "00110001") (hb' : b'.take 8 = py "00110001")
    (hl : 96 ≤ b.length) (hl' : 96 ≤ b'.length) (hf : Same b b' 8 3)
    (hk : decodePartitionTable ((b.drop 11).take 61) SSCC.table .plain = decodePartitionTable ((b'.drop 11).take 61) SSCC.table .plain) :
    SSCC.fromBinary b = SSCC.fromBinary b' := by
  unfold Same at *
  unfold SSCC.fromBinary
  rw [parseHeader_fixed (cs := SSCC.Coding.sscc96) (p := py "sscc") (sz := py "96") (n := 96) hb (by decide) (by decide) (by decide) (by decide) hl,
    parseHeader_fixed (cs := SSCC.Coding.sscc96) (p := py "sscc") (sz := py "96") (n := 96) hb' (by decide) (by decide) (by decide) (by decide) hl', ok_bind, ok_bind]
  simp only [reduceIte, reduceCtorEq, drop_of_take, slice_of_take (show 11 ≤ 96 by decide), slice_of_take (show 72 ≤ 96 by decide), binIntStr, binaryToInt]
  rw [show pyInt 2 ((b.drop 8).take (11 - 8)) = pyInt 2 ((b'.drop 8).take (11 - 8)) from hf]
  rw [show decodePartitionTable ((b.drop 11).take (72 - 11)) SSCC.table .plain = decodePartitionTable ((b'.drop 11).take (72 - 11)) SSCC.table .plain from hk]

theorem SGLN.same_sgln96 {b b' : Str} (hb : b.take 8 = py "00110010") (hb' : b'.take 8 = py "00110010")
    (hl : 96 ≤ b.length) (hl' : 96 ≤ b'.length) (hf : Same b b' 8 3)
    (hk : decodePartitionTable ((b.drop 11).take 44) SGLN.table .plain = decodePartitionTable ((b'.drop 11).take 44) SGLN.table .plain)
    (hs : Same b b' 55 41) :
    SGLN.fromBinary b = SGLN.fromBinary b' := by
  unfold Same at *
  unfold SGLN.fromBinary
  rw [parseHeader_fixed (cs := SGLN.Coding.sgln96) (p := py "sgln") (sz := py "96") (n := 96) hb (by decide) (by decide) (by decide) (by decide) hl,
    parseHeader_fixed (cs := SGLN.Coding.sgln96) (p := py "sgln") (sz := py "96") (n := 96) hb' (by decide) (by decide) (by decide) (by decide) hl', ok_bind, ok_bind]
  simp only [reduceIte, reduceCtorEq, drop_of_take, slice_of_take (show 11 ≤ 96 by decide), slice_of_take (show 55 ≤ 96 by decide), binIntStr, binaryToInt]
  rw [show pyInt 2 ((b.drop 8).take (11 - 8)) = pyInt 2 ((b'.drop 8).take (11 - 8)) from hf]
  rw [show decodePartitionTable ((b.drop 11).take (55 - 11)) SGLN.table .plain = decodePartitionTable ((b'.drop 11).take (55 - 11)) SGLN.table .plain from hk]
  rw [show pyInt 2 ((b.drop 55).take (96 - 55)) = pyInt 2 ((b'.drop 55).take (96 - 55)) from hs]

theorem SGLN.same_sgln195 {b b' : Str} (hb : b.take 8 = py "00111001") (hb' : b'.take 8 = py "00111001")
    (hl : 195 ≤ b.length) (hl' : 195 ≤ b'.length) (hf : Same b b' 8 3)
    (hk : decodePartitionTable ((b.drop 11).take 44) SGLN.table .plain = decodePartitionTable ((b'.drop 11).take 44) SGLN.table .plain)
    (hs : b.drop 55 = b'.drop 55) :
    SGLN.fromBinary b = SGLN.fromBinary b' := by
  unfold Same at *
  unfold SGLN.fromBinary
  rw [parseHeader_fixed (cs := SGLN.Coding.sgln195) (p := py "sgln") (sz := py "195") (n := 195) hb (by decide) (by decide) (by decide) (by decide) hl,
    parseHeader_fixed (cs := SGLN.Coding.sgln195) (p := py "sgln") (sz := py "195") (n := 195) hb' (by decide) (by decide) (by decide) (by decide) hl', ok_bind, ok_bind]
  simp only [reduceIte, reduceCtorEq, drop_of_take, slice_of_take (show 11 ≤ 195 by decide), slice_of_take (show 55 ≤ 195 by decide), binIntStr, binaryToInt]
  rw [show pyInt 2 ((b.drop 8).take (11 - 8)) = pyInt 2 ((b'.drop 8).take (11 - 8)) from hf]
  rw [show decodePartitionTable ((b.drop 11).take (55 - 11)) SGLN.table .plain = decodePartitionTable ((b'.drop 11).take (55 - 11)) SGLN.table .plain from hk]
  rw [hs]

theorem GRAI.same_grai96 {b b' : Str} (hb : b.take 8 = py "00110011") (hb' : b'.take 8 = py "00110011")
    (hl : 96 ≤ b.length) (hl' : 96 ≤ b'.length) (hf : Same b b' 8 3)
    (hk : decodePartitionTable ((b.drop 11).take 47) GRAI.table .plain = decodePartitionTable ((b'.drop 11).take 47) GRAI.table .plain)
    (hs : Same b b' 58 38) :
    GRAI.fromBinary b = GRAI.fromBinary b' := by
  unfold Same at *
  unfold GRAI.fromBinary
  rw [parseHeader_fixed (cs := GRAI.Coding.grai96) (p := py "grai") (sz := py "96") (n := 96) hb (by decide) (by decide) (by decide) (by decide) hl,
    parseHeader_fixed (cs := GRAI.Coding.grai96) (p := py "grai") (sz := py "96") (n := 96) hb' (by decide) (by decide) (by decide) (by decide) hl', ok_bind, ok_bind]
  simp only [reduceIte, reduceCtorEq, drop_of_take, slice_of_take (show 11 ≤ 96 by decide), slice_of_take (show 58 ≤ 96 by decide), binIntStr, binaryToInt]
  rw [show pyInt 2 ((b.drop 8).take (11 - 8)) = pyInt 2 ((b'.drop 8).take (11 - 8)) from hf]
  rw [show decodePartitionTable ((b.drop 11).take (58 - 11)) GRAI.table .plain = decodePartitionTable ((b'.drop 11).take (58 - 11)) GRAI.table .plain from hk]
  rw [show pyInt 2 ((b.drop 58).take (96 - 58)) = pyInt 2 ((b'.drop 58).take (96 - 58)) from hs]

theorem GRAI.same_grai170 {b b' : Str} (hb : b.take 8 = py "00110111") (hb' : b'.take 8 = py "00110111")
    (hl : 170 ≤ b.length) (hl' : 170 ≤ b'.length) (hf : Same b b' 8 3)
    (hk : decodePartitionTable ((b.drop 11).take 47) GRAI.table .plain = decodePartitionTable ((b'.drop 11).take 47) GRAI.table .plain)
    (hs : b.drop 58 = b'.drop 58) :
    GRAI.fromBinary b = GRAI.fromBinary b' := by
  unfold Same at *
  unfold GRAI.fromBinary
  rw [parseHeader_fixed (cs := GRAI.Coding.grai170) (p := py "grai") (sz := py "170") (n := 170) hb (by decide) (by decide) (by decide) (by decide) hl,
    parseHeader_fixed (cs := GRAI.Coding.grai170) (p := py "grai") (sz := py "170") (n := 170) hb' (by decide) (by decide) (by decide) (by decide) hl', ok_bind, ok_bind]
  simp only [reduceIte, reduceCtorEq, drop_of_take, slice_of_take (show 11 ≤ 170 by decide), slice_of_take (show 58 ≤ 170 by decide), binIntStr, binaryToInt]
  rw [show pyInt 2 ((b.drop 8).take (11 - 8)) = pyInt 2 ((b'.drop 8).take (11 - 8)) from hf]
  rw [show decodePartitionTable ((b.drop 11).take (58 - 11)) GRAI.table .plain = decodePartitionTable ((b'.drop 11).take (58 - 11)) GRAI.table .plain from hk]
  rw [hs]

theorem GIAI.same_giai96 {b b' : Str} (hb : b.take 8 = py "00110100") (hb' : b'.take 8 = py "00110100")
    (hl : 96 ≤ b.length) (hl' : 96 ≤ b'.length) (hf : Same b b' 8 3)
    (hk : decodePartitionTable ((b.drop 11).take 85) GIAI.table96 .unpadded = decodePartitionTable ((b'.drop 11).take 85) GIAI.table96 .unpadded) :
    GIAI.fromBinary b = GIAI.fromBinary b' := by
  unfold Same at *
  unfold GIAI.fromBinary
  rw [parseHeader_fixed (cs := GIAI.Coding.giai96) (p := py "giai") (sz := py "96") (n := 96) hb (by decide) (by decide) (by decide) (by decide) hl,
    parseHeader_fixed (cs := GIAI.Coding.giai96) (p := py "giai") (sz := py "96") (n := 96) hb' (by decide) (by decide) (by decide) (by decide) hl', ok_bind, ok_bind]
  simp only [reduceIte, reduceCtorEq, drop_of_take, slice_of_take (show 11 ≤ 96 by decide), slice_of_take (show 96 ≤ 96 by decide), binIntStr, binaryToInt]
  rw [show pyInt 2 ((b.drop 8).take (11 - 8)) = pyInt 2 ((b'.drop 8).take (11 - 8)) from hf]
  rw [show decodePartitionTable ((b.drop 11).take (96 - 11)) GIAI.table96 .unpadded = decodePartitionTable ((b'.drop 11).take (96 - 11)) GIAI.table96 .unpadded from hk]

theorem GIAI.same_giai202 {b b' : Str} (hb : b.take 8 = py "00111000") (hb' : b'.take 8 = py "00111000")
    (hl : 202 ≤ b.length) (hl' : 202 ≤ b'.length) (hf : Same b b' 8 3)
    (hk : decodePartitionTable ((b.drop 11).take 191) GIAI.table202 .string = decodePartitionTable ((b'.drop 11).take 191) GIAI.table202 .string) :
    GIAI.fromBinary b = GIAI.fromBinary b' := by
  unfold Same at *
  unfold GIAI.fromBinary
  rw [parseHeader_fixed (cs := GIAI.Coding.giai202) (p := py "giai") (sz := py "202") (n := 202) hb (by decide) (by decide) (by decide) (by decide) hl,
    parseHeader_fixed (cs := GIAI.Coding.giai202) (p := py "giai") (sz := py "202") (n := 202) hb' (by decide) (by decide) (by decide) (by decide) hl', ok_bind, ok_bind]
  simp only [reduceIte, reduceCtorEq, drop_of_take, slice_of_take (show 11 ≤ 202 by decide), slice_of_take (show 202 ≤ 202 by decide), binIntStr, binaryToInt]
  rw [show pyInt 2 ((b.drop 8).take (11 - 8)) = pyInt 2 ((b'.drop 8).take (11 - 8)) from hf]
  rw [show decodePartitionTable ((b.drop 11).take (202 - 11)) GIAI.table202 .string = decodePartitionTable ((b'.drop 11).take (202 - 11)) GIAI.table202 .string from hk]

theorem GSRN.same_gsrn96 {b b' : Str} (hb : b.take 8 = py "00101101") (hb' : b'.take 8 = py "00101101")
    (hl : 96 ≤ b.length) (hl' : 96 ≤ b'.length) (hf : Same b b' 8 3)
    (hk : decodePartitionTable ((b.drop 11).take 61) GSRN.table .plain = decodePartitionTable ((b'.drop 11).take 61) GSRN.table .plain) :
    GSRN.fromBinary b = GSRN.fromBinary b' := by
  unfold Same at *
  unfold GSRN.fromBinary
  rw [parseHeader_fixed (cs := GSRN.Coding.gsrn96) (p := py "gsrn") (sz := py "96") (n := 96) hb (by decide) (by decide) (by decide) (by decide) hl,
    parseHeader_fixed (cs := GSRN.Coding.gsrn96) (p := py "gsrn") (sz := py "96") (n := 96) hb' (by decide) (by decide) (by decide) (by decide) hl', ok_bind, ok_bind]
  simp only [reduceIte, reduceCtorEq, drop_of_take, slice_of_take (show 11 ≤ 96 by decide), slice_of_take (show 72 ≤ 96 by decide), binIntStr, binaryToInt]
  rw [show pyInt 2 ((b.drop 8).take (11 - 8)) = pyInt 2 ((b'.drop 8).take (11 - 8)) from hf]
  rw [show decodePartitionTable ((b.drop 11).take (72 - 11)) GSRN.table .plain = decodePartitionTable ((b'.drop 11).take (72 - 11)) GSRN.table .plain from hk]

theorem GSRNP.same_gsrnp96 {b b' : Str} (hb : b.take 8 = py "00101110") (hb' : b'.take 8 = py "00101110")
    (hl : 96 ≤ b.length) (hl' : 96 ≤ b'.length) (hf : Same b b' 8 3)
    (hk : decodePartitionTable ((b.drop 11).take 61) GSRNP.table .plain = decodePartitionTable ((b'.drop 11).take 61) GSRNP.table .plain) :
    GSRNP.fromBinary b = GSRNP.fromBinary b' := by
  unfold Same at *
  unfold GSRNP.fromBinary
  rw [parseHeader_fixed (cs := GSRNP.Coding.gsrnp96) (p := py "gsrnp") (sz := py "96") (n := 96) hb (by decide) (by decide) (by decide) (by decide) hl,
    parseHeader_fixed (cs := GSRNP.Coding.gsrnp96) (p := py "gsrnp") (sz := py "96") (n := 96) hb' (by decide) (by decide) (by decide) (by decide) hl', ok_bind, ok_bind]
  simp only [reduceIte, reduceCtorEq, drop_of_take, slice_of_take (show 11 ≤ 96 by decide), slice_of_take (show 72 ≤ 96 by decide), binIntStr, binaryToInt]
  rw [show pyInt 2 ((b.drop 8).take (11 - 8)) = pyInt 2 ((b'.drop 8).take (11 - 8)) from hf]
  rw [show decodePartitionTable ((b.drop 11).take (72 - 11)) GSRNP.table .plain = decodePartitionTable ((b'.drop 11).take (72 - 11)) GSRNP.table .plain from hk]

theorem GDTI.same_gdti96 {b b' : Str} (hb : b.take 8 = py "00101100") (hb' : b'.take 8 = py "00101100")
    (hl : 96 ≤ b.length) (hl' : 96 ≤ b'.length) (hf : Same b b' 8 3)
    (hk : decodePartitionTable ((b.drop 11).take 44) GDTI.table .plain = decodePartitionTable ((b'.drop 11).take 44) GDTI.table .plain)
    (hs : Same b b' 55 41) :
    GDTI.fromBinary b = GDTI.fromBinary b' := by
  unfold Same at *
  unfold GDTI.fromBinary
  rw [parseHeader_fixed (cs := GDTI.Coding.gdti96) (p := py "gdti") (sz := py "96") (n := 96) hb (by decide) (by decide) (by decide) (by decide) hl,
    parseHeader_fixed (cs := GDTI.Coding.gdti96) (p := py "gdti") (sz := py "96") (n := 96) hb' (by decide) (by decide) (by decide) (by decide) hl', ok_bind, ok_bind]
  simp only [reduceIte, reduceCtorEq, drop_of_take, slice_of_take (show 11 ≤ 96 by decide), slice_of_take (show 55 ≤ 96 by decide), binIntStr, binaryToInt]
  rw [show pyInt 2 ((b.drop 8).take (11 - 8)) = pyInt 2 ((b'.drop 8).take (11 - 8)) from hf]
  rw [show decodePartitionTable ((b.drop 11).take (55 - 11)) GDTI.table .plain = decodePartitionTable ((b'.drop 11).take (55 - 11)) GDTI.table .plain from hk]
  rw [show pyInt 2 ((b.drop 55).take (96 - 55)) = pyInt 2 ((b'.drop 55).take (96 - 55)) from hs]

theorem GDTI.same_gdti174 {b b' : Str} (hb : b.take 8 = py "00111110") (hb' : b'.take 8 = py "00111110")
    (hl : 174 ≤ b.length) (hl' : 174 ≤ b'.length) (hf : Same b b' 8 3)
    (hk : decodePartitionTable ((b.drop 11).take 44) GDTI.table .plain = decodePartitionTable ((b'.drop 11).take 44) GDTI.table .plain)
    (hs : b.drop 55 = b'.drop 55) :
    GDTI.fromBinary b = GDTI.fromBinary b' := by
  unfold Same at *
  unfold GDTI.fromBinary
  rw [parseHeader_fixed (cs := GDTI.Coding.gdti174) (p := py "gdti") (sz := py "174") (n := 174) hb (by decide) (by decide) (by decide) (by decide) hl,
    parseHeader_fixed (cs := GDTI.Coding.gdti174) (p := py "gdti") (sz := py "174") (n := 174) hb' (by decide) (by decide) (by decide) (by decide) hl', ok_bind, ok_bind]
  simp only [reduceIte, reduceCtorEq, drop_of_take, slice_of_take (show 11 ≤ 174 by decide), slice_of_take (show 55 ≤ 174 by decide), binIntStr, binaryToInt]
  rw [show pyInt 2 ((b.drop 8).take (11 - 8)) = pyInt 2 ((b'.drop 8).take (11 - 8)) from hf]
  rw [show decodePartitionTable ((b.drop 11).take (55 - 11)) GDTI.table .plain = decodePartitionTable ((b'.drop 11).take (55 - 11)) GDTI.table .plain from hk]
  rw [hs]

theorem CPI.same_cpi96 {b b' : Str} (hb : b.take 8 = py "00111100") (hb' : b'.take 8 = py "00111100")
    (hl : 96 ≤ b.length) (hl' : 96 ≤ b'.length) (hf : Same b b' 8 3)
    (hk : decodePartitionTable ((b.drop 11).take 54) CPI.table96 .unpadded = decodePartitionTable ((b'.drop 11).take 54) CPI.table96 .unpadded)
    (hs : Same b b' 65 31) :
    CPI.fromBinary b = CPI.fromBinary b' := by
  unfold Same at *
  unfold CPI.fromBinary
  rw [parseHeader_fixed (cs := CPI.Coding.cpi96) (p := py "cpi") (sz := py "96") (n := 96) hb (by decide) (by decide) (by decide) (by decide) hl,
    parseHeader_fixed (cs := CPI.Coding.cpi96) (p := py "cpi") (sz := py "96") (n := 96) hb' (by decide) (by decide) (by decide) (by decide) hl', ok_bind, ok_bind]
  unfold CPI.decodeParts
  simp only [reduceIte, reduceCtorEq, drop_of_take, slice_of_take (show 11 ≤ 96 by decide), slice_of_take (show 65 ≤ 96 by decide), binIntStr, binaryToInt]
  rw [show pyInt 2 ((b.drop 8).take (11 - 8)) = pyInt 2 ((b'.drop 8).take (11 - 8)) from hf]
  rw [show decodePartitionTable ((b.drop 11).take (65 - 11)) CPI.table96 .unpadded = decodePartitionTable ((b'.drop 11).take (65 - 11)) CPI.table96 .unpadded from hk]
  generalize decodePartitionTable ((b'.drop 11).take (65 - 11)) CPI.table96 .unpadded = d
  cases d with
  | error e => rfl
  | ok d =>
    simp only [ok_bind, pure_ok]
    rw [show pyInt 2 ((b.drop 65).take (96 - 65)) = pyInt 2 ((b'.drop 65).take (96 - 65)) from hs]

theorem CPI.same_cpiVar {b b' : Str} (hb : b.take 8 = py "00111101") (hb' : b'.take 8 = py "00111101")
    {p : Nat} (hP : Reads ((b.drop 11).take 3) p) (hf : Same b b' 8 3) (hp : Same b b' 11 3)
    (hk : decodePartitionTable (b.drop 11) CPI.tableVar .sixBit = decodePartitionTable (b'.drop 11) CPI.tableVar .sixBit)
    (hs : b.drop (14 + prefixBits (12 - p)) = b'.drop (14 + prefixBits (12 - p))) :
    CPI.fromBinary b = CPI.fromBinary b' := by
  unfold Same at *
  unfold Reads at hP
  unfold CPI.fromBinary
  rw [parseHeader_var (cs := CPI.Coding.cpiVar) (p := py "cpi") (sz := py "var") hb (by decide) (by decide) (by decide),
    parseHeader_var (cs := CPI.Coding.cpiVar) (p := py "cpi") (sz := py "var") hb' (by decide) (by decide) (by decide), ok_bind, ok_bind]
  unfold CPI.decodeParts
  simp only [reduceIte, reduceCtorEq, binIntStr, binaryToInt, slice_eq]
  rw [show pyInt 2 ((b.drop 8).take (11 - 8)) = pyInt 2 ((b'.drop 8).take (11 - 8)) from hf, hk, ← hp, hP]
  simp only [ok_bind]
  cases hr : rowByP CPI.tableVar (p : Int) with
  | error e => rfl
  | ok r =>
    obtain ⟨hmem, hrp⟩ := rowByP_mem hr
    have e : p = r.P := by omega
    have hM := ((by decide : StdTable CPI.tableVar).2.2.1 r hmem).2
    subst e
    rw [← hM] at hs
    simp only [ok_bind]
    rw [show 11 + 3 + r.M = 14 + r.M from rfl, hs]

theorem SGCN.same_sgcn96 {b b' : Str} (hb : b.take 8 = py "00111111") (hb' : b'.take 8 = py "00111111")
    (hl : 96 ≤ b.length) (hl' : 96 ≤ b'.length) (hf : Same b b' 8 3)
    (hk : decodePartitionTable ((b.drop 11).take 44) SGCN.table .plain = decodePartitionTable ((b'.drop 11).take 44) SGCN.table .plain)
    (hs : Same b b' 55 41) :
    SGCN.fromBinary b = SGCN.fromBinary b' := by
  unfold Same at *
  unfold SGCN.fromBinary
  rw [parseHeader_fixed (cs := SGCN.Coding.sgcn96) (p := py "sgcn") (sz := py "96") (n := 96) hb (by decide) (by decide) (by decide) (by decide) hl,
    parseHeader_fixed (cs := SGCN.Coding.sgcn96) (p := py "sgcn") (sz := py "96") (n := 96) hb' (by decide) (by decide) (by decide) (by decide) hl', ok_bind, ok_bind]
  simp only [reduceIte, reduceCtorEq, drop_of_take, slice_of_take (show 11 ≤ 96 by decide), slice_of_take (show 55 ≤ 96 by decide), binIntStr, binaryToInt]
  unfold decodeNumericString
  rw [show pyInt 2 ((b.drop 8).take (11 - 8)) = pyInt 2 ((b'.drop 8).take (11 - 8)) from hf]
  rw [show decodePartitionTable ((b.drop 11).take (55 - 11)) SGCN.table .plain = decodePartitionTable ((b'.drop 11).take (55 - 11)) SGCN.table .plain from hk]
  rw [show pyInt 2 ((b.drop 55).take (96 - 55)) = pyInt 2 ((b'.drop 55).take (96 - 55)) from hs]

theorem ITIP.same_itip110 {b b' : Str} (hb : b.take 8 = py "01000000") (hb' : b'.take 8 = py "01000000")
    (hl : 110 ≤ b.length) (hl' : 110 ≤ b'.length) (hf : Same b b' 8 3)
    (hk : decodePartitionTable ((b.drop 11).take 47) ITIP.table .plain = decodePartitionTable ((b'.drop 11).take 47) ITIP.table .plain)
    (hp : Same b b' 58 7) (ht : Same b b' 65 7)
    (hs : Same b b' 72 38) :
    ITIP.fromBinary b = ITIP.fromBinary b' := by
  unfold Same at *
  unfold ITIP.fromBinary
  rw [parseHeader_fixed (cs := ITIP.Coding.itip110) (p := py "itip") (sz := py "110") (n := 110) hb (by decide) (by decide) (by decide) (by decide) hl,
    parseHeader_fixed (cs := ITIP.Coding.itip110) (p := py "itip") (sz := py "110") (n := 110) hb' (by decide) (by decide) (by decide) (by decide) hl', ok_bind, ok_bind]
  simp only [reduceIte, reduceCtorEq, drop_of_take, slice_of_take (show 11 ≤ 110 by decide), slice_of_take (show 58 ≤ 110 by decide), binIntStr, binaryToInt]
  rw [slice_of_take (show 65 ≤ 110 by decide), slice_of_take (show 72 ≤ 110 by decide), slice_of_take (show 65 ≤ 110 by decide), slice_of_take (show 72 ≤ 110 by decide)]
  rw [fixed_same hl hl' (by decide) hp, fixed_same hl hl' (by decide) ht]
  rw [show pyInt 2 ((b.drop 8).take (11 - 8)) = pyInt 2 ((b'.drop 8).take (11 - 8)) from hf]
  rw [show decodePartitionTable ((b.drop 11).take (58 - 11)) ITIP.table .plain = decodePartitionTable ((b'.drop 11).take (58 - 11)) ITIP.table .plain from hk]
  rw [show pyInt 2 ((b.drop 72).take (110 - 72)) = pyInt 2 ((b'.drop 72).take (110 - 72)) from hs]

theorem ITIP.same_itip212 {b b' : Str} (hb : b.take 8 = py "01000001") (hb' : b'.take 8 = py "01000001")
    (hl : 212 ≤ b.length) (hl' : 212 ≤ b'.length) (hf : Same b b' 8 3)
    (hk : decodePartitionTable ((b.drop 11).take 47) ITIP.table .plain = decodePartitionTable ((b'.drop 11).take 47) ITIP.table .plain)
    (hp : Same b b' 58 7) (ht : Same b b' 65 7)
    (hs : b.drop 72 = b'.drop 72) :
    ITIP.fromBinary b = ITIP.fromBinary b' := by
  unfold Same at *
  unfold ITIP.fromBinary
  rw [parseHeader_fixed (cs := ITIP.Coding.itip212) (p := py "itip") (sz := py "212") (n := 212) hb (by decide) (by decide) (by decide) (by decide) hl,
    parseHeader_fixed (cs := ITIP.Coding.itip212) (p := py "itip") (sz := py "212") (n := 212) hb' (by decide) (by decide) (by decide) (by decide) hl', ok_bind, ok_bind]
  simp only [reduceIte, reduceCtorEq, drop_of_take, slice_of_take (show 11 ≤ 212 by decide), slice_of_take (show 58 ≤ 212 by decide), binIntStr, binaryToInt]
  rw [slice_of_take (show 65 ≤ 212 by decide), slice_of_take (show 72 ≤ 212 by decide), slice_of_take (show 65 ≤ 212 by decide), slice_of_take (show 72 ≤ 212 by decide)]
  rw [fixed_same hl hl' (by decide) hp, fixed_same hl hl' (by decide) ht]
  rw [show pyInt 2 ((b.drop 8).take (11 - 8)) = pyInt 2 ((b'.drop 8).take (11 - 8)) from hf]
  rw [show decodePartitionTable ((b.drop 11).take (58 - 11)) ITIP.table .plain = decodePartitionTable ((b'.drop 11).take (58 - 11)) ITIP.table .plain from hk]
  rw [hs]

theorem GID.same_gid96 {b b' : Str} (hb : b.take 8 = py "00110101") (hb' : b'.take 8 = py "00110101")
    (hl : 96 ≤ b.length) (hl' : 96 ≤ b'.length) (hm : Same b b' 8 28) (ho : Same b b' 36 24) (hs : Same b b' 60 36) :
    GID.fromBinary b = GID.fromBinary b' := by
  unfold Same at *
  unfold GID.fromBinary
  rw [parseHeader_fixed (cs := GID.Coding.gid96) (p := py "gid") (sz := py "96") (n := 96) hb (by decide) (by decide) (by decide) (by decide) hl,
    parseHeader_fixed (cs := GID.Coding.gid96) (p := py "gid") (sz := py "96") (n := 96) hb' (by decide) (by decide) (by decide) (by decide) hl', ok_bind, ok_bind]
  simp only [drop_of_take, slice_of_take (show 36 ≤ 96 by decide), slice_of_take (show 60 ≤ 96 by decide), binIntStr, binaryToInt]
  rw [show pyInt 2 ((b.drop 8).take (36 - 8)) = pyInt 2 ((b'.drop 8).take (36 - 8)) from hm,
    show pyInt 2 ((b.drop 36).take (60 - 36)) = pyInt 2 ((b'.drop 36).take (60 - 36)) from ho,
    show pyInt 2 ((b.drop 60).take (96 - 60)) = pyInt 2 ((b'.drop 60).take (96 - 60)) from hs]

theorem USDOD.same_usdod96 {b b' : Str} (hb : b.take 8 = py "00101111") (hb' : b'.take 8 = py "00101111")
    (hl : 96 ≤ b.length) (hl' : 96 ≤ b'.length) (hf : Same b b' 8 4) (hc : (b.drop 12).take 48 = (b'.drop 12).take 48) (hs : Same b b' 60 36) :
    USDOD.fromBinary b = USDOD.fromBinary b' := by
  unfold Same at *
  unfold USDOD.fromBinary
  rw [parseHeader_fixed (cs := USDOD.Coding.usdod96) (p := py "usdod") (sz := py "96") (n := 96) hb (by decide) (by decide) (by decide) (by decide) hl,
    parseHeader_fixed (cs := USDOD.Coding.usdod96) (p := py "usdod") (sz := py "96") (n := 96) hb' (by decide) (by decide) (by decide) (by decide) hl', ok_bind, ok_bind]
  simp only [drop_of_take, slice_of_take (show 12 ≤ 96 by decide), slice_of_take (show 60 ≤ 96 by decide), binIntStr, binaryToInt]
  rw [show pyInt 2 ((b.drop 8).take (12 - 8)) = pyInt 2 ((b'.drop 8).take (12 - 8)) from hf,
    show (b.drop 12).take (60 - 12) = (b'.drop 12).take (60 - 12) from hc,
    show pyInt 2 ((b.drop 60).take (96 - 60)) = pyInt 2 ((b'.drop 60).take (96 - 60)) from hs]

theorem ADI.same_adiVar {b b' : Str} (hb : b.take 8 = py "00111011") (hb' : b'.take 8 = py "00111011")
    (hf : Same b b' 8 6) (hs : b.drop 14 = b'.drop 14) : ADI.fromBinary b = ADI.fromBinary b' := by
  unfold Same at *
  have h50 : b.drop 50 = b'.drop 50 := by
    rw [show 50 = 14 + 36 from rfl, ← List.drop_drop, ← List.drop_drop, hs]
  unfold ADI.fromBinary
  rw [parseHeader_var (cs := ADI.Coding.adiVar) (p := py "adi") (sz := py "var") hb (by decide) (by decide) (by decide),
    parseHeader_var (cs := ADI.Coding.adiVar) (p := py "adi") (sz := py "var") hb' (by decide) (by decide) (by decide), ok_bind, ok_bind]
  simp only [binaryToInt, slice_eq]
  rw [show pyInt 2 ((b.drop 8).take (14 - 8)) = pyInt 2 ((b'.drop 8).take (14 - 8)) from hf, h50, hs]

end Epc
