/-
C28: binaries that are too short for the fixed-size scheme their header announces are rejected with `ConvertException`.
Generated by tools/gen_c27.py.
-/
import Verif.Lemmas.BinOk
import Verif.Model.Parsers

namespace Epc
open Spec Re

theorem C28_sgtin96 (b : Str) (hb : b.take 8 = py "00110000") (hl : b.length < 96) : SGTIN.fromBinary b = .error .convert := by
  unfold SGTIN.fromBinary
  rw [parseHeader_short (cs := SGTIN.Coding.sgtin96) (p := py "sgtin") (sz := py "96") (n := 96) hb (by decide) (by decide) (by decide) (by decide) hl, error_bind]

theorem C28_sgtin198 (b : Str) (hb : b.take 8 = py "00110110") (hl : b.length < 198) : SGTIN.fromBinary b = .error .convert := by
  unfold SGTIN.fromBinary
  rw [parseHeader_short (cs := SGTIN.Coding.sgtin198) (p := py "sgtin") (sz := py "198") (n := 198) hb (by decide) (by decide) (by decide) (by decide) hl, error_bind]

theorem C28_sscc96 (b : Str) (hb : b.take 8 = py "00110001") (hl : b.length < 96) : SSCC.fromBinary b = .error .convert := by
  unfold SSCC.fromBinary
  rw [parseHeader_short (cs := SSCC.Coding.sscc96) (p := py "sscc") (sz := py "96") (n := 96) hb (by decide) (by decide) (by decide) (by decide) hl, error_bind]

theorem C28_sgln96 (b : Str) (hb : b.take 8 = py "00110010") (hl : b.length < 96) : SGLN.fromBinary b = .error .convert := by
  unfold SGLN.fromBinary
  rw [parseHeader_short (cs := SGLN.Coding.sgln96) (p := py "sgln") (sz := py "96") (n := 96) hb (by decide) (by decide) (by decide) (by decide) hl, error_bind]

theorem C28_sgln195 (b : Str) (hb : b.take 8 = py "00111001") (hl : b.length < 195) : SGLN.fromBinary b = .error .convert := by
  unfold SGLN.fromBinary
  rw [parseHeader_short (cs := SGLN.Coding.sgln195) (p := py "sgln") (sz := py "195") (n := 195) hb (by decide) (by decide) (by decide) (by decide) hl, error_bind]

theorem C28_grai96 (b : Str) (hb : b.take 8 = py "00110011") (hl : b.length < 96) : GRAI.fromBinary b = .error .convert := by
  unfold GRAI.fromBinary
  rw [parseHeader_short (cs := GRAI.Coding.grai96) (p := py "grai") (sz := py "96") (n := 96) hb (by decide) (by decide) (by decide) (by decide) hl, error_bind]

theorem C28_grai170 (b : Str) (hb : b.take 8 = py "00110111") (hl : b.length < 170) : GRAI.fromBinary b = .error .convert := by
  unfold GRAI.fromBinary
  rw [parseHeader_short (cs := GRAI.Coding.grai170) (p := py "grai") (sz := py "170") (n := 170) hb (by decide) (by decide) (by decide) (by decide) hl, error_bind]

theorem C28_giai96 (b : Str) (hb : b.take 8 = py "00110100") (hl : b.length < 96) : GIAI.fromBinary b = .error .convert := by
  unfold GIAI.fromBinary
  rw [parseHeader_short (cs := GIAI.Coding.giai96) (p := py "giai") (sz := py "96") (n := 96) hb (by decide) (by decide) (by decide) (by decide) hl, error_bind]

theorem C28_giai202 (b : Str) (hb : b.take 8 = py "00111000") (hl : b.length < 202) : GIAI.fromBinary b = .error .convert := by
  unfold GIAI.fromBinary
  rw [parseHeader_short (cs := GIAI.Coding.giai202) (p := py "giai") (sz := py "202") (n := 202) hb (by decide) (by decide) (by decide) (by decide) hl, error_bind]

theorem C28_gsrn96 (b : Str) (hb : b.take 8 = py "00101101") (hl : b.length < 96) : GSRN.fromBinary b = .error .convert := by
  unfold GSRN.fromBinary
  rw [parseHeader_short (cs := GSRN.Coding.gsrn96) (p := py "gsrn") (sz := py "96") (n := 96) hb (by decide) (by decide) (by decide) (by decide) hl, error_bind]

theorem C28_gsrnp96 (b : Str) (hb : b.take 8 = py "00101110") (hl : b.length < 96) : GSRNP.fromBinary b = .error .convert := by
  unfold GSRNP.fromBinary
  rw [parseHeader_short (cs := GSRNP.Coding.gsrnp96) (p := py "gsrnp") (sz := py "96") (n := 96) hb (by decide) (by decide) (by decide) (by decide) hl, error_bind]

theorem C28_gdti96 (b : Str) (hb : b.take 8 = py "00101100") (hl : b.length < 96) : GDTI.fromBinary b = .error .convert := by
  unfold GDTI.fromBinary
  rw [parseHeader_short (cs := GDTI.Coding.gdti96) (p := py "gdti") (sz := py "96") (n := 96) hb (by decide) (by decide) (by decide) (by decide) hl, error_bind]

theorem C28_gdti174 (b : Str) (hb : b.take 8 = py "00111110") (hl : b.length < 174) : GDTI.fromBinary b = .error .convert := by
  unfold GDTI.fromBinary
  rw [parseHeader_short (cs := GDTI.Coding.gdti174) (p := py "gdti") (sz := py "174") (n := 174) hb (by decide) (by decide) (by decide) (by decide) hl, error_bind]

theorem C28_cpi96 (b : Str) (hb : b.take 8 = py "00111100") (hl : b.length < 96) : CPI.fromBinary b = .error .convert := by
  unfold CPI.fromBinary
  rw [parseHeader_short (cs := CPI.Coding.cpi96) (p := py "cpi") (sz := py "96") (n := 96) hb (by decide) (by decide) (by decide) (by decide) hl, error_bind]

theorem C28_sgcn96 (b : Str) (hb : b.take 8 = py "00111111") (hl : b.length < 96) : SGCN.fromBinary b = .error .convert := by
  unfold SGCN.fromBinary
  rw [parseHeader_short (cs := SGCN.Coding.sgcn96) (p := py "sgcn") (sz := py "96") (n := 96) hb (by decide) (by decide) (by decide) (by decide) hl, error_bind]

theorem C28_itip110 (b : Str) (hb : b.take 8 = py "01000000") (hl : b.length < 110) : ITIP.fromBinary b = .error .convert := by
  unfold ITIP.fromBinary
  rw [parseHeader_short (cs := ITIP.Coding.itip110) (p := py "itip") (sz := py "110") (n := 110) hb (by decide) (by decide) (by decide) (by decide) hl, error_bind]

theorem C28_itip212 (b : Str) (hb : b.take 8 = py "01000001") (hl : b.length < 212) : ITIP.fromBinary b = .error .convert := by
  unfold ITIP.fromBinary
  rw [parseHeader_short (cs := ITIP.Coding.itip212) (p := py "itip") (sz := py "212") (n := 212) hb (by decide) (by decide) (by decide) (by decide) hl, error_bind]

theorem C28_gid96 (b : Str) (hb : b.take 8 = py "00110101") (hl : b.length < 96) : GID.fromBinary b = .error .convert := by
  unfold GID.fromBinary
  rw [parseHeader_short (cs := GID.Coding.gid96) (p := py "gid") (sz := py "96") (n := 96) hb (by decide) (by decide) (by decide) (by decide) hl, error_bind]

theorem C28_usdod96 (b : Str) (hb : b.take 8 = py "00101111") (hl : b.length < 96) : USDOD.fromBinary b = .error .convert := by
  unfold USDOD.fromBinary
  rw [parseHeader_short (cs := USDOD.Coding.usdod96) (p := py "usdod") (sz := py "96") (n := 96) hb (by decide) (by decide) (by decide) (by decide) hl, error_bind]

example : (py "00110000").take 8 = py "00110000" ∧ (py "00110000").length < 96 := by decide

end Epc
