/-
C27: trailing bits after a fixed-size encoding are ignored.  `b.take 8` are the first eight characters of `b`.
Generated by tools/gen_c27.py.
-/
import Verif.Lemmas.BinOk
import Verif.Model.Parsers

namespace Epc
open Spec Re

theorem parseHeader_ext {κ : Type} {headers : List (Str × κ)} {value : κ → Str} {cs : κ} {b e h p sz : Str} {n : Nat}
    (hb : b.take 8 = h) (h8 : 8 ≤ n) (hl : headers.lookup h = some cs) (hs : split '-' (value cs) = [p, sz])
    (hn : isNumeric sz = true) (hi : pyInt 10 sz = .ok (n : Int)) (hle : n ≤ b.length) :
    parseHeader headers value (b ++ e) = parseHeader headers value b := by
  rw [parseHeader_fixed hb hl hs hn hi hle,
    parseHeader_fixed (h := h) (by rw [List.take_append_of_le_length (by omega)]; exact hb) hl hs hn hi (by simp; omega),
    List.take_append_of_le_length hle]

theorem C27_sgtin96 (b extra : Str) (hb : b.take 8 = py "00110000") (hl : 96 ≤ b.length) : SGTIN.fromBinary (b ++ extra) = SGTIN.fromBinary b := by
  unfold SGTIN.fromBinary
  rw [parseHeader_ext (cs := SGTIN.Coding.sgtin96) (p := py "sgtin") (sz := py "96") (n := 96) hb (by decide) (by decide) (by decide) (by decide) (by decide) hl]

theorem C27_sgtin198 (b extra : Str) (hb : b.take 8 = py "00110110") (hl : 198 ≤ b.length) : SGTIN.fromBinary (b ++ extra) = SGTIN.fromBinary b := by
  unfold SGTIN.fromBinary
  rw [parseHeader_ext (cs := SGTIN.Coding.sgtin198) (p := py "sgtin") (sz := py "198") (n := 198) hb (by decide) (by decide) (by decide) (by decide) (by decide) hl]

theorem C27_sscc96 (b extra : Str) (hb : b.take 8 = py "00110001") (hl : 96 ≤ b.length) : SSCC.fromBinary (b ++ extra) = SSCC.fromBinary b := by
  unfold SSCC.fromBinary
  rw [parseHeader_ext (cs := SSCC.Coding.sscc96) (p := py "sscc") (sz := py "96") (n := 96) hb (by decide) (by decide) (by decide) (by decide) (by decide) hl]

theorem C27_sgln96 (b extra : Str) (hb : b.take 8 = py "00110010") (hl : 96 ≤ b.length) : SGLN.fromBinary (b ++ extra) = SGLN.fromBinary b := by
  unfold SGLN.fromBinary
  rw [parseHeader_ext (cs := SGLN.Coding.sgln96) (p := py "sgln") (sz := py "96") (n := 96) hb (by decide) (by decide) (by decide) (by decide) (by decide) hl]

theorem C27_sgln195 (b extra : Str) (hb : b.take 8 = py "00111001") (hl : 195 ≤ b.length) : SGLN.fromBinary (b ++ extra) = SGLN.fromBinary b := by
  unfold SGLN.fromBinary
  rw [parseHeader_ext (cs := SGLN.Coding.sgln195) (p := py "sgln") (sz := py "195") (n := 195) hb (by decide) (by decide) (by decide) (by decide) (by decide) hl]

theorem C27_grai96 (b extra : Str) (hb : b.take 8 = py "00110011") (hl : 96 ≤ b.length) : GRAI.fromBinary (b ++ extra) = GRAI.fromBinary b := by
  unfold GRAI.fromBinary
  rw [parseHeader_ext (cs := GRAI.Coding.grai96) (p := py "grai") (sz := py "96") (n := 96) hb (by decide) (by decide) (by decide) (by decide) (by decide) hl]

theorem C27_grai170 (b extra : Str) (hb : b.take 8 = py "00110111") (hl : 170 ≤ b.length) : GRAI.fromBinary (b ++ extra) = GRAI.fromBinary b := by
  unfold GRAI.fromBinary
  rw [parseHeader_ext (cs := GRAI.Coding.grai170) (p := py "grai") (sz := py "170") (n := 170) hb (by decide) (by decide) (by decide) (by decide) (by decide) hl]

theorem C27_giai96 (b extra : Str) (hb : b.take 8 = py "00110100") (hl : 96 ≤ b.length) : GIAI.fromBinary (b ++ extra) = GIAI.fromBinary b := by
  unfold GIAI.fromBinary
  rw [parseHeader_ext (cs := GIAI.Coding.giai96) (p := py "giai") (sz := py "96") (n := 96) hb (by decide) (by decide) (by decide) (by decide) (by decide) hl]

theorem C27_giai202 (b extra : Str) (hb : b.take 8 = py "00111000") (hl : 202 ≤ b.length) : GIAI.fromBinary (b ++ extra) = GIAI.fromBinary b := by
  unfold GIAI.fromBinary
  rw [parseHeader_ext (cs := GIAI.Coding.giai202) (p := py "giai") (sz := py "202") (n := 202) hb (by decide) (by decide) (by decide) (by decide) (by decide) hl]

theorem C27_gsrn96 (b extra : Str) (hb : b.take 8 = py "00101101") (hl : 96 ≤ b.length) : GSRN.fromBinary (b ++ extra) = GSRN.fromBinary b := by
  unfold GSRN.fromBinary
  rw [parseHeader_ext (cs := GSRN.Coding.gsrn96) (p := py "gsrn") (sz := py "96") (n := 96) hb (by decide) (by decide) (by decide) (by decide) (by decide) hl]

theorem C27_gsrnp96 (b extra : Str) (hb : b.take 8 = py "00101110") (hl : 96 ≤ b.length) : GSRNP.fromBinary (b ++ extra) = GSRNP.fromBinary b := by
  unfold GSRNP.fromBinary
  rw [parseHeader_ext (cs := GSRNP.Coding.gsrnp96) (p := py "gsrnp") (sz := py "96") (n := 96) hb (by decide) (by decide) (by decide) (by decide) (by decide) hl]

theorem C27_gdti96 (b extra : Str) (hb : b.take 8 = py "00101100") (hl : 96 ≤ b.length) : GDTI.fromBinary (b ++ extra) = GDTI.fromBinary b := by
  unfold GDTI.fromBinary
  rw [parseHeader_ext (cs := GDTI.Coding.gdti96) (p := py "gdti") (sz := py "96") (n := 96) hb (by decide) (by decide) (by decide) (by decide) (by decide) hl]

theorem C27_gdti174 (b extra : Str) (hb : b.take 8 = py "00111110") (hl : 174 ≤ b.length) : GDTI.fromBinary (b ++ extra) = GDTI.fromBinary b := by
  unfold GDTI.fromBinary
  rw [parseHeader_ext (cs := GDTI.Coding.gdti174) (p := py "gdti") (sz := py "174") (n := 174) hb (by decide) (by decide) (by decide) (by decide) (by decide) hl]

theorem C27_cpi96 (b extra : Str) (hb : b.take 8 = py "00111100") (hl : 96 ≤ b.length) : CPI.fromBinary (b ++ extra) = CPI.fromBinary b := by
  unfold CPI.fromBinary
  rw [parseHeader_ext (cs := CPI.Coding.cpi96) (p := py "cpi") (sz := py "96") (n := 96) hb (by decide) (by decide) (by decide) (by decide) (by decide) hl]

theorem C27_sgcn96 (b extra : Str) (hb : b.take 8 = py "00111111") (hl : 96 ≤ b.length) : SGCN.fromBinary (b ++ extra) = SGCN.fromBinary b := by
  unfold SGCN.fromBinary
  rw [parseHeader_ext (cs := SGCN.Coding.sgcn96) (p := py "sgcn") (sz := py "96") (n := 96) hb (by decide) (by decide) (by decide) (by decide) (by decide) hl]

theorem C27_itip110 (b extra : Str) (hb : b.take 8 = py "01000000") (hl : 110 ≤ b.length) : ITIP.fromBinary (b ++ extra) = ITIP.fromBinary b := by
  unfold ITIP.fromBinary
  rw [parseHeader_ext (cs := ITIP.Coding.itip110) (p := py "itip") (sz := py "110") (n := 110) hb (by decide) (by decide) (by decide) (by decide) (by decide) hl]

theorem C27_itip212 (b extra : Str) (hb : b.take 8 = py "01000001") (hl : 212 ≤ b.length) : ITIP.fromBinary (b ++ extra) = ITIP.fromBinary b := by
  unfold ITIP.fromBinary
  rw [parseHeader_ext (cs := ITIP.Coding.itip212) (p := py "itip") (sz := py "212") (n := 212) hb (by decide) (by decide) (by decide) (by decide) (by decide) hl]

theorem C27_gid96 (b extra : Str) (hb : b.take 8 = py "00110101") (hl : 96 ≤ b.length) : GID.fromBinary (b ++ extra) = GID.fromBinary b := by
  unfold GID.fromBinary
  rw [parseHeader_ext (cs := GID.Coding.gid96) (p := py "gid") (sz := py "96") (n := 96) hb (by decide) (by decide) (by decide) (by decide) (by decide) hl]

theorem C27_usdod96 (b extra : Str) (hb : b.take 8 = py "00101111") (hl : 96 ≤ b.length) : USDOD.fromBinary (b ++ extra) = USDOD.fromBinary b := by
  unfold USDOD.fromBinary
  rw [parseHeader_ext (cs := USDOD.Coding.usdod96) (p := py "usdod") (sz := py "96") (n := 96) hb (by decide) (by decide) (by decide) (by decide) (by decide) hl]

example : (SGTIN.fromBinary (py "001100000001011001000101000111111101010000001100000011100100000000000000000000000000000000000001")).isOk = true := by decide +kernel

end Epc
