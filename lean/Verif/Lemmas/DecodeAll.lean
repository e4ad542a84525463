/-
What `from_binary` does with an arbitrary bit string of sufficient length.
Generated by tools/gen_decode.py.
-/
import Verif.Lemmas.Decode

namespace Epc
open Spec Re

theorem drop_of_take {b : Str} {lo n : Nat} : (b.take n).drop lo = (b.drop lo).take (n - lo) := List.drop_take

theorem filter_bits {b : Str} (hB : Bits b) {n : Nat} (hn : 11 ≤ n) (hl : n ≤ b.length) :
    binaryToInt (slice (b.take n) 8 11) = .ok (bitsNumber ((b.drop 8).take 3) : Int) := by
  rw [slice_of_take hn, binaryToInt_bits (bits_take (bits_drop hB 8) 3) (ne_nil_of_length (field_length (by omega)) (by decide))]

theorem binIntStr_bits {s : Str} (h : Bits s) (hne : s ≠ []) : binIntStr s = .ok (natStr (bitsNumber s)) := by
  unfold binIntStr
  rw [binaryToInt_bits h hne, ok_bind, intStr_ofNat, pure_ok]

theorem serial_bits {b : Str} (hB : Bits b) {lo n : Nat} (h : lo < n) (hl : n ≤ b.length) :
    binIntStr ((b.drop lo).take (n - lo)) = .ok (natStr (bitsNumber ((b.drop lo).take (n - lo)))) :=
  binIntStr_bits (bits_take (bits_drop hB lo) _) (ne_nil_of_length (field_length (by omega)) (by omega))

theorem SGTIN.decode_sgtin96 {b : Str} (hB : Bits b) (hb : b.take 8 = py "00110000") (hl : 96 ≤ b.length) :
    SGTIN.fromBinary b = (decodePartitionTable ((b.drop 11).take 47) SGTIN.table >>= fun g =>
      SGTIN.fromTagUri (tagUriPrefix ++ Coding.value .sgtin96 ++ ':' :: (natStr (bitsNumber ((b.drop 8).take 3)) ++ '.' :: (g ++ '.' :: natStr (bitsNumber ((b.drop 58).take 38)))))) := by
  unfold SGTIN.fromBinary
  rw [parseHeader_fixed (cs := Coding.sgtin96) (p := py "sgtin") (sz := py "96") (n := 96) hb (by decide) (by decide) (by decide) (by decide) hl, ok_bind]
  dsimp only
  rw [filter_bits hB (by decide) hl, ok_bind, intStr_ofNat]
  rw [slice_of_take (by decide)]
  refine congrArg _ (funext fun g => ?_)
  rw [if_pos rfl, drop_of_take, serial_bits hB (by decide) hl, ok_bind]
  exact congrArg _ (by simp)

theorem SGTIN.decode_sgtin198 {b : Str} (hB : Bits b) (hb : b.take 8 = py "00110110") (hl : 198 ≤ b.length) :
    SGTIN.fromBinary b = (decodePartitionTable ((b.drop 11).take 47) SGTIN.table >>= fun g =>
      decodeString ((b.drop 58).take 140) >>= fun S => SGTIN.fromTagUri (tagUriPrefix ++ Coding.value .sgtin198 ++ ':' :: (natStr (bitsNumber ((b.drop 8).take 3)) ++ '.' :: (g ++ '.' :: S)))) := by
  unfold SGTIN.fromBinary
  rw [parseHeader_fixed (cs := Coding.sgtin198) (p := py "sgtin") (sz := py "198") (n := 198) hb (by decide) (by decide) (by decide) (by decide) hl, ok_bind]
  dsimp only
  rw [filter_bits hB (by decide) hl, ok_bind, intStr_ofNat]
  rw [slice_of_take (by decide)]
  refine congrArg _ (funext fun g => ?_)
  rw [if_neg (by decide), drop_of_take]
  exact congrArg _ (funext fun S => congrArg _ (by simp))

theorem SSCC.decode_sscc96 {b : Str} (hB : Bits b) (hb : b.take 8 = py "00110001") (hl : 96 ≤ b.length) :
    SSCC.fromBinary b = (decodePartitionTable ((b.drop 11).take 61) SSCC.table >>= fun g =>
      SSCC.fromTagUri (tagUriPrefix ++ Coding.value .sscc96 ++ ':' :: (natStr (bitsNumber ((b.drop 8).take 3)) ++ '.' :: g))) := by
  unfold SSCC.fromBinary
  rw [parseHeader_fixed (cs := Coding.sscc96) (p := py "sscc") (sz := py "96") (n := 96) hb (by decide) (by decide) (by decide) (by decide) hl, ok_bind]
  dsimp only
  rw [filter_bits hB (by decide) hl, ok_bind, intStr_ofNat]
  rw [slice_of_take (by decide)]
  refine congrArg _ (funext fun g => ?_)
  exact congrArg _ (by simp)

theorem SGLN.decode_sgln96 {b : Str} (hB : Bits b) (hb : b.take 8 = py "00110010") (hl : 96 ≤ b.length) :
    SGLN.fromBinary b = (decodePartitionTable ((b.drop 11).take 44) SGLN.table >>= fun g =>
      SGLN.fromTagUri (tagUriPrefix ++ Coding.value .sgln96 ++ ':' :: (natStr (bitsNumber ((b.drop 8).take 3)) ++ '.' :: (g ++ '.' :: natStr (bitsNumber ((b.drop 55).take 41)))))) := by
  unfold SGLN.fromBinary
  rw [parseHeader_fixed (cs := Coding.sgln96) (p := py "sgln") (sz := py "96") (n := 96) hb (by decide) (by decide) (by decide) (by decide) hl, ok_bind]
  dsimp only
  rw [filter_bits hB (by decide) hl, ok_bind, intStr_ofNat]
  rw [slice_of_take (by decide)]
  refine congrArg _ (funext fun g => ?_)
  rw [if_pos rfl, drop_of_take, serial_bits hB (by decide) hl, ok_bind]
  exact congrArg _ (by simp)

theorem SGLN.decode_sgln195 {b : Str} (hB : Bits b) (hb : b.take 8 = py "00111001") (hl : 195 ≤ b.length) :
    SGLN.fromBinary b = (decodePartitionTable ((b.drop 11).take 44) SGLN.table >>= fun g =>
      decodeString ((b.drop 55).take 140) >>= fun S => SGLN.fromTagUri (tagUriPrefix ++ Coding.value .sgln195 ++ ':' :: (natStr (bitsNumber ((b.drop 8).take 3)) ++ '.' :: (g ++ '.' :: S)))) := by
  unfold SGLN.fromBinary
  rw [parseHeader_fixed (cs := Coding.sgln195) (p := py "sgln") (sz := py "195") (n := 195) hb (by decide) (by decide) (by decide) (by decide) hl, ok_bind]
  dsimp only
  rw [filter_bits hB (by decide) hl, ok_bind, intStr_ofNat]
  rw [slice_of_take (by decide)]
  refine congrArg _ (funext fun g => ?_)
  rw [if_neg (by decide), drop_of_take]
  exact congrArg _ (funext fun S => congrArg _ (by simp))

theorem GRAI.decode_grai96 {b : Str} (hB : Bits b) (hb : b.take 8 = py "00110011") (hl : 96 ≤ b.length) :
    GRAI.fromBinary b = (decodePartitionTable ((b.drop 11).take 47) GRAI.table >>= fun g =>
      GRAI.fromTagUri (tagUriPrefix ++ Coding.value .grai96 ++ ':' :: (natStr (bitsNumber ((b.drop 8).take 3)) ++ '.' :: (g ++ '.' :: natStr (bitsNumber ((b.drop 58).take 38)))))) := by
  unfold GRAI.fromBinary
  rw [parseHeader_fixed (cs := Coding.grai96) (p := py "grai") (sz := py "96") (n := 96) hb (by decide) (by decide) (by decide) (by decide) hl, ok_bind]
  dsimp only
  rw [filter_bits hB (by decide) hl, ok_bind, intStr_ofNat]
  rw [slice_of_take (by decide)]
  refine congrArg _ (funext fun g => ?_)
  rw [if_pos rfl, drop_of_take, serial_bits hB (by decide) hl, ok_bind]
  exact congrArg _ (by simp)

theorem GRAI.decode_grai170 {b : Str} (hB : Bits b) (hb : b.take 8 = py "00110111") (hl : 170 ≤ b.length) :
    GRAI.fromBinary b = (decodePartitionTable ((b.drop 11).take 47) GRAI.table >>= fun g =>
      decodeString ((b.drop 58).take 112) >>= fun S => GRAI.fromTagUri (tagUriPrefix ++ Coding.value .grai170 ++ ':' :: (natStr (bitsNumber ((b.drop 8).take 3)) ++ '.' :: (g ++ '.' :: S)))) := by
  unfold GRAI.fromBinary
  rw [parseHeader_fixed (cs := Coding.grai170) (p := py "grai") (sz := py "170") (n := 170) hb (by decide) (by decide) (by decide) (by decide) hl, ok_bind]
  dsimp only
  rw [filter_bits hB (by decide) hl, ok_bind, intStr_ofNat]
  rw [slice_of_take (by decide)]
  refine congrArg _ (funext fun g => ?_)
  rw [if_neg (by decide), drop_of_take]
  exact congrArg _ (funext fun S => congrArg _ (by simp))

theorem GIAI.decode_giai96 {b : Str} (hB : Bits b) (hb : b.take 8 = py "00110100") (hl : 96 ≤ b.length) :
    GIAI.fromBinary b = (decodePartitionTable ((b.drop 11).take 85) GIAI.table96 .unpadded >>= fun g =>
      GIAI.fromTagUri (tagUriPrefix ++ Coding.value .giai96 ++ ':' :: (natStr (bitsNumber ((b.drop 8).take 3)) ++ '.' :: g))) := by
  unfold GIAI.fromBinary
  rw [parseHeader_fixed (cs := Coding.giai96) (p := py "giai") (sz := py "96") (n := 96) hb (by decide) (by decide) (by decide) (by decide) hl, ok_bind]
  dsimp only
  rw [filter_bits hB (by decide) hl, ok_bind, intStr_ofNat]
  rw [if_pos rfl, drop_of_take]
  refine congrArg _ (funext fun g => ?_)
  exact congrArg _ (by simp)

theorem GIAI.decode_giai202 {b : Str} (hB : Bits b) (hb : b.take 8 = py "00111000") (hl : 202 ≤ b.length) :
    GIAI.fromBinary b = (decodePartitionTable ((b.drop 11).take 191) GIAI.table202 .string >>= fun g =>
      GIAI.fromTagUri (tagUriPrefix ++ Coding.value .giai202 ++ ':' :: (natStr (bitsNumber ((b.drop 8).take 3)) ++ '.' :: g))) := by
  unfold GIAI.fromBinary
  rw [parseHeader_fixed (cs := Coding.giai202) (p := py "giai") (sz := py "202") (n := 202) hb (by decide) (by decide) (by decide) (by decide) hl, ok_bind]
  dsimp only
  rw [filter_bits hB (by decide) hl, ok_bind, intStr_ofNat]
  rw [if_neg (by decide), drop_of_take]
  refine congrArg _ (funext fun g => ?_)
  exact congrArg _ (by simp)

theorem GSRN.decode_gsrn96 {b : Str} (hB : Bits b) (hb : b.take 8 = py "00101101") (hl : 96 ≤ b.length) :
    GSRN.fromBinary b = (decodePartitionTable ((b.drop 11).take 61) GSRN.table >>= fun g =>
      GSRN.fromTagUri (tagUriPrefix ++ Coding.value .gsrn96 ++ ':' :: (natStr (bitsNumber ((b.drop 8).take 3)) ++ '.' :: g))) := by
  unfold GSRN.fromBinary
  rw [parseHeader_fixed (cs := Coding.gsrn96) (p := py "gsrn") (sz := py "96") (n := 96) hb (by decide) (by decide) (by decide) (by decide) hl, ok_bind]
  dsimp only
  rw [filter_bits hB (by decide) hl, ok_bind, intStr_ofNat]
  rw [slice_of_take (by decide)]
  refine congrArg _ (funext fun g => ?_)
  exact congrArg _ (by simp)

theorem GSRNP.decode_gsrnp96 {b : Str} (hB : Bits b) (hb : b.take 8 = py "00101110") (hl : 96 ≤ b.length) :
    GSRNP.fromBinary b = (decodePartitionTable ((b.drop 11).take 61) GSRNP.table >>= fun g =>
      GSRNP.fromTagUri (tagUriPrefix ++ Coding.value .gsrnp96 ++ ':' :: (natStr (bitsNumber ((b.drop 8).take 3)) ++ '.' :: g))) := by
  unfold GSRNP.fromBinary
  rw [parseHeader_fixed (cs := Coding.gsrnp96) (p := py "gsrnp") (sz := py "96") (n := 96) hb (by decide) (by decide) (by decide) (by decide) hl, ok_bind]
  dsimp only
  rw [filter_bits hB (by decide) hl, ok_bind, intStr_ofNat]
  rw [slice_of_take (by decide)]
  refine congrArg _ (funext fun g => ?_)
  exact congrArg _ (by simp)

theorem GDTI.decode_gdti96 {b : Str} (hB : Bits b) (hb : b.take 8 = py "00101100") (hl : 96 ≤ b.length) :
    GDTI.fromBinary b = (decodePartitionTable ((b.drop 11).take 44) GDTI.table >>= fun g =>
      GDTI.fromTagUri (tagUriPrefix ++ Coding.value .gdti96 ++ ':' :: (natStr (bitsNumber ((b.drop 8).take 3)) ++ '.' :: (g ++ '.' :: natStr (bitsNumber ((b.drop 55).take 41)))))) := by
  unfold GDTI.fromBinary
  rw [parseHeader_fixed (cs := Coding.gdti96) (p := py "gdti") (sz := py "96") (n := 96) hb (by decide) (by decide) (by decide) (by decide) hl, ok_bind]
  dsimp only
  rw [filter_bits hB (by decide) hl, ok_bind, intStr_ofNat]
  rw [slice_of_take (by decide)]
  refine congrArg _ (funext fun g => ?_)
  rw [if_pos rfl, drop_of_take, serial_bits hB (by decide) hl, ok_bind]
  exact congrArg _ (by simp)

theorem GDTI.decode_gdti174 {b : Str} (hB : Bits b) (hb : b.take 8 = py "00111110") (hl : 174 ≤ b.length) :
    GDTI.fromBinary b = (decodePartitionTable ((b.drop 11).take 44) GDTI.table >>= fun g =>
      decodeString ((b.drop 55).take 119) >>= fun S => GDTI.fromTagUri (tagUriPrefix ++ Coding.value .gdti174 ++ ':' :: (natStr (bitsNumber ((b.drop 8).take 3)) ++ '.' :: (g ++ '.' :: S)))) := by
  unfold GDTI.fromBinary
  rw [parseHeader_fixed (cs := Coding.gdti174) (p := py "gdti") (sz := py "174") (n := 174) hb (by decide) (by decide) (by decide) (by decide) hl, ok_bind]
  dsimp only
  rw [filter_bits hB (by decide) hl, ok_bind, intStr_ofNat]
  rw [slice_of_take (by decide)]
  refine congrArg _ (funext fun g => ?_)
  rw [if_neg (by decide), drop_of_take]
  exact congrArg _ (funext fun S => congrArg _ (by simp))

theorem CPI.decode_cpi96 {b : Str} (hB : Bits b) (hb : b.take 8 = py "00111100") (hl : 96 ≤ b.length) :
    CPI.fromBinary b = (decodePartitionTable ((b.drop 11).take 54) CPI.table96 .unpadded >>= fun g =>
      CPI.fromTagUri (tagUriPrefix ++ Coding.value .cpi96 ++ ':' :: (natStr (bitsNumber ((b.drop 8).take 3)) ++ '.' :: (g ++ '.' :: natStr (bitsNumber ((b.drop 65).take 31)))))) := by
  unfold CPI.fromBinary
  rw [parseHeader_fixed (cs := Coding.cpi96) (p := py "cpi") (sz := py "96") (n := 96) hb (by decide) (by decide) (by decide) (by decide) hl, ok_bind]
  dsimp only
  unfold CPI.decodeParts
  rw [if_pos rfl, slice_of_take (by decide), filter_bits hB (by decide) hl]
  show ((_ >>= fun cpi => pure (cpi, _)) >>= _) = _
  rw [bind_assoc]
  refine congrArg _ (funext fun g => ?_)
  rw [pure_ok, ok_bind, ok_bind, drop_of_take, serial_bits hB (by decide) hl, ok_bind, intStr_ofNat]
  exact congrArg _ (by simp)

theorem SGCN.decode_sgcn96 {b : Str} (hB : Bits b) (hb : b.take 8 = py "00111111") (hl : 96 ≤ b.length) :
    SGCN.fromBinary b = (decodePartitionTable ((b.drop 11).take 44) SGCN.table >>= fun g =>
      decodeNumericString ((b.drop 55).take 41) >>= fun S => SGCN.fromTagUri (tagUriPrefix ++ Coding.value .sgcn96 ++ ':' :: (natStr (bitsNumber ((b.drop 8).take 3)) ++ '.' :: (g ++ '.' :: S)))) := by
  unfold SGCN.fromBinary
  rw [parseHeader_fixed (cs := Coding.sgcn96) (p := py "sgcn") (sz := py "96") (n := 96) hb (by decide) (by decide) (by decide) (by decide) hl, ok_bind]
  dsimp only
  rw [filter_bits hB (by decide) hl, ok_bind, intStr_ofNat]
  rw [slice_of_take (by decide)]
  refine congrArg _ (funext fun g => ?_)
  rw [drop_of_take]
  exact congrArg _ (funext fun S => congrArg _ (by simp))

theorem ITIP.decode_itip110 {b : Str} (hB : Bits b) (hb : b.take 8 = py "01000000") (hl : 110 ≤ b.length) :
    ITIP.fromBinary b = (decodePartitionTable ((b.drop 11).take 47) ITIP.table >>= fun g =>
      decodeFixedWidthInteger ((b.drop 58).take 7) >>= fun A => decodeFixedWidthInteger ((b.drop 65).take 7) >>= fun B =>
        ITIP.fromTagUri (tagUriPrefix ++ Coding.value .itip110 ++ ':' :: (natStr (bitsNumber ((b.drop 8).take 3)) ++ '.' :: (g ++ '.' :: (A ++ '.' :: (B ++ '.' :: natStr (bitsNumber ((b.drop 72).take 38)))))))) := by
  unfold ITIP.fromBinary
  rw [parseHeader_fixed (cs := Coding.itip110) (p := py "itip") (sz := py "110") (n := 110) hb (by decide) (by decide) (by decide) (by decide) hl, ok_bind]
  dsimp only
  rw [filter_bits hB (by decide) hl, ok_bind, intStr_ofNat]
  rw [slice_of_take (by decide)]
  refine congrArg _ (funext fun g => ?_)
  rw [slice_of_take (by decide), slice_of_take (by decide)]
  refine congrArg _ (funext fun A => congrArg _ (funext fun B => ?_))
  rw [if_pos rfl, drop_of_take, serial_bits hB (by decide) hl, ok_bind]
  exact congrArg _ (by simp)

theorem ITIP.decode_itip212 {b : Str} (hB : Bits b) (hb : b.take 8 = py "01000001") (hl : 212 ≤ b.length) :
    ITIP.fromBinary b = (decodePartitionTable ((b.drop 11).take 47) ITIP.table >>= fun g =>
      decodeFixedWidthInteger ((b.drop 58).take 7) >>= fun A => decodeFixedWidthInteger ((b.drop 65).take 7) >>= fun B =>
        decodeString ((b.drop 72).take 140) >>= fun S => ITIP.fromTagUri (tagUriPrefix ++ Coding.value .itip212 ++ ':' :: (natStr (bitsNumber ((b.drop 8).take 3)) ++ '.' :: (g ++ '.' :: (A ++ '.' :: (B ++ '.' :: S)))))) := by
  unfold ITIP.fromBinary
  rw [parseHeader_fixed (cs := Coding.itip212) (p := py "itip") (sz := py "212") (n := 212) hb (by decide) (by decide) (by decide) (by decide) hl, ok_bind]
  dsimp only
  rw [filter_bits hB (by decide) hl, ok_bind, intStr_ofNat]
  rw [slice_of_take (by decide)]
  refine congrArg _ (funext fun g => ?_)
  rw [slice_of_take (by decide), slice_of_take (by decide)]
  refine congrArg _ (funext fun A => congrArg _ (funext fun B => ?_))
  rw [if_neg (by decide), drop_of_take]
  exact congrArg _ (funext fun S => congrArg _ (by simp))

end Epc
