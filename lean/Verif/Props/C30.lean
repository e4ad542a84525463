/-
C30: decoding a bit string and encoding the object with the filter bits reproduces the bit string (the 96-bit numeric schemes).
The 24 reserved bits of SSCC, GSRN and GSRNP are ignored by the decoder and zero in the encoding.

False for SGLN, GRAI, GDTI and SGCN with a 12-digit company prefix (partition value 0): the reference field is ignored by the
decoder.  For these the theorem asks that this field is zero when the partition value is.
Generated by tools/gen_c30.py.
-/
import Verif.Lemmas.Reencode

namespace Epc
open Spec Re

theorem C30_sgtin96 (b : Str) (x : SGTIN) (hB : Bits b) (hb : b.take 8 = py "00110000") (hx : SGTIN.fromBinary b = .ok x) :
    ∃ f : Fin 8, f.val = bitsNumber ((b.drop 8).take 3) ∧ x.binary .sgtin96 f = .ok (b.take 96) := by
  by_cases hl : 96 ≤ b.length
  case neg =>
    unfold SGTIN.fromBinary at hx
    rw [parseHeader_short (cs := SGTIN.Coding.sgtin96) (p := py "sgtin") (sz := py "96") (n := 96) hb (by decide) (by decide) (by decide) (by decide)
      (by omega), error_bind] at hx
    cases hx
  have hF : Bits ((b.drop 11).take 47) := bits_take (bits_drop hB 11) 47
  have hFl : ((b.drop 11).take 47).length = 47 := field_length (by omega)
  obtain ⟨f, hf, hfb⟩ := filter_fin hB (by omega)
  refine ⟨f, hf, ?_⟩
  rw [SGTIN.decode_sgtin96 hB hb hl] at hx
  obtain ⟨g, hg, hx⟩ := bind_ok_iff.1 hx
  obtain ⟨C, D, rfl, hC, hD, hCne, hDne, henc⟩ := reencode (t := SGTIN.table) (by decide) hF (W := 47) (by decide) hFl hg (by
    have key : ∀ r ∈ SGTIN.table, r.K ≠ 0 := by decide
    intro r hr hK
    exact absurd hK (key r hr))
  replace hDne := hDne (by decide)
  have hnew := new_of_fromTagUri (n := SGTIN.Coding.value .sgtin96) (by decide) (num_natStr _) hx
  have hS := Digits_natStr (bitsNumber ((b.drop 58).take 38))
  have hSne := natStr_ne_nil (bitsNumber ((b.drop 58).take 38))
  have hSb : bin 38 (bitsNumber ((b.drop 58).take 38)) = (b.drop 58).take 38 :=
    bin_bitsNumber (bits_take (bits_drop hB 58) 38) (field_length (by omega)) (by decide)
  generalize hs : bitsNumber ((b.drop 58).take 38) = s at *
  have he : py "urn:epc:id:" ++ (split '-' (SGTIN.Coding.value .sgtin96)).headD [] ++ ':' :: ((C ++ '.' :: D) ++ '.' :: natStr s) =
      py "urn:epc:id:sgtin" ++ ':' :: (C ++ '.' :: (D ++ '.' :: natStr s)) := by
    rw [show (split '-' (SGTIN.Coding.value .sgtin96)).headD [] = py "sgtin" from by decide]
    simp
  rw [he, SGTIN.new_eq ⟨hCne, dec_digits hC⟩ ⟨hDne, dec_digits hD⟩ (gs3a3_digits hS hSne)] at hnew
  simp only [unit_bind_ok, pure_ok, Except.ok.injEq] at hnew
  obtain ⟨_, _, _, rfl⟩ := hnew
  unfold SGTIN.binary
  rw [filter_ok, ok_bind]
  dsimp only
  rw [henc, ok_bind, if_pos rfl, strToBinary_natStr, ok_bind, pure_ok, hfb, hSb]
  refine congrArg _ ?_
  rw [← take_split4 hb (W := 47) (n := 96) (by decide)]
  simp [SGTIN.Coding.header]

theorem C30_sscc96 (b : Str) (x : SSCC) (hB : Bits b) (hb : b.take 8 = py "00110001") (hx : SSCC.fromBinary b = .ok x) :
    ∃ f : Fin 8, f.val = bitsNumber ((b.drop 8).take 3) ∧ x.binary .sscc96 f = .ok (b.take 72 ++ List.replicate 24 '0') := by
  by_cases hl : 96 ≤ b.length
  case neg =>
    unfold SSCC.fromBinary at hx
    rw [parseHeader_short (cs := SSCC.Coding.sscc96) (p := py "sscc") (sz := py "96") (n := 96) hb (by decide) (by decide) (by decide) (by decide)
      (by omega), error_bind] at hx
    cases hx
  have hF : Bits ((b.drop 11).take 61) := bits_take (bits_drop hB 11) 61
  have hFl : ((b.drop 11).take 61).length = 61 := field_length (by omega)
  obtain ⟨f, hf, hfb⟩ := filter_fin hB (by omega)
  refine ⟨f, hf, ?_⟩
  rw [SSCC.decode_sscc96 hB hb hl] at hx
  obtain ⟨g, hg, hx⟩ := bind_ok_iff.1 hx
  obtain ⟨C, D, rfl, hC, hD, hCne, hDne, henc⟩ := reencode (t := SSCC.table) (by decide) hF (W := 61) (by decide) hFl hg (by
    have key : ∀ r ∈ SSCC.table, r.K ≠ 0 := by decide
    intro r hr hK
    exact absurd hK (key r hr))
  replace hDne := hDne (by decide)
  have hnew := new_of_fromTagUri (n := SSCC.Coding.value .sscc96) (by decide) (num_natStr _) hx
  have he : py "urn:epc:id:" ++ (split '-' (SSCC.Coding.value .sscc96)).headD [] ++ ':' :: (C ++ '.' :: D) =
      py "urn:epc:id:sscc" ++ ':' :: (C ++ '.' :: D) := by
    rw [show (split '-' (SSCC.Coding.value .sscc96)).headD [] = py "sscc" from by decide]
    simp
  rw [he, SSCC.new_eq ⟨hCne, dec_digits hC⟩ ⟨hDne, dec_digits hD⟩] at hnew
  simp only [unit_bind_ok, pure_ok, Except.ok.injEq] at hnew
  obtain ⟨_, rfl⟩ := hnew
  unfold SSCC.binary
  rw [filter_ok, ok_bind]
  dsimp only
  rw [henc, ok_bind, pure_ok, hfb]
  refine congrArg _ ?_
  rw [← take_split3 hb (n := 72) (by decide)]
  simp [SSCC.Coding.header]

theorem C30_sgln96_partial (b : Str) (x : SGLN) (hB : Bits b) (hb : b.take 8 = py "00110010") (hx : SGLN.fromBinary b = .ok x)
    (hz : bitsNumber ((b.drop 11).take 3) = 0 → bitsNumber ((b.drop 54).take 1) = 0) :
    ∃ f : Fin 8, f.val = bitsNumber ((b.drop 8).take 3) ∧ x.binary .sgln96 f = .ok (b.take 96) := by
  by_cases hl : 96 ≤ b.length
  case neg =>
    unfold SGLN.fromBinary at hx
    rw [parseHeader_short (cs := SGLN.Coding.sgln96) (p := py "sgln") (sz := py "96") (n := 96) hb (by decide) (by decide) (by decide) (by decide)
      (by omega), error_bind] at hx
    cases hx
  have hF : Bits ((b.drop 11).take 44) := bits_take (bits_drop hB 11) 44
  have hFl : ((b.drop 11).take 44).length = 44 := field_length (by omega)
  obtain ⟨f, hf, hfb⟩ := filter_fin hB (by omega)
  refine ⟨f, hf, ?_⟩
  rw [SGLN.decode_sgln96 hB hb hl] at hx
  obtain ⟨g, hg, hx⟩ := bind_ok_iff.1 hx
  obtain ⟨C, D, rfl, hC, hD, hCne, hDne, henc⟩ := reencode (t := SGLN.table) (by decide) hF (W := 44) (by decide) hFl hg (by
    intro r hr hK hp
    have key : ∀ r ∈ SGLN.table, r.K = 0 → r.P = 0 ∧ r.M = 40 := by decide
    obtain ⟨k1, k2⟩ := key r hr hK
    rw [field_take (by decide), k1] at hp
    rw [k2, List.drop_take, List.drop_drop]
    exact hz hp)
  have hnew := new_of_fromTagUri (n := SGLN.Coding.value .sgln96) (by decide) (num_natStr _) hx
  have hS := Digits_natStr (bitsNumber ((b.drop 55).take 41))
  have hSne := natStr_ne_nil (bitsNumber ((b.drop 55).take 41))
  have hSb : bin 41 (bitsNumber ((b.drop 55).take 41)) = (b.drop 55).take 41 :=
    bin_bitsNumber (bits_take (bits_drop hB 55) 41) (field_length (by omega)) (by decide)
  generalize hs : bitsNumber ((b.drop 55).take 41) = s at *
  have he : py "urn:epc:id:" ++ (split '-' (SGLN.Coding.value .sgln96)).headD [] ++ ':' :: ((C ++ '.' :: D) ++ '.' :: natStr s) =
      py "urn:epc:id:sgln" ++ ':' :: (C ++ '.' :: (D ++ '.' :: natStr s)) := by
    rw [show (split '-' (SGLN.Coding.value .sgln96)).headD [] = py "sgln" from by decide]
    simp
  rw [he, SGLN.new_eq ⟨hCne, dec_digits hC⟩ (dec_digits hD) (gs3a3_digits hS hSne)] at hnew
  simp only [unit_bind_ok, pure_ok, Except.ok.injEq] at hnew
  obtain ⟨_, _, rfl⟩ := hnew
  unfold SGLN.binary
  rw [filter_ok, ok_bind]
  dsimp only
  rw [henc, ok_bind, if_pos rfl, strToBinary_natStr, ok_bind, pure_ok, hfb, hSb]
  refine congrArg _ ?_
  rw [← take_split4 hb (W := 44) (n := 96) (by decide)]
  simp [SGLN.Coding.header]

theorem C30_grai96_partial (b : Str) (x : GRAI) (hB : Bits b) (hb : b.take 8 = py "00110011") (hx : GRAI.fromBinary b = .ok x)
    (hz : bitsNumber ((b.drop 11).take 3) = 0 → bitsNumber ((b.drop 54).take 4) = 0) :
    ∃ f : Fin 8, f.val = bitsNumber ((b.drop 8).take 3) ∧ x.binary .grai96 f = .ok (b.take 96) := by
  by_cases hl : 96 ≤ b.length
  case neg =>
    unfold GRAI.fromBinary at hx
    rw [parseHeader_short (cs := GRAI.Coding.grai96) (p := py "grai") (sz := py "96") (n := 96) hb (by decide) (by decide) (by decide) (by decide)
      (by omega), error_bind] at hx
    cases hx
  have hF : Bits ((b.drop 11).take 47) := bits_take (bits_drop hB 11) 47
  have hFl : ((b.drop 11).take 47).length = 47 := field_length (by omega)
  obtain ⟨f, hf, hfb⟩ := filter_fin hB (by omega)
  refine ⟨f, hf, ?_⟩
  rw [GRAI.decode_grai96 hB hb hl] at hx
  obtain ⟨g, hg, hx⟩ := bind_ok_iff.1 hx
  obtain ⟨C, D, rfl, hC, hD, hCne, hDne, henc⟩ := reencode (t := GRAI.table) (by decide) hF (W := 47) (by decide) hFl hg (by
    intro r hr hK hp
    have key : ∀ r ∈ GRAI.table, r.K = 0 → r.P = 0 ∧ r.M = 40 := by decide
    obtain ⟨k1, k2⟩ := key r hr hK
    rw [field_take (by decide), k1] at hp
    rw [k2, List.drop_take, List.drop_drop]
    exact hz hp)
  have hnew := new_of_fromTagUri (n := GRAI.Coding.value .grai96) (by decide) (num_natStr _) hx
  have hS := Digits_natStr (bitsNumber ((b.drop 58).take 38))
  have hSne := natStr_ne_nil (bitsNumber ((b.drop 58).take 38))
  have hSb : bin 38 (bitsNumber ((b.drop 58).take 38)) = (b.drop 58).take 38 :=
    bin_bitsNumber (bits_take (bits_drop hB 58) 38) (field_length (by omega)) (by decide)
  generalize hs : bitsNumber ((b.drop 58).take 38) = s at *
  have he : py "urn:epc:id:" ++ (split '-' (GRAI.Coding.value .grai96)).headD [] ++ ':' :: ((C ++ '.' :: D) ++ '.' :: natStr s) =
      py "urn:epc:id:grai" ++ ':' :: (C ++ '.' :: (D ++ '.' :: natStr s)) := by
    rw [show (split '-' (GRAI.Coding.value .grai96)).headD [] = py "grai" from by decide]
    simp
  rw [he, GRAI.new_eq ⟨hCne, dec_digits hC⟩ (dec_digits hD) (gs3a3_digits hS hSne)] at hnew
  simp only [unit_bind_ok, pure_ok, Except.ok.injEq] at hnew
  obtain ⟨_, _, rfl⟩ := hnew
  unfold GRAI.binary
  rw [filter_ok, ok_bind]
  dsimp only
  rw [henc, ok_bind, if_pos rfl, strToBinary_natStr, ok_bind, pure_ok, hfb, hSb]
  refine congrArg _ ?_
  rw [← take_split4 hb (W := 47) (n := 96) (by decide)]
  simp [GRAI.Coding.header]

theorem C30_giai96 (b : Str) (x : GIAI) (hB : Bits b) (hb : b.take 8 = py "00110100") (hx : GIAI.fromBinary b = .ok x) :
    ∃ f : Fin 8, f.val = bitsNumber ((b.drop 8).take 3) ∧ x.binary .giai96 f = .ok (b.take 96) := by
  by_cases hl : 96 ≤ b.length
  case neg =>
    unfold GIAI.fromBinary at hx
    rw [parseHeader_short (cs := GIAI.Coding.giai96) (p := py "giai") (sz := py "96") (n := 96) hb (by decide) (by decide) (by decide) (by decide)
      (by omega), error_bind] at hx
    cases hx
  have hF : Bits ((b.drop 11).take 85) := bits_take (bits_drop hB 11) 85
  have hFl : ((b.drop 11).take 85).length = 85 := field_length (by omega)
  obtain ⟨f, hf, hfb⟩ := filter_fin hB (by omega)
  refine ⟨f, hf, ?_⟩
  rw [GIAI.decode_giai96 hB hb hl] at hx
  obtain ⟨g, hg, hx⟩ := bind_ok_iff.1 hx
  obtain ⟨C, d, rfl, hC, hCne, henc⟩ := reencode_unpadded (t := GIAI.table96) (by decide) (by decide) hF (W := 85) (by decide) hFl hg
  replace henc := henc .plain (.inl rfl)
  have hD := Digits_natStr d
  have hDne := natStr_ne_nil d
  have hnew := new_of_fromTagUri (n := GIAI.Coding.value .giai96) (by decide) (num_natStr _) hx
  have he : py "urn:epc:id:" ++ (split '-' (GIAI.Coding.value .giai96)).headD [] ++ ':' :: (C ++ '.' :: natStr d) =
      py "urn:epc:id:giai" ++ ':' :: (C ++ '.' :: natStr d) := by
    rw [show (split '-' (GIAI.Coding.value .giai96)).headD [] = py "giai" from by decide]
    simp
  rw [he, GIAI.new_eq ⟨hCne, dec_digits hC⟩ (gs3a3_digits hD hDne)] at hnew
  simp only [unit_bind_ok, pure_ok, Except.ok.injEq] at hnew
  obtain ⟨_, _, rfl⟩ := hnew
  rw [split_notMem (no_colon_digits hD)]
  simp only [List.headD_cons]
  unfold GIAI.binary
  rw [filter_ok, ok_bind]
  dsimp only
  rw [if_pos rfl, henc, ok_bind, pure_ok, hfb]
  refine congrArg _ ?_
  rw [← take_split3 hb (n := 96) (by decide)]
  simp [GIAI.Coding.header]

theorem C30_gsrn96 (b : Str) (x : GSRN) (hB : Bits b) (hb : b.take 8 = py "00101101") (hx : GSRN.fromBinary b = .ok x) :
    ∃ f : Fin 8, f.val = bitsNumber ((b.drop 8).take 3) ∧ x.binary .gsrn96 f = .ok (b.take 72 ++ List.replicate 24 '0') := by
  by_cases hl : 96 ≤ b.length
  case neg =>
    unfold GSRN.fromBinary at hx
    rw [parseHeader_short (cs := GSRN.Coding.gsrn96) (p := py "gsrn") (sz := py "96") (n := 96) hb (by decide) (by decide) (by decide) (by decide)
      (by omega), error_bind] at hx
    cases hx
  have hF : Bits ((b.drop 11).take 61) := bits_take (bits_drop hB 11) 61
  have hFl : ((b.drop 11).take 61).length = 61 := field_length (by omega)
  obtain ⟨f, hf, hfb⟩ := filter_fin hB (by omega)
  refine ⟨f, hf, ?_⟩
  rw [GSRN.decode_gsrn96 hB hb hl] at hx
  obtain ⟨g, hg, hx⟩ := bind_ok_iff.1 hx
  obtain ⟨C, D, rfl, hC, hD, hCne, hDne, henc⟩ := reencode (t := GSRN.table) (by decide) hF (W := 61) (by decide) hFl hg (by
    have key : ∀ r ∈ GSRN.table, r.K ≠ 0 := by decide
    intro r hr hK
    exact absurd hK (key r hr))
  replace hDne := hDne (by decide)
  have hnew := new_of_fromTagUri (n := GSRN.Coding.value .gsrn96) (by decide) (num_natStr _) hx
  have he : py "urn:epc:id:" ++ (split '-' (GSRN.Coding.value .gsrn96)).headD [] ++ ':' :: (C ++ '.' :: D) =
      py "urn:epc:id:gsrn" ++ ':' :: (C ++ '.' :: D) := by
    rw [show (split '-' (GSRN.Coding.value .gsrn96)).headD [] = py "gsrn" from by decide]
    simp
  rw [he, GSRN.new_eq ⟨hCne, dec_digits hC⟩ ⟨hDne, dec_digits hD⟩] at hnew
  simp only [unit_bind_ok, pure_ok, Except.ok.injEq] at hnew
  obtain ⟨_, rfl⟩ := hnew
  unfold GSRN.binary
  rw [filter_ok, ok_bind]
  dsimp only
  rw [henc, ok_bind, pure_ok, hfb]
  refine congrArg _ ?_
  rw [← take_split3 hb (n := 72) (by decide)]
  simp [GSRN.Coding.header]

theorem C30_gsrnp96 (b : Str) (x : GSRNP) (hB : Bits b) (hb : b.take 8 = py "00101110") (hx : GSRNP.fromBinary b = .ok x) :
    ∃ f : Fin 8, f.val = bitsNumber ((b.drop 8).take 3) ∧ x.binary .gsrnp96 f = .ok (b.take 72 ++ List.replicate 24 '0') := by
  by_cases hl : 96 ≤ b.length
  case neg =>
    unfold GSRNP.fromBinary at hx
    rw [parseHeader_short (cs := GSRNP.Coding.gsrnp96) (p := py "gsrnp") (sz := py "96") (n := 96) hb (by decide) (by decide) (by decide) (by decide)
      (by omega), error_bind] at hx
    cases hx
  have hF : Bits ((b.drop 11).take 61) := bits_take (bits_drop hB 11) 61
  have hFl : ((b.drop 11).take 61).length = 61 := field_length (by omega)
  obtain ⟨f, hf, hfb⟩ := filter_fin hB (by omega)
  refine ⟨f, hf, ?_⟩
  rw [GSRNP.decode_gsrnp96 hB hb hl] at hx
  obtain ⟨g, hg, hx⟩ := bind_ok_iff.1 hx
  obtain ⟨C, D, rfl, hC, hD, hCne, hDne, henc⟩ := reencode (t := GSRNP.table) (by decide) hF (W := 61) (by decide) hFl hg (by
    have key : ∀ r ∈ GSRNP.table, r.K ≠ 0 := by decide
    intro r hr hK
    exact absurd hK (key r hr))
  replace hDne := hDne (by decide)
  have hnew := new_of_fromTagUri (n := GSRNP.Coding.value .gsrnp96) (by decide) (num_natStr _) hx
  have he : py "urn:epc:id:" ++ (split '-' (GSRNP.Coding.value .gsrnp96)).headD [] ++ ':' :: (C ++ '.' :: D) =
      py "urn:epc:id:gsrnp" ++ ':' :: (C ++ '.' :: D) := by
    rw [show (split '-' (GSRNP.Coding.value .gsrnp96)).headD [] = py "gsrnp" from by decide]
    simp
  rw [he, GSRNP.new_eq ⟨hCne, dec_digits hC⟩ ⟨hDne, dec_digits hD⟩] at hnew
  simp only [unit_bind_ok, pure_ok, Except.ok.injEq] at hnew
  obtain ⟨_, rfl⟩ := hnew
  unfold GSRNP.binary
  rw [filter_ok, ok_bind]
  dsimp only
  rw [henc, ok_bind, pure_ok, hfb]
  refine congrArg _ ?_
  rw [← take_split3 hb (n := 72) (by decide)]
  simp [GSRNP.Coding.header]

theorem C30_gdti96_partial (b : Str) (x : GDTI) (hB : Bits b) (hb : b.take 8 = py "00101100") (hx : GDTI.fromBinary b = .ok x)
    (hz : bitsNumber ((b.drop 11).take 3) = 0 → bitsNumber ((b.drop 54).take 1) = 0) :
    ∃ f : Fin 8, f.val = bitsNumber ((b.drop 8).take 3) ∧ x.binary .gdti96 f = .ok (b.take 96) := by
  by_cases hl : 96 ≤ b.length
  case neg =>
    unfold GDTI.fromBinary at hx
    rw [parseHeader_short (cs := GDTI.Coding.gdti96) (p := py "gdti") (sz := py "96") (n := 96) hb (by decide) (by decide) (by decide) (by decide)
      (by omega), error_bind] at hx
    cases hx
  have hF : Bits ((b.drop 11).take 44) := bits_take (bits_drop hB 11) 44
  have hFl : ((b.drop 11).take 44).length = 44 := field_length (by omega)
  obtain ⟨f, hf, hfb⟩ := filter_fin hB (by omega)
  refine ⟨f, hf, ?_⟩
  rw [GDTI.decode_gdti96 hB hb hl] at hx
  obtain ⟨g, hg, hx⟩ := bind_ok_iff.1 hx
  obtain ⟨C, D, rfl, hC, hD, hCne, hDne, henc⟩ := reencode (t := GDTI.table) (by decide) hF (W := 44) (by decide) hFl hg (by
    intro r hr hK hp
    have key : ∀ r ∈ GDTI.table, r.K = 0 → r.P = 0 ∧ r.M = 40 := by decide
    obtain ⟨k1, k2⟩ := key r hr hK
    rw [field_take (by decide), k1] at hp
    rw [k2, List.drop_take, List.drop_drop]
    exact hz hp)
  have hnew := new_of_fromTagUri (n := GDTI.Coding.value .gdti96) (by decide) (num_natStr _) hx
  have hS := Digits_natStr (bitsNumber ((b.drop 55).take 41))
  have hSne := natStr_ne_nil (bitsNumber ((b.drop 55).take 41))
  have hSb : bin 41 (bitsNumber ((b.drop 55).take 41)) = (b.drop 55).take 41 :=
    bin_bitsNumber (bits_take (bits_drop hB 55) 41) (field_length (by omega)) (by decide)
  generalize hs : bitsNumber ((b.drop 55).take 41) = s at *
  have he : py "urn:epc:id:" ++ (split '-' (GDTI.Coding.value .gdti96)).headD [] ++ ':' :: ((C ++ '.' :: D) ++ '.' :: natStr s) =
      py "urn:epc:id:gdti" ++ ':' :: (C ++ '.' :: (D ++ '.' :: natStr s)) := by
    rw [show (split '-' (GDTI.Coding.value .gdti96)).headD [] = py "gdti" from by decide]
    simp
  rw [he, GDTI.new_eq ⟨hCne, dec_digits hC⟩ (dec_digits hD) (gs3a3_digits hS hSne)] at hnew
  simp only [unit_bind_ok, pure_ok, Except.ok.injEq] at hnew
  obtain ⟨_, _, rfl⟩ := hnew
  unfold GDTI.binary
  rw [filter_ok, ok_bind]
  dsimp only
  rw [henc, ok_bind, if_pos rfl, strToBinary_natStr, ok_bind, pure_ok, hfb, hSb]
  refine congrArg _ ?_
  rw [← take_split4 hb (W := 44) (n := 96) (by decide)]
  simp [GDTI.Coding.header]

theorem C30_cpi96 (b : Str) (x : CPI) (hB : Bits b) (hb : b.take 8 = py "00111100") (hx : CPI.fromBinary b = .ok x) :
    ∃ f : Fin 8, f.val = bitsNumber ((b.drop 8).take 3) ∧ x.binary .cpi96 f = .ok (b.take 96) := by
  by_cases hl : 96 ≤ b.length
  case neg =>
    unfold CPI.fromBinary at hx
    rw [parseHeader_short (cs := CPI.Coding.cpi96) (p := py "cpi") (sz := py "96") (n := 96) hb (by decide) (by decide) (by decide) (by decide)
      (by omega), error_bind] at hx
    cases hx
  have hF : Bits ((b.drop 11).take 54) := bits_take (bits_drop hB 11) 54
  have hFl : ((b.drop 11).take 54).length = 54 := field_length (by omega)
  obtain ⟨f, hf, hfb⟩ := filter_fin hB (by omega)
  refine ⟨f, hf, ?_⟩
  rw [CPI.decode_cpi96 hB hb hl] at hx
  obtain ⟨g, hg, hx⟩ := bind_ok_iff.1 hx
  obtain ⟨C, d, rfl, hC, hCne, henc⟩ := reencode_unpadded (t := CPI.table96) (by decide) (by decide) hF (W := 54) (by decide) hFl hg
  replace henc := henc .plain (.inl rfl)
  have hD := Digits_natStr d
  have hDne := natStr_ne_nil d
  have hnew := new_of_fromTagUri (n := CPI.Coding.value .cpi96) (by decide) (num_natStr _) hx
  have hS := Digits_natStr (bitsNumber ((b.drop 65).take 31))
  have hSne := natStr_ne_nil (bitsNumber ((b.drop 65).take 31))
  have hSb : bin 31 (bitsNumber ((b.drop 65).take 31)) = (b.drop 65).take 31 :=
    bin_bitsNumber (bits_take (bits_drop hB 65) 31) (field_length (by omega)) (by decide)
  generalize hs : bitsNumber ((b.drop 65).take 31) = s at *
  have he : py "urn:epc:id:" ++ (split '-' (CPI.Coding.value .cpi96)).headD [] ++ ':' :: ((C ++ '.' :: natStr d) ++ '.' :: natStr s) =
      py "urn:epc:id:cpi" ++ ':' :: (C ++ '.' :: (natStr d ++ '.' :: natStr s)) := by
    rw [show (split '-' (CPI.Coding.value .cpi96)).headD [] = py "cpi" from by decide]
    simp
  rw [he, CPI.new_eq ⟨hCne, dec_digits hC⟩ (cpref_digits hD hDne) (num_natStr s)] at hnew
  simp only [unit_bind_ok, pure_ok, Except.ok.injEq] at hnew
  obtain ⟨_, rfl⟩ := hnew
  unfold CPI.binary
  rw [filter_ok, ok_bind]
  dsimp only
  rw [if_pos rfl, henc, ok_bind, if_pos rfl, strToBinary_natStr, ok_bind, pure_ok, hfb, hSb]
  refine congrArg _ ?_
  rw [← take_split4 hb (W := 54) (n := 96) (by decide)]
  simp [CPI.Coding.header]

theorem C30_sgcn96_partial (b : Str) (x : SGCN) (hB : Bits b) (hb : b.take 8 = py "00111111") (hx : SGCN.fromBinary b = .ok x)
    (hz : bitsNumber ((b.drop 11).take 3) = 0 → bitsNumber ((b.drop 54).take 1) = 0) :
    ∃ f : Fin 8, f.val = bitsNumber ((b.drop 8).take 3) ∧ x.binary .sgcn96 f = .ok (b.take 96) := by
  by_cases hl : 96 ≤ b.length
  case neg =>
    unfold SGCN.fromBinary at hx
    rw [parseHeader_short (cs := SGCN.Coding.sgcn96) (p := py "sgcn") (sz := py "96") (n := 96) hb (by decide) (by decide) (by decide) (by decide)
      (by omega), error_bind] at hx
    cases hx
  have hF : Bits ((b.drop 11).take 44) := bits_take (bits_drop hB 11) 44
  have hFl : ((b.drop 11).take 44).length = 44 := field_length (by omega)
  obtain ⟨f, hf, hfb⟩ := filter_fin hB (by omega)
  refine ⟨f, hf, ?_⟩
  rw [SGCN.decode_sgcn96 hB hb hl] at hx
  obtain ⟨g, hg, hx⟩ := bind_ok_iff.1 hx
  obtain ⟨C, D, rfl, hC, hD, hCne, hDne, henc⟩ := reencode (t := SGCN.table) (by decide) hF (W := 44) (by decide) hFl hg (by
    intro r hr hK hp
    have key : ∀ r ∈ SGCN.table, r.K = 0 → r.P = 0 ∧ r.M = 40 := by decide
    obtain ⟨k1, k2⟩ := key r hr hK
    rw [field_take (by decide), k1] at hp
    rw [k2, List.drop_take, List.drop_drop]
    exact hz hp)
  obtain ⟨S, hS, hx⟩ := bind_ok_iff.1 hx
  obtain ⟨hS1, hS2, hS3⟩ := decodeNumeric_inv (bits_take (bits_drop hB 55) 41) (field_length (by omega)) hS
  have hnew := new_of_fromTagUri (n := SGCN.Coding.value .sgcn96) (by decide) (num_natStr _) hx
  have he : py "urn:epc:id:" ++ (split '-' (SGCN.Coding.value .sgcn96)).headD [] ++ ':' :: ((C ++ '.' :: D) ++ '.' :: S) =
      py "urn:epc:id:sgcn" ++ ':' :: (C ++ '.' :: (D ++ '.' :: S)) := by
    rw [show (split '-' (SGCN.Coding.value .sgcn96)).headD [] = py "sgcn" from by decide]
    simp
  rw [he, SGCN.new_eq ⟨hCne, dec_digits hC⟩ (dec_digits hD) ⟨hS2, dec_digits hS1⟩] at hnew
  simp only [unit_bind_ok, pure_ok, Except.ok.injEq] at hnew
  obtain ⟨hgd, rfl⟩ := hnew
  simp only [guard_ok_iff, decide_eq_true_eq] at hgd
  unfold SGCN.binary
  rw [filter_ok, ok_bind]
  dsimp only
  rw [henc, ok_bind, hS3 hgd.2.1, ok_bind, pure_ok, hfb]
  refine congrArg _ ?_
  rw [← take_split4 hb (W := 44) (n := 96) (by decide)]
  simp [SGCN.Coding.header]

theorem C30_gid96 (b : Str) (x : GID) (hB : Bits b) (hb : b.take 8 = py "00110101") (hx : GID.fromBinary b = .ok x) :
    x.binary .gid96 = .ok (b.take 96) := by
  by_cases hl : 96 ≤ b.length
  case neg =>
    unfold GID.fromBinary at hx
    rw [parseHeader_short (cs := GID.Coding.gid96) (p := py "gid") (sz := py "96") (n := 96) hb (by decide) (by decide) (by decide) (by decide)
      (by omega), error_bind] at hx
    cases hx
  unfold GID.fromBinary at hx
  rw [parseHeader_fixed (cs := GID.Coding.gid96) (p := py "gid") (sz := py "96") (n := 96) hb (by decide) (by decide) (by decide) (by decide) hl, ok_bind] at hx
  dsimp only at hx
  have w : ∀ {lo k : Nat}, lo + k ≤ 96 → 0 < k → binIntStr ((b.drop lo).take k) = .ok (natStr (bitsNumber ((b.drop lo).take k))) ∧
      bin k (bitsNumber ((b.drop lo).take k)) = (b.drop lo).take k := by
    intro lo k h1 h2
    have hb' := bits_take (bits_drop hB lo) k
    exact ⟨binIntStr_bits hb' (ne_nil_of_length (field_length (by omega)) h2), bin_bitsNumber hb' (field_length (by omega)) h2⟩
  rw [slice_of_take (by decide), (w (by decide) (by decide)).1, ok_bind, slice_of_take (by decide), (w (by decide) (by decide)).1, ok_bind,
    drop_of_take, (w (by decide) (by decide)).1, ok_bind] at hx
  have w1 := (w (lo := 8) (k := 36 - 8) (by decide) (by decide)).2
  have w2 := (w (lo := 36) (k := 60 - 36) (by decide) (by decide)).2
  have w3 := (w (lo := 60) (k := 96 - 60) (by decide) (by decide)).2
  generalize bitsNumber ((b.drop 8).take (36 - 8)) = m at *
  generalize bitsNumber ((b.drop 36).take (60 - 36)) = o at *
  generalize bitsNumber ((b.drop 60).take (96 - 60)) = s at *
  have hcol : ':' ∉ natStr m ++ '.' :: (natStr o ++ '.' :: natStr s) := by
    have c1 := no_colon_digits (Digits_natStr m)
    have c2 := no_colon_digits (Digits_natStr o)
    have c3 := no_colon_digits (Digits_natStr s)
    simp only [List.mem_append, List.mem_cons, not_or]
    exact ⟨c1, by decide, c2, by decide, c3⟩
  unfold GID.fromTagUri at hx
  have e : tagUriPrefix ++ GID.Coding.value .gid96 ++ ':' :: natStr m ++ '.' :: natStr o ++ '.' :: natStr s =
      tagUriPrefix ++ GID.Coding.value .gid96 ++ ':' :: (natStr m ++ '.' :: (natStr o ++ '.' :: natStr s)) := by simp
  rw [e, fromTagUri_nofilter (by decide), split_notMem hcol] at hx
  split at hx
  case isFalse => cases hx
  have he : py "urn:epc:id:" ++ (split '-' (GID.Coding.value .gid96)).headD [] ++ ':' :: [natStr m ++ '.' :: (natStr o ++ '.' :: natStr s)].headD [] =
      py "urn:epc:id:gid" ++ ':' :: (natStr m ++ '.' :: (natStr o ++ '.' :: natStr s)) := by
    rw [show (split '-' (GID.Coding.value .gid96)).headD [] = py "gid" from by decide]
    simp
  rw [he, GID.new_eq (num_natStr m) (num_natStr o) (num_natStr s)] at hx
  simp only [unit_bind_ok, pure_ok, Except.ok.injEq] at hx
  obtain ⟨_, _, _, rfl⟩ := hx
  unfold GID.binary
  dsimp only
  rw [strToBinary_natStr, ok_bind, strToBinary_natStr, ok_bind, strToBinary_natStr, ok_bind, pure_ok, w1, w2, w3]
  refine congrArg _ ?_
  rw [show (96 : Nat) = 8 + (28 + (24 + 36)) from rfl, List.take_add, List.take_add, List.take_add, hb, List.drop_drop, List.drop_drop]
  simp [GID.Coding.header]

/-- Two bit strings that differ in the ignored reference field decode to the same object. -/
theorem C30_claim_false : ¬ ∀ (b : Str) (x : SGLN), Bits b → b.take 8 = py "00110010" → SGLN.fromBinary b = .ok x →
    ∃ f : Fin 8, f.val = bitsNumber ((b.drop 8).take 3) ∧ x.binary .sgln96 f = .ok (b.take 96) := by
  intro h
  have hw : (do
      let x ← SGLN.fromBinary (py "001100100110000001110010111110100110010001101000010100100000000000000000000000000000000000000101")
      let y ← x.binary .sgln96 3
      return decide (y ≠ py "001100100110000001110010111110100110010001101000010100100000000000000000000000000000000000000101") : Except Err Bool) = .ok true := by decide +kernel
  simp only [bind_ok_iff, pure_ok, Except.ok.injEq, decide_eq_true_eq] at hw
  obtain ⟨x, hx, y, hy, hne⟩ := hw
  obtain ⟨f, hf, hb⟩ := h _ x (by decide) (by decide) hx
  have : f = 3 := Fin.ext (by rw [hf]; decide +kernel)
  rw [this, hy] at hb
  injection hb with hb
  exact hne hb

example : (SGTIN.fromBinary (py "001100000001011001000101000111111101010000001100000011100100000000000000000000000000000000000001")).isOk = true := by decide +kernel

end Epc
