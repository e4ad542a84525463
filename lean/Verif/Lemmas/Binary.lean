/-
The exact form of the binary encodings of SGTIN, SGLN, GRAI, GDTI, SGCN, SSCC, GSRN and GSRNP, and what decoding makes of them.
Generated by tools/gen_binary.py.
-/
import Verif.Lemmas.BinOk

namespace Epc
open Spec Re

theorem SGTIN.binOk_sgtin96 {u : Str} {x : SGTIN} (ha : Ascii u) (hu : SGTIN.new u = .ok x)
    (hs : Numeral x.serial ∧ number x.serial < 2 ^ 38) :
    ∃ rest, rest.length = 85 ∧
      BinOk x (x.binary .sgtin96) SGTIN.fromBinary (Coding.header .sgtin96) (fun f : Fin 8 => bin 3 f) rest := by
  obtain ⟨C, D, S, ⟨hC, hD, hS⟩, hlen, e, rfl⟩ := SGTIN.new_iff.1 hu
  obtain ⟨aC, aD, aS⟩ := ascii_uri3 (e ▸ ha)
  obtain ⟨p, p1, p2, p3, p4⟩ := part_ok (t := SGTIN.table) (W := 47) (T := 13) (by decide) (by decide) (by decide) (by decide)
    (digits_of_dec_ascii hC.2 aC) (digits_of_dec_ascii hD.2 aD) (by omega) (by omega) (by omega)
  dsimp only at hs
  obtain ⟨s1, s2⟩ := numeral_bin hs.1 38
  have s3 : (bin 38 (number S)).length = 38 := length_bin (by omega) hs.2
  have sB : Bits (bin 38 (number S)) := Bits_bin _ _
  refine ⟨p ++ bin 38 (number S), by simp; omega, Bits_append.2 ⟨p2, sB⟩, fun f => ?_, fun f tail => ?_⟩
  · unfold SGTIN.binary
    rw [filter_ok, ok_bind]
    dsimp only
    rw [p1, ok_bind, if_pos rfl, s1, ok_bind, pure_ok]
    simp
  · have hf := length_bin3 f
    have hh : (Coding.header .sgtin96).length = 8 := rfl
    unfold SGTIN.fromBinary
    rw [parseHeader_frame (cs := Coding.sgtin96) (p := py "sgtin") (sz := py "96") (n := 96) rfl (by decide) (by decide) (by decide)
      (by decide) (by simp; omega), ok_bind]
    dsimp only
    rw [slice_append (by omega) (by omega), binaryToInt_bin, ok_bind, slice_append2 (by omega) (by omega)]
    have p4' := p4 []
    rw [List.append_nil] at p4'
    rw [p4', ok_bind, drop_append3 (by omega), if_pos rfl, s2, ok_bind, intStr_ofNat]
    refine Eq.trans (congrArg _ ?_) (SGTIN.fromTagUri_of_new (cs := .sgtin96) (f := natStr f) (b := C ++ '.' :: (D ++ '.' :: S)) (num_natStr _)
      (by rw [← hu, e]; rfl))
    simp

theorem SGTIN.binOk_sgtin198 {u : Str} {x : SGTIN} (ha : Ascii u) (hu : SGTIN.new u = .ok x)
    (hs : Canonical x.serial) :
    ∃ rest, rest.length = 187 ∧
      BinOk x (x.binary .sgtin198) SGTIN.fromBinary (Coding.header .sgtin198) (fun f : Fin 8 => bin 3 f) rest := by
  obtain ⟨C, D, S, ⟨hC, hD, hS⟩, hlen, e, rfl⟩ := SGTIN.new_iff.1 hu
  obtain ⟨aC, aD, aS⟩ := ascii_uri3 (e ▸ ha)
  obtain ⟨p, p1, p2, p3, p4⟩ := part_ok (t := SGTIN.table) (W := 47) (T := 13) (by decide) (by decide) (by decide) (by decide)
    (digits_of_dec_ascii hC.2 aC) (digits_of_dec_ascii hD.2 aD) (by omega) (by omega) (by omega)
  dsimp only at hs
  obtain ⟨raw, hne, hraw, rfl⟩ := hs
  have hl : raw.length ≤ 20 := by have := hlen; rw [replaceUriEscapes_escape] at this; omega
  obtain ⟨sb, s1, sB, s3, s2⟩ := canonical_bin hraw (w := 140) (by omega)
  refine ⟨p ++ sb, by simp; omega, Bits_append.2 ⟨p2, sB⟩, fun f => ?_, fun f tail => ?_⟩
  · unfold SGTIN.binary
    rw [filter_ok, ok_bind]
    dsimp only
    rw [p1, ok_bind, if_neg (by decide), s1, ok_bind, pure_ok]
    simp
  · have hf := length_bin3 f
    have hh : (Coding.header .sgtin198).length = 8 := rfl
    unfold SGTIN.fromBinary
    rw [parseHeader_frame (cs := Coding.sgtin198) (p := py "sgtin") (sz := py "198") (n := 198) rfl (by decide) (by decide) (by decide)
      (by decide) (by simp; omega), ok_bind]
    dsimp only
    rw [slice_append (by omega) (by omega), binaryToInt_bin, ok_bind, slice_append2 (by omega) (by omega)]
    have p4' := p4 []
    rw [List.append_nil] at p4'
    rw [p4', ok_bind, drop_append3 (by omega), if_neg (by decide), s2, ok_bind, intStr_ofNat]
    refine Eq.trans (congrArg _ ?_) (SGTIN.fromTagUri_of_new (cs := .sgtin198) (f := natStr f) (b := C ++ '.' :: (D ++ '.' :: escape raw)) (num_natStr _)
      (by rw [← hu, e]; rfl))
    simp

theorem SGLN.binOk_sgln96 {u : Str} {x : SGLN} (ha : Ascii u) (hu : SGLN.new u = .ok x)
    (hs : Numeral x.serial ∧ number x.serial < 2 ^ 41) :
    ∃ rest, rest.length = 85 ∧
      BinOk x (x.binary .sgln96) SGLN.fromBinary (Coding.header .sgln96) (fun f : Fin 8 => bin 3 f) rest := by
  obtain ⟨C, D, S, ⟨hC, hD, hS⟩, hlen, e, rfl⟩ := SGLN.new_iff.1 hu
  obtain ⟨aC, aD, aS⟩ := ascii_uri3 (e ▸ ha)
  obtain ⟨p, p1, p2, p3, p4⟩ := part_ok (t := SGLN.table) (W := 44) (T := 12) (by decide) (by decide) (by decide) (by decide)
    (digits_of_dec_ascii hC.2 aC) (digits_of_dec_ascii hD aD) (by omega) (by omega) (by omega)
  dsimp only at hs
  obtain ⟨s1, s2⟩ := numeral_bin hs.1 41
  have s3 : (bin 41 (number S)).length = 41 := length_bin (by omega) hs.2
  have sB : Bits (bin 41 (number S)) := Bits_bin _ _
  refine ⟨p ++ bin 41 (number S), by simp; omega, Bits_append.2 ⟨p2, sB⟩, fun f => ?_, fun f tail => ?_⟩
  · unfold SGLN.binary
    rw [filter_ok, ok_bind]
    dsimp only
    rw [p1, ok_bind, if_pos rfl, s1, ok_bind, pure_ok]
    simp
  · have hf := length_bin3 f
    have hh : (Coding.header .sgln96).length = 8 := rfl
    unfold SGLN.fromBinary
    rw [parseHeader_frame (cs := Coding.sgln96) (p := py "sgln") (sz := py "96") (n := 96) rfl (by decide) (by decide) (by decide)
      (by decide) (by simp; omega), ok_bind]
    dsimp only
    rw [slice_append (by omega) (by omega), binaryToInt_bin, ok_bind, slice_append2 (by omega) (by omega)]
    have p4' := p4 []
    rw [List.append_nil] at p4'
    rw [p4', ok_bind, drop_append3 (by omega), if_pos rfl, s2, ok_bind, intStr_ofNat]
    refine Eq.trans (congrArg _ ?_) (SGLN.fromTagUri_of_new (cs := .sgln96) (f := natStr f) (b := C ++ '.' :: (D ++ '.' :: S)) (num_natStr _)
      (by rw [← hu, e]; rfl))
    simp

theorem SGLN.binOk_sgln195 {u : Str} {x : SGLN} (ha : Ascii u) (hu : SGLN.new u = .ok x)
    (hs : Canonical x.serial) :
    ∃ rest, rest.length = 184 ∧
      BinOk x (x.binary .sgln195) SGLN.fromBinary (Coding.header .sgln195) (fun f : Fin 8 => bin 3 f) rest := by
  obtain ⟨C, D, S, ⟨hC, hD, hS⟩, hlen, e, rfl⟩ := SGLN.new_iff.1 hu
  obtain ⟨aC, aD, aS⟩ := ascii_uri3 (e ▸ ha)
  obtain ⟨p, p1, p2, p3, p4⟩ := part_ok (t := SGLN.table) (W := 44) (T := 12) (by decide) (by decide) (by decide) (by decide)
    (digits_of_dec_ascii hC.2 aC) (digits_of_dec_ascii hD aD) (by omega) (by omega) (by omega)
  dsimp only at hs
  obtain ⟨raw, hne, hraw, rfl⟩ := hs
  have hl : raw.length ≤ 20 := by have := hlen; rw [replaceUriEscapes_escape] at this; omega
  obtain ⟨sb, s1, sB, s3, s2⟩ := canonical_bin hraw (w := 140) (by omega)
  refine ⟨p ++ sb, by simp; omega, Bits_append.2 ⟨p2, sB⟩, fun f => ?_, fun f tail => ?_⟩
  · unfold SGLN.binary
    rw [filter_ok, ok_bind]
    dsimp only
    rw [p1, ok_bind, if_neg (by decide), s1, ok_bind, pure_ok]
    simp
  · have hf := length_bin3 f
    have hh : (Coding.header .sgln195).length = 8 := rfl
    unfold SGLN.fromBinary
    rw [parseHeader_frame (cs := Coding.sgln195) (p := py "sgln") (sz := py "195") (n := 195) rfl (by decide) (by decide) (by decide)
      (by decide) (by simp; omega), ok_bind]
    dsimp only
    rw [slice_append (by omega) (by omega), binaryToInt_bin, ok_bind, slice_append2 (by omega) (by omega)]
    have p4' := p4 []
    rw [List.append_nil] at p4'
    rw [p4', ok_bind, drop_append3 (by omega), if_neg (by decide), s2, ok_bind, intStr_ofNat]
    refine Eq.trans (congrArg _ ?_) (SGLN.fromTagUri_of_new (cs := .sgln195) (f := natStr f) (b := C ++ '.' :: (D ++ '.' :: escape raw)) (num_natStr _)
      (by rw [← hu, e]; rfl))
    simp

theorem GRAI.binOk_grai96 {u : Str} {x : GRAI} (ha : Ascii u) (hu : GRAI.new u = .ok x)
    (hs : Numeral x.serial ∧ number x.serial < 2 ^ 38) :
    ∃ rest, rest.length = 85 ∧
      BinOk x (x.binary .grai96) GRAI.fromBinary (Coding.header .grai96) (fun f : Fin 8 => bin 3 f) rest := by
  obtain ⟨C, D, S, ⟨hC, hD, hS⟩, hlen, e, rfl⟩ := GRAI.new_iff.1 hu
  obtain ⟨aC, aD, aS⟩ := ascii_uri3 (e ▸ ha)
  obtain ⟨p, p1, p2, p3, p4⟩ := part_ok (t := GRAI.table) (W := 47) (T := 12) (by decide) (by decide) (by decide) (by decide)
    (digits_of_dec_ascii hC.2 aC) (digits_of_dec_ascii hD aD) (by omega) (by omega) (by omega)
  dsimp only at hs
  obtain ⟨s1, s2⟩ := numeral_bin hs.1 38
  have s3 : (bin 38 (number S)).length = 38 := length_bin (by omega) hs.2
  have sB : Bits (bin 38 (number S)) := Bits_bin _ _
  refine ⟨p ++ bin 38 (number S), by simp; omega, Bits_append.2 ⟨p2, sB⟩, fun f => ?_, fun f tail => ?_⟩
  · unfold GRAI.binary
    rw [filter_ok, ok_bind]
    dsimp only
    rw [p1, ok_bind, if_pos rfl, s1, ok_bind, pure_ok]
    simp
  · have hf := length_bin3 f
    have hh : (Coding.header .grai96).length = 8 := rfl
    unfold GRAI.fromBinary
    rw [parseHeader_frame (cs := Coding.grai96) (p := py "grai") (sz := py "96") (n := 96) rfl (by decide) (by decide) (by decide)
      (by decide) (by simp; omega), ok_bind]
    dsimp only
    rw [slice_append (by omega) (by omega), binaryToInt_bin, ok_bind, slice_append2 (by omega) (by omega)]
    have p4' := p4 []
    rw [List.append_nil] at p4'
    rw [p4', ok_bind, drop_append3 (by omega), if_pos rfl, s2, ok_bind, intStr_ofNat]
    refine Eq.trans (congrArg _ ?_) (GRAI.fromTagUri_of_new (cs := .grai96) (f := natStr f) (b := C ++ '.' :: (D ++ '.' :: S)) (num_natStr _)
      (by rw [← hu, e]; rfl))
    simp

theorem GRAI.binOk_grai170 {u : Str} {x : GRAI} (ha : Ascii u) (hu : GRAI.new u = .ok x)
    (hs : Canonical x.serial) :
    ∃ rest, rest.length = 159 ∧
      BinOk x (x.binary .grai170) GRAI.fromBinary (Coding.header .grai170) (fun f : Fin 8 => bin 3 f) rest := by
  obtain ⟨C, D, S, ⟨hC, hD, hS⟩, hlen, e, rfl⟩ := GRAI.new_iff.1 hu
  obtain ⟨aC, aD, aS⟩ := ascii_uri3 (e ▸ ha)
  obtain ⟨p, p1, p2, p3, p4⟩ := part_ok (t := GRAI.table) (W := 47) (T := 12) (by decide) (by decide) (by decide) (by decide)
    (digits_of_dec_ascii hC.2 aC) (digits_of_dec_ascii hD aD) (by omega) (by omega) (by omega)
  dsimp only at hs
  obtain ⟨raw, hne, hraw, rfl⟩ := hs
  have hl : raw.length ≤ 16 := by have := length_le_escape raw; omega
  obtain ⟨sb, s1, sB, s3, s2⟩ := canonical_bin hraw (w := 112) (by omega)
  refine ⟨p ++ sb, by simp; omega, Bits_append.2 ⟨p2, sB⟩, fun f => ?_, fun f tail => ?_⟩
  · unfold GRAI.binary
    rw [filter_ok, ok_bind]
    dsimp only
    rw [p1, ok_bind, if_neg (by decide), s1, ok_bind, pure_ok]
    simp
  · have hf := length_bin3 f
    have hh : (Coding.header .grai170).length = 8 := rfl
    unfold GRAI.fromBinary
    rw [parseHeader_frame (cs := Coding.grai170) (p := py "grai") (sz := py "170") (n := 170) rfl (by decide) (by decide) (by decide)
      (by decide) (by simp; omega), ok_bind]
    dsimp only
    rw [slice_append (by omega) (by omega), binaryToInt_bin, ok_bind, slice_append2 (by omega) (by omega)]
    have p4' := p4 []
    rw [List.append_nil] at p4'
    rw [p4', ok_bind, drop_append3 (by omega), if_neg (by decide), s2, ok_bind, intStr_ofNat]
    refine Eq.trans (congrArg _ ?_) (GRAI.fromTagUri_of_new (cs := .grai170) (f := natStr f) (b := C ++ '.' :: (D ++ '.' :: escape raw)) (num_natStr _)
      (by rw [← hu, e]; rfl))
    simp

theorem GDTI.binOk_gdti96 {u : Str} {x : GDTI} (ha : Ascii u) (hu : GDTI.new u = .ok x)
    (hs : Numeral x.serial ∧ number x.serial < 2 ^ 41) :
    ∃ rest, rest.length = 85 ∧
      BinOk x (x.binary .gdti96) GDTI.fromBinary (Coding.header .gdti96) (fun f : Fin 8 => bin 3 f) rest := by
  obtain ⟨C, D, S, ⟨hC, hD, hS⟩, hlen, e, rfl⟩ := GDTI.new_iff.1 hu
  obtain ⟨aC, aD, aS⟩ := ascii_uri3 (e ▸ ha)
  obtain ⟨p, p1, p2, p3, p4⟩ := part_ok (t := GDTI.table) (W := 44) (T := 12) (by decide) (by decide) (by decide) (by decide)
    (digits_of_dec_ascii hC.2 aC) (digits_of_dec_ascii hD aD) (by omega) (by omega) (by omega)
  dsimp only at hs
  obtain ⟨s1, s2⟩ := numeral_bin hs.1 41
  have s3 : (bin 41 (number S)).length = 41 := length_bin (by omega) hs.2
  have sB : Bits (bin 41 (number S)) := Bits_bin _ _
  refine ⟨p ++ bin 41 (number S), by simp; omega, Bits_append.2 ⟨p2, sB⟩, fun f => ?_, fun f tail => ?_⟩
  · unfold GDTI.binary
    rw [filter_ok, ok_bind]
    dsimp only
    rw [p1, ok_bind, if_pos rfl, s1, ok_bind, pure_ok]
    simp
  · have hf := length_bin3 f
    have hh : (Coding.header .gdti96).length = 8 := rfl
    unfold GDTI.fromBinary
    rw [parseHeader_frame (cs := Coding.gdti96) (p := py "gdti") (sz := py "96") (n := 96) rfl (by decide) (by decide) (by decide)
      (by decide) (by simp; omega), ok_bind]
    dsimp only
    rw [slice_append (by omega) (by omega), binaryToInt_bin, ok_bind, slice_append2 (by omega) (by omega)]
    have p4' := p4 []
    rw [List.append_nil] at p4'
    rw [p4', ok_bind, drop_append3 (by omega), if_pos rfl, s2, ok_bind, intStr_ofNat]
    refine Eq.trans (congrArg _ ?_) (GDTI.fromTagUri_of_new (cs := .gdti96) (f := natStr f) (b := C ++ '.' :: (D ++ '.' :: S)) (num_natStr _)
      (by rw [← hu, e]; rfl))
    simp

theorem GDTI.binOk_gdti174 {u : Str} {x : GDTI} (ha : Ascii u) (hu : GDTI.new u = .ok x)
    (hs : Canonical x.serial) :
    ∃ rest, rest.length = 163 ∧
      BinOk x (x.binary .gdti174) GDTI.fromBinary (Coding.header .gdti174) (fun f : Fin 8 => bin 3 f) rest := by
  obtain ⟨C, D, S, ⟨hC, hD, hS⟩, hlen, e, rfl⟩ := GDTI.new_iff.1 hu
  obtain ⟨aC, aD, aS⟩ := ascii_uri3 (e ▸ ha)
  obtain ⟨p, p1, p2, p3, p4⟩ := part_ok (t := GDTI.table) (W := 44) (T := 12) (by decide) (by decide) (by decide) (by decide)
    (digits_of_dec_ascii hC.2 aC) (digits_of_dec_ascii hD aD) (by omega) (by omega) (by omega)
  dsimp only at hs
  obtain ⟨raw, hne, hraw, rfl⟩ := hs
  have hl : raw.length ≤ 17 := by have := length_le_escape raw; omega
  obtain ⟨sb, s1, sB, s3, s2⟩ := canonical_bin hraw (w := 119) (by omega)
  refine ⟨p ++ sb, by simp; omega, Bits_append.2 ⟨p2, sB⟩, fun f => ?_, fun f tail => ?_⟩
  · unfold GDTI.binary
    rw [filter_ok, ok_bind]
    dsimp only
    rw [p1, ok_bind, if_neg (by decide), s1, ok_bind, pure_ok]
    simp
  · have hf := length_bin3 f
    have hh : (Coding.header .gdti174).length = 8 := rfl
    unfold GDTI.fromBinary
    rw [parseHeader_frame (cs := Coding.gdti174) (p := py "gdti") (sz := py "174") (n := 174) rfl (by decide) (by decide) (by decide)
      (by decide) (by simp; omega), ok_bind]
    dsimp only
    rw [slice_append (by omega) (by omega), binaryToInt_bin, ok_bind, slice_append2 (by omega) (by omega)]
    have p4' := p4 []
    rw [List.append_nil] at p4'
    rw [p4', ok_bind, drop_append3 (by omega), if_neg (by decide), s2, ok_bind, intStr_ofNat]
    refine Eq.trans (congrArg _ ?_) (GDTI.fromTagUri_of_new (cs := .gdti174) (f := natStr f) (b := C ++ '.' :: (D ++ '.' :: escape raw)) (num_natStr _)
      (by rw [← hu, e]; rfl))
    simp

theorem SGCN.binOk_sgcn96 {u : Str} {x : SGCN} (ha : Ascii u) (hu : SGCN.new u = .ok x) :
    ∃ rest, rest.length = 85 ∧
      BinOk x (x.binary .sgcn96) SGCN.fromBinary (Coding.header .sgcn96) (fun f : Fin 8 => bin 3 f) rest := by
  obtain ⟨C, D, S, ⟨hC, hD, hS⟩, hlen, e, rfl⟩ := SGCN.new_iff.1 hu
  obtain ⟨aC, aD, aS⟩ := ascii_uri3 (e ▸ ha)
  obtain ⟨p, p1, p2, p3, p4⟩ := part_ok (t := SGCN.table) (W := 44) (T := 12) (by decide) (by decide) (by decide) (by decide)
    (digits_of_dec_ascii hC.2 aC) (digits_of_dec_ascii hD aD) (by omega) (by omega) (by omega)
  have dS := digits_of_dec_ascii hS.2 aS
  have hw : 2 * 10 ^ S.length < 2 ^ 41 :=
    Nat.lt_of_le_of_lt (Nat.mul_le_mul_left 2 (Nat.pow_le_pow_right (by decide) hlen.2.1)) (by decide)
  have s1 := encodeNumeric_ok dS hw
  have s2 := decodeNumeric_ok (w := 41) dS hS.1
  have s3 : (bin 41 (number ('1' :: S))).length = 41 := length_bin (by omega) (numeric_lt dS hw)
  have sB : Bits (bin 41 (number ('1' :: S))) := Bits_bin _ _
  refine ⟨p ++ bin 41 (number ('1' :: S)), by simp; omega, Bits_append.2 ⟨p2, sB⟩, fun f => ?_, fun f tail => ?_⟩
  · unfold SGCN.binary
    rw [filter_ok, ok_bind]
    dsimp only
    rw [p1, ok_bind, s1, ok_bind, pure_ok]
    simp
  · have hf := length_bin3 f
    have hh : (Coding.header .sgcn96).length = 8 := rfl
    unfold SGCN.fromBinary
    rw [parseHeader_frame (cs := Coding.sgcn96) (p := py "sgcn") (sz := py "96") (n := 96) rfl (by decide) (by decide) (by decide)
      (by decide) (by simp; omega), ok_bind]
    dsimp only
    rw [slice_append (by omega) (by omega), binaryToInt_bin, ok_bind, slice_append2 (by omega) (by omega)]
    have p4' := p4 []
    rw [List.append_nil] at p4'
    rw [p4', ok_bind, drop_append3 (by omega), s2, ok_bind, intStr_ofNat]
    refine Eq.trans (congrArg _ ?_) (SGCN.fromTagUri_of_new (cs := .sgcn96) (f := natStr f) (b := C ++ '.' :: (D ++ '.' :: S)) (num_natStr _)
      (by rw [← hu, e]; rfl))
    simp

theorem SSCC.binOk_sscc96 {u : Str} {x : SSCC} (ha : Ascii u) (hu : SSCC.new u = .ok x) :
    ∃ rest, rest.length = 85 ∧
      BinOk x (x.binary .sscc96) SSCC.fromBinary (Coding.header .sscc96) (fun f : Fin 8 => bin 3 f) rest := by
  obtain ⟨C, D, ⟨hC, hD⟩, hlen, e, rfl⟩ := SSCC.new_iff.1 hu
  obtain ⟨aC, aD⟩ := ascii_uri2 (e ▸ ha)
  obtain ⟨p, p1, p2, p3, p4⟩ := part_ok (t := SSCC.table) (W := 61) (T := 17) (by decide) (by decide) (by decide) (by decide)
    (digits_of_dec_ascii hC.2 aC) (digits_of_dec_ascii hD.2 aD) (by omega) (by omega) (by omega)
  have s3 : (List.replicate 24 '0').length = 24 := List.length_replicate ..
  have sB : Bits (List.replicate 24 '0') := fun c hc => .inl (List.eq_of_mem_replicate hc)
  refine ⟨p ++ List.replicate 24 '0', by simp; omega, Bits_append.2 ⟨p2, sB⟩, fun f => ?_, fun f tail => ?_⟩
  · unfold SSCC.binary
    rw [filter_ok, ok_bind]
    dsimp only
    rw [p1, ok_bind, pure_ok]
    simp
  · have hf := length_bin3 f
    have hh : (Coding.header .sscc96).length = 8 := rfl
    unfold SSCC.fromBinary
    rw [parseHeader_frame (cs := Coding.sscc96) (p := py "sscc") (sz := py "96") (n := 96) rfl (by decide) (by decide) (by decide)
      (by decide) (by simp; omega), ok_bind]
    dsimp only
    rw [slice_append (by omega) (by omega), binaryToInt_bin, ok_bind, slice_append2 (by omega) (by omega)]
    have p4' := p4 []
    rw [List.append_nil] at p4'
    rw [p4', ok_bind, intStr_ofNat]
    refine Eq.trans (congrArg _ ?_) (SSCC.fromTagUri_of_new (cs := .sscc96) (f := natStr f) (b := C ++ '.' :: D) (num_natStr _)
      (by rw [← hu, e]; rfl))
    simp

theorem GSRN.binOk_gsrn96 {u : Str} {x : GSRN} (ha : Ascii u) (hu : GSRN.new u = .ok x) :
    ∃ rest, rest.length = 85 ∧
      BinOk x (x.binary .gsrn96) GSRN.fromBinary (Coding.header .gsrn96) (fun f : Fin 8 => bin 3 f) rest := by
  obtain ⟨C, D, ⟨hC, hD⟩, hlen, e, rfl⟩ := GSRN.new_iff.1 hu
  obtain ⟨aC, aD⟩ := ascii_uri2 (e ▸ ha)
  obtain ⟨p, p1, p2, p3, p4⟩ := part_ok (t := GSRN.table) (W := 61) (T := 17) (by decide) (by decide) (by decide) (by decide)
    (digits_of_dec_ascii hC.2 aC) (digits_of_dec_ascii hD.2 aD) (by omega) (by omega) (by omega)
  have s3 : (List.replicate 24 '0').length = 24 := List.length_replicate ..
  have sB : Bits (List.replicate 24 '0') := fun c hc => .inl (List.eq_of_mem_replicate hc)
  refine ⟨p ++ List.replicate 24 '0', by simp; omega, Bits_append.2 ⟨p2, sB⟩, fun f => ?_, fun f tail => ?_⟩
  · unfold GSRN.binary
    rw [filter_ok, ok_bind]
    dsimp only
    rw [p1, ok_bind, pure_ok]
    simp
  · have hf := length_bin3 f
    have hh : (Coding.header .gsrn96).length = 8 := rfl
    unfold GSRN.fromBinary
    rw [parseHeader_frame (cs := Coding.gsrn96) (p := py "gsrn") (sz := py "96") (n := 96) rfl (by decide) (by decide) (by decide)
      (by decide) (by simp; omega), ok_bind]
    dsimp only
    rw [slice_append (by omega) (by omega), binaryToInt_bin, ok_bind, slice_append2 (by omega) (by omega)]
    have p4' := p4 []
    rw [List.append_nil] at p4'
    rw [p4', ok_bind, intStr_ofNat]
    refine Eq.trans (congrArg _ ?_) (GSRN.fromTagUri_of_new (cs := .gsrn96) (f := natStr f) (b := C ++ '.' :: D) (num_natStr _)
      (by rw [← hu, e]; rfl))
    simp

theorem GSRNP.binOk_gsrnp96 {u : Str} {x : GSRNP} (ha : Ascii u) (hu : GSRNP.new u = .ok x) :
    ∃ rest, rest.length = 85 ∧
      BinOk x (x.binary .gsrnp96) GSRNP.fromBinary (Coding.header .gsrnp96) (fun f : Fin 8 => bin 3 f) rest := by
  obtain ⟨C, D, ⟨hC, hD⟩, hlen, e, rfl⟩ := GSRNP.new_iff.1 hu
  obtain ⟨aC, aD⟩ := ascii_uri2 (e ▸ ha)
  obtain ⟨p, p1, p2, p3, p4⟩ := part_ok (t := GSRNP.table) (W := 61) (T := 17) (by decide) (by decide) (by decide) (by decide)
    (digits_of_dec_ascii hC.2 aC) (digits_of_dec_ascii hD.2 aD) (by omega) (by omega) (by omega)
  have s3 : (List.replicate 24 '0').length = 24 := List.length_replicate ..
  have sB : Bits (List.replicate 24 '0') := fun c hc => .inl (List.eq_of_mem_replicate hc)
  refine ⟨p ++ List.replicate 24 '0', by simp; omega, Bits_append.2 ⟨p2, sB⟩, fun f => ?_, fun f tail => ?_⟩
  · unfold GSRNP.binary
    rw [filter_ok, ok_bind]
    dsimp only
    rw [p1, ok_bind, pure_ok]
    simp
  · have hf := length_bin3 f
    have hh : (Coding.header .gsrnp96).length = 8 := rfl
    unfold GSRNP.fromBinary
    rw [parseHeader_frame (cs := Coding.gsrnp96) (p := py "gsrnp") (sz := py "96") (n := 96) rfl (by decide) (by decide) (by decide)
      (by decide) (by simp; omega), ok_bind]
    dsimp only
    rw [slice_append (by omega) (by omega), binaryToInt_bin, ok_bind, slice_append2 (by omega) (by omega)]
    have p4' := p4 []
    rw [List.append_nil] at p4'
    rw [p4', ok_bind, intStr_ofNat]
    refine Eq.trans (congrArg _ ?_) (GSRNP.fromTagUri_of_new (cs := .gsrnp96) (f := natStr f) (b := C ++ '.' :: D) (num_natStr _)
      (by rw [← hu, e]; rfl))
    simp

end Epc
