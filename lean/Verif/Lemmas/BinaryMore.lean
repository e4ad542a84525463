/-
The exact form of the binary encodings of GIAI, ITIP, CPI-96, GID and USDOD, and what decoding makes of them.
-/
import Verif.Lemmas.BinOk

namespace Epc
open Spec Re

theorem slice_append3 {a b c d e : Str} {lo hi : Nat} (hl : a.length + b.length + c.length = lo) (hh : lo + d.length = hi) :
    slice (a ++ (b ++ (c ++ (d ++ e)))) lo hi = d := by
  rw [← List.append_assoc, ← List.append_assoc]
  exact slice_append (by simp; omega) (by simp; omega)

theorem slice_append4 {a b c d e g : Str} {lo hi : Nat} (hl : a.length + b.length + c.length + d.length = lo)
    (hh : lo + e.length = hi) : slice (a ++ (b ++ (c ++ (d ++ (e ++ g))))) lo hi = e := by
  rw [← List.append_assoc, ← List.append_assoc, ← List.append_assoc]
  exact slice_append (by simp; omega) (by simp; omega)

theorem drop_append5 {a b c d e g : Str} {n : Nat} (h : a.length + b.length + c.length + d.length + e.length = n) :
    (a ++ (b ++ (c ++ (d ++ (e ++ g))))).drop n = g := by
  rw [← List.append_assoc, ← List.append_assoc, ← List.append_assoc, ← List.append_assoc]
  exact drop_append_eq (by simp; omega)

theorem encode_plain_unpadded (C D : Str) (t : List Row) :
    encodePartitionTable C D t .plain = encodePartitionTable C D t .unpadded := rfl

theorem GIAI.binOk_giai96 {u : Str} {x : GIAI} (ha : Ascii u) (hu : GIAI.new u = .ok x)
    (he : x.epcUri = py "urn:epc:id:giai:" ++ (x.companyPref ++ '.' :: x.assetRef))
    (hs : Numeral x.assetRef ∧ number x.assetRef < 2 ^ (82 - prefixBits x.companyPref.length)) :
    ∃ rest, rest.length = 85 ∧
      BinOk x (x.binary .giai96) GIAI.fromBinary (Coding.header .giai96) (fun f : Fin 8 => bin 3 f) rest := by
  obtain ⟨C, S, ⟨hC, hS⟩, hlen, e, rfl⟩ := GIAI.new_iff.1 hu
  obtain ⟨aC, aS⟩ := ascii_uri2 (e ▸ ha)
  dsimp only at hs he
  obtain ⟨r, hr, _, hK, hN⟩ := GIAI.row96 hlen.1.1 hlen.1.2
  have hall : ∀ r ∈ GIAI.table96, r.K ≠ 0 ∧ 3 + r.M + r.N = 85 ∧ r.K = 25 - r.L ∧ r.L ≤ 12 := by decide
  have hr2 := hall r hr
  obtain ⟨p, p1, p2, p3, p4⟩ := partition_unpadded (t := GIAI.table96) (r := r) (by decide) hr hr2.1
    (digits_of_dec_ascii hC.2 aC) (by omega) hs.1.1 hs.1.2.1 (by simpa using hs.1.2.2) (hN ▸ hs.2)
  refine ⟨p, by omega, p2, fun f => ?_, fun f tail => ?_⟩
  · unfold GIAI.binary
    rw [filter_ok, ok_bind, if_pos rfl]
    dsimp only
    rw [encode_plain_unpadded, p1, ok_bind, pure_ok]
    simp
  · have hf := length_bin3 f
    have hh : (Coding.header .giai96).length = 8 := rfl
    unfold GIAI.fromBinary
    rw [parseHeader_frame (cs := Coding.giai96) (p := py "giai") (sz := py "96") (n := 96) rfl (by decide) (by decide) (by decide)
      (by decide) (by simp; omega), ok_bind]
    dsimp only
    rw [slice_append (by omega) (by omega), binaryToInt_bin, ok_bind, if_pos rfl, drop_append2 (by omega)]
    have p4' := p4 []
    rw [List.append_nil] at p4'
    rw [p4', ok_bind, intStr_ofNat]
    refine Eq.trans (congrArg _ ?_) (GIAI.fromTagUri_of_new (cs := .giai96) (f := natStr f)
      (b := C ++ '.' :: (split ':' S).headD []) (num_natStr _) (by rw [← hu, he]))
    simp

theorem GIAI.binOk_giai202 {u : Str} {x : GIAI} (ha : Ascii u) (hu : GIAI.new u = .ok x)
    (he : x.epcUri = py "urn:epc:id:giai:" ++ (x.companyPref ++ '.' :: x.assetRef)) (hs : Canonical x.assetRef) :
    ∃ rest, rest.length = 191 ∧
      BinOk x (x.binary .giai202) GIAI.fromBinary (Coding.header .giai202) (fun f : Fin 8 => bin 3 f) rest := by
  obtain ⟨C, S, ⟨hC, hS⟩, hlen, e, rfl⟩ := GIAI.new_iff.1 hu
  obtain ⟨aC, aS⟩ := ascii_uri2 (e ▸ ha)
  dsimp only at hs he
  obtain ⟨raw, hne, hraw, hesc⟩ := hs
  have hl : raw.length ≤ 30 - C.length := by
    have := length_le_escape raw
    rw [← hesc] at this
    omega
  obtain ⟨r, hr, _, hL, _⟩ := rowByL_ok (t := GIAI.table202) hlen.1.1 hlen.1.2 (by decide)
  have hall : ∀ r ∈ GIAI.table202, 3 + r.M + r.N = 191 ∧ 7 * (30 - r.L) ≤ r.N := by decide
  have hr2 := hall r hr
  obtain ⟨p, p1, p2, p3, p4⟩ := partition_string (t := GIAI.table202) (r := r) (raw := raw) (by decide) hr
    (digits_of_dec_ascii hC.2 aC) hL.symm hraw (by omega)
  refine ⟨p, by omega, p2, fun f => ?_, fun f tail => ?_⟩
  · unfold GIAI.binary
    rw [filter_ok, ok_bind, if_neg (by decide)]
    dsimp only
    rw [hesc, p1, ok_bind, pure_ok]
    simp
  · have hf := length_bin3 f
    have hh : (Coding.header .giai202).length = 8 := rfl
    unfold GIAI.fromBinary
    rw [parseHeader_frame (cs := Coding.giai202) (p := py "giai") (sz := py "202") (n := 202) rfl (by decide) (by decide) (by decide)
      (by decide) (by simp; omega), ok_bind]
    dsimp only
    rw [slice_append (by omega) (by omega), binaryToInt_bin, ok_bind, if_neg (by decide), drop_append2 (by omega)]
    have p4' := p4 []
    rw [List.append_nil] at p4'
    rw [p4', ok_bind, intStr_ofNat]
    refine Eq.trans (congrArg _ ?_) (GIAI.fromTagUri_of_new (cs := .giai202) (f := natStr f)
      (b := C ++ '.' :: (split ':' S).headD []) (num_natStr _) (by rw [← hu, he]))
    rw [← hesc]
    simp

theorem ITIP.binOk_itip110 {u : Str} {x : ITIP} (ha : Ascii u) (hu : ITIP.new u = .ok x)
    (hp : x.piece.length = 2 ∧ number x.piece < 99) (ht : x.total.length = 2 ∧ number x.total < 99)
    (hs : Numeral x.serial ∧ number x.serial < 2 ^ 38) :
    ∃ rest, rest.length = 99 ∧
      BinOk x (x.binary .itip110) ITIP.fromBinary (Coding.header .itip110) (fun f : Fin 8 => bin 3 f) rest := by
  obtain ⟨C, D, A, B, S, ⟨hC, hD, hA, hB, hS⟩, hlen, e, rfl⟩ := ITIP.new_iff.1 hu
  obtain ⟨aC, aD, aA, aB, aS⟩ := ascii_uri5 (e ▸ ha)
  dsimp only at hs hp ht
  obtain ⟨p, p1, p2, p3, p4⟩ := part_ok (t := ITIP.table) (W := 47) (T := 13) (by decide) (by decide) (by decide) (by decide)
    (digits_of_dec_ascii hC.2 aC) (digits_of_dec_ascii hD.2 aD) (by omega) (by omega) (by omega)
  obtain ⟨q1, q2, q3⟩ := fixed_ok (digits_of_dec_ascii hA.2 aA) hp.1 hp.2
  obtain ⟨r1, r2, r3⟩ := fixed_ok (digits_of_dec_ascii hB.2 aB) ht.1 ht.2
  obtain ⟨s1, s2⟩ := numeral_bin hs.1 38
  have s3 : (bin 38 (number S)).length = 38 := length_bin (by omega) hs.2
  refine ⟨p ++ (bin 7 (number A) ++ (bin 7 (number B) ++ bin 38 (number S))), by simp; omega,
    Bits_append.2 ⟨p2, Bits_append.2 ⟨Bits_bin _ _, Bits_append.2 ⟨Bits_bin _ _, Bits_bin _ _⟩⟩⟩, fun f => ?_, fun f tail => ?_⟩
  · unfold ITIP.binary
    rw [filter_ok, ok_bind]
    dsimp only
    rw [p1, ok_bind, q1, ok_bind, r1, ok_bind, if_pos rfl, s1, ok_bind, pure_ok]
    simp
  · have hf := length_bin3 f
    have hh : (Coding.header .itip110).length = 8 := rfl
    unfold ITIP.fromBinary
    rw [parseHeader_frame (cs := Coding.itip110) (p := py "itip") (sz := py "110") (n := 110) rfl (by decide) (by decide) (by decide)
      (by decide) (by simp; omega), ok_bind]
    dsimp only
    rw [slice_append (by omega) (by omega), binaryToInt_bin, ok_bind, slice_append2 (by omega) (by omega)]
    have p4' := p4 []
    rw [List.append_nil] at p4'
    rw [p4', ok_bind, slice_append3 (by omega) (by omega), q3, ok_bind, slice_append4 (by omega) (by omega), r3, ok_bind,
      drop_append5 (by omega), if_pos rfl, s2, ok_bind, intStr_ofNat]
    refine Eq.trans (congrArg _ ?_) (ITIP.fromTagUri_of_new (cs := .itip110) (f := natStr f)
      (b := C ++ '.' :: (D ++ '.' :: (A ++ '.' :: (B ++ '.' :: S)))) (num_natStr _) (by rw [← hu, e]; rfl))
    simp

theorem ITIP.binOk_itip212 {u : Str} {x : ITIP} (ha : Ascii u) (hu : ITIP.new u = .ok x)
    (hp : x.piece.length = 2 ∧ number x.piece < 99) (ht : x.total.length = 2 ∧ number x.total < 99)
    (hs : Canonical x.serial) :
    ∃ rest, rest.length = 201 ∧
      BinOk x (x.binary .itip212) ITIP.fromBinary (Coding.header .itip212) (fun f : Fin 8 => bin 3 f) rest := by
  obtain ⟨C, D, A, B, S, ⟨hC, hD, hA, hB, hS⟩, hlen, e, rfl⟩ := ITIP.new_iff.1 hu
  obtain ⟨aC, aD, aA, aB, aS⟩ := ascii_uri5 (e ▸ ha)
  dsimp only at hs hp ht
  obtain ⟨p, p1, p2, p3, p4⟩ := part_ok (t := ITIP.table) (W := 47) (T := 13) (by decide) (by decide) (by decide) (by decide)
    (digits_of_dec_ascii hC.2 aC) (digits_of_dec_ascii hD.2 aD) (by omega) (by omega) (by omega)
  obtain ⟨q1, q2, q3⟩ := fixed_ok (digits_of_dec_ascii hA.2 aA) hp.1 hp.2
  obtain ⟨r1, r2, r3⟩ := fixed_ok (digits_of_dec_ascii hB.2 aB) ht.1 ht.2
  obtain ⟨raw, hne, hraw, rfl⟩ := hs
  have hl : raw.length ≤ 20 := by have := hlen; rw [replaceUriEscapes_escape] at this; omega
  obtain ⟨sb, s1, sB, s3, s2⟩ := canonical_bin hraw (w := 140) (by omega)
  refine ⟨p ++ (bin 7 (number A) ++ (bin 7 (number B) ++ sb)), by simp; omega,
    Bits_append.2 ⟨p2, Bits_append.2 ⟨Bits_bin _ _, Bits_append.2 ⟨Bits_bin _ _, sB⟩⟩⟩, fun f => ?_, fun f tail => ?_⟩
  · unfold ITIP.binary
    rw [filter_ok, ok_bind]
    dsimp only
    rw [p1, ok_bind, q1, ok_bind, r1, ok_bind, if_neg (by decide), s1, ok_bind, pure_ok]
    simp
  · have hf := length_bin3 f
    have hh : (Coding.header .itip212).length = 8 := rfl
    unfold ITIP.fromBinary
    rw [parseHeader_frame (cs := Coding.itip212) (p := py "itip") (sz := py "212") (n := 212) rfl (by decide) (by decide) (by decide)
      (by decide) (by simp; omega), ok_bind]
    dsimp only
    rw [slice_append (by omega) (by omega), binaryToInt_bin, ok_bind, slice_append2 (by omega) (by omega)]
    have p4' := p4 []
    rw [List.append_nil] at p4'
    rw [p4', ok_bind, slice_append3 (by omega) (by omega), q3, ok_bind, slice_append4 (by omega) (by omega), r3, ok_bind,
      drop_append5 (by omega), if_neg (by decide), s2, ok_bind, intStr_ofNat]
    refine Eq.trans (congrArg _ ?_) (ITIP.fromTagUri_of_new (cs := .itip212) (f := natStr f)
      (b := C ++ '.' :: (D ++ '.' :: (A ++ '.' :: (B ++ '.' :: escape raw)))) (num_natStr _) (by rw [← hu, e]; rfl))
    simp

theorem CPI.binOk_cpi96 {u : Str} {x : CPI} (ha : Ascii u) (hu : CPI.new u = .ok x)
    (hs : number x.serial < 2 ^ 31 ∧ Numeral x.cpRef ∧ x.companyPref.length + x.cpRef.length ≤ 15) :
    ∃ rest, rest.length = 85 ∧
      BinOk x (x.binary .cpi96) CPI.fromBinary (Coding.header .cpi96) (fun f : Fin 8 => bin 3 f) rest := by
  obtain ⟨C, D, S, ⟨hC, hD, hS⟩, hlen, e, rfl⟩ := CPI.new_iff.1 hu
  obtain ⟨aC, aD, aS⟩ := ascii_uri3 (e ▸ ha)
  dsimp only at hs
  obtain ⟨r, hr, _, hL, _⟩ := rowByL_ok (t := CPI.table96) hlen.2.2.1 hlen.2.2.2 (by decide)
  have hall : ∀ r ∈ CPI.table96, 3 + r.M + r.N = 54 ∧ 10 ^ (15 - r.L) ≤ 2 ^ r.N ∧ r.K ≠ 0 := by decide
  have hr2 := hall r hr
  have hlt : number D < 2 ^ r.N := by
    refine Nat.lt_of_lt_of_le (number_lt hs.2.1.1) (Nat.le_trans (Nat.pow_le_pow_right (by decide) ?_) hr2.2.1)
    omega
  obtain ⟨p, p1, p2, p3, p4⟩ := partition_unpadded (t := CPI.table96) (r := r) (by decide) hr hr2.2.2
    (digits_of_dec_ascii hC.2 aC) (by omega) hs.2.1.1 hs.2.1.2.1 (by simpa using hs.2.1.2.2) hlt
  obtain ⟨s1, s2⟩ := numeral_bin (numeral_of_num hS aS) 31
  have s3 : (bin 31 (number S)).length = 31 := length_bin (by omega) hs.1
  refine ⟨p ++ bin 31 (number S), by simp; omega, Bits_append.2 ⟨p2, Bits_bin _ _⟩, fun f => ?_, fun f tail => ?_⟩
  · unfold CPI.binary
    rw [filter_ok, ok_bind, if_pos rfl]
    dsimp only
    rw [encode_plain_unpadded, p1, ok_bind, if_pos rfl, s1, ok_bind, pure_ok]
    simp
  · have hf := length_bin3 f
    have hh : (Coding.header .cpi96).length = 8 := rfl
    unfold CPI.fromBinary
    rw [parseHeader_frame (cs := Coding.cpi96) (p := py "cpi") (sz := py "96") (n := 96) rfl (by decide) (by decide) (by decide)
      (by decide) (by simp; omega), ok_bind]
    dsimp only
    have p4' := p4 []
    rw [List.append_nil] at p4'
    have hdp : CPI.decodeParts .cpi96 (Coding.header .cpi96 ++ (bin 3 f ++ (p ++ bin 31 (number S)))) =
        .ok (C ++ '.' :: D, bin 31 (number S)) := by
      unfold CPI.decodeParts
      rw [if_pos rfl, slice_append2 (by omega) (by omega), p4', ok_bind, drop_append3 (by omega), pure_ok]
    rw [hdp, ok_bind]
    dsimp only
    rw [slice_append (by omega) (by omega), binaryToInt_bin, ok_bind, s2, ok_bind, intStr_ofNat]
    refine Eq.trans (congrArg _ ?_) (CPI.fromTagUri_of_new (cs := .cpi96) (f := natStr f)
      (b := C ++ '.' :: (D ++ '.' :: S)) (num_natStr _) (by rw [← hu, e]; rfl))
    simp

theorem GID.binOk_gid96 {u : Str} {x : GID} (ha : Ascii u) (hu : GID.new u = .ok x) :
    ∃ rest, rest.length = 88 ∧
      BinOk x (fun _ : Fin 1 => x.binary .gid96) GID.fromBinary (Coding.header .gid96) (fun _ : Fin 1 => []) rest := by
  obtain ⟨C, D, S, ⟨hC, hD, hS⟩, hlen, e, rfl⟩ := GID.new_iff.1 hu
  obtain ⟨aC, aD, aS⟩ := ascii_uri3 (e ▸ ha)
  have nC := numeral_of_num hC aC
  have nD := numeral_of_num hD aD
  have nS := numeral_of_num hS aS
  rw [decVal_Digits nC.1, decVal_Digits nD.1, decVal_Digits nS.1] at hlen
  obtain ⟨q1, q2⟩ := numeral_bin nC 28
  obtain ⟨r1, r2⟩ := numeral_bin nD 24
  obtain ⟨s1, s2⟩ := numeral_bin nS 36
  have q3 : (bin 28 (number C)).length = 28 := length_bin (by omega) hlen.1
  have r3 : (bin 24 (number D)).length = 24 := length_bin (by omega) hlen.2.1
  have s3 : (bin 36 (number S)).length = 36 := length_bin (by omega) hlen.2.2
  refine ⟨bin 28 (number C) ++ (bin 24 (number D) ++ bin 36 (number S)), by simp; omega,
    Bits_append.2 ⟨Bits_bin _ _, Bits_append.2 ⟨Bits_bin _ _, Bits_bin _ _⟩⟩, fun f => ?_, fun f tail => ?_⟩
  · unfold GID.binary
    dsimp only
    rw [q1, ok_bind, r1, ok_bind, s1, ok_bind, pure_ok]
    simp
  · have hh : (Coding.header .gid96).length = 8 := rfl
    unfold GID.fromBinary
    rw [parseHeader_frame (cs := Coding.gid96) (p := py "gid") (sz := py "96") (n := 96) rfl (by decide) (by decide) (by decide)
      (by decide) (by simp; omega), ok_bind]
    dsimp only
    rw [List.nil_append, slice_append (by omega) (by omega), q2, ok_bind, slice_append2 (by omega) (by omega), r2, ok_bind,
      drop_append3 (by omega), s2, ok_bind]
    refine Eq.trans (congrArg _ ?_) (GID.fromTagUri_of_new (b := C ++ '.' :: (D ++ '.' :: S)) (by rw [← hu, e]; rfl))
    simp

theorem USDOD.binOk_usdod96 {u : Str} {x : USDOD} (ha : Ascii u) (hu : USDOD.new u = .ok x) :
    ∃ rest, rest.length = 84 ∧
      BinOk x (x.binary .usdod96) USDOD.fromBinary (Coding.header .usdod96) (fun f : Fin 16 => bin 4 f) rest := by
  obtain ⟨C, S, ⟨hC, hS⟩, hlen, e, rfl⟩ := USDOD.new_iff.1 hu
  obtain ⟨aC, aS⟩ := ascii_uri2 (e ▸ ha)
  have nS := numeral_of_num hS aS
  rw [decVal_Digits nS.1] at hlen
  obtain ⟨p, p1, p2, p3, p4⟩ := cage_bin hC
  obtain ⟨s1, s2⟩ := numeral_bin nS 36
  have s3 : (bin 36 (number S)).length = 36 := length_bin (by omega) hlen
  refine ⟨p ++ bin 36 (number S), by simp; omega, Bits_append.2 ⟨p2, Bits_bin _ _⟩, fun f => ?_, fun f tail => ?_⟩
  · unfold USDOD.binary
    rw [filter_ok, ok_bind]
    dsimp only
    rw [p1, s1, ok_bind, pure_ok]
    simp
  · have hf : (bin 4 f).length = 4 := length_bin (by omega) (by have := f.isLt; omega)
    have hh : (Coding.header .usdod96).length = 8 := rfl
    unfold USDOD.fromBinary
    rw [parseHeader_frame (cs := Coding.usdod96) (p := py "usdod") (sz := py "96") (n := 96) rfl (by decide) (by decide) (by decide)
      (by decide) (by simp; omega), ok_bind]
    dsimp only
    rw [slice_append (by omega) (by omega), binaryToInt_bin, ok_bind, slice_append2 (by omega) (by omega), p4, ok_bind,
      drop_append3 (by omega), s2, ok_bind, intStr_ofNat]
    refine Eq.trans (congrArg _ ?_) (USDOD.fromTagUri_of_new (cs := .usdod96) (f := natStr f)
      (b := C ++ '.' :: S) (num_natStr _) (by rw [← hu, e]; rfl))
    simp

end Epc
