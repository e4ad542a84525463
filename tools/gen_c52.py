#!/usr/bin/env python3
"""Generates lean/Verif/Props/C52.lean."""
out = ['''/-
C52: decoding of the numeric binary encodings, specified completely.

For every bit string with the header of the encoding and at least its size: if the fields of the standard's layout (Spec/Layout.lean)
hold numbers that have the right number of digits, decoding yields exactly the EPC with these numbers as components; in every other case
decoding raises ConvertException.  Nothing else can happen.
-/
import Verif.Lemmas.Layout
import Verif.Lemmas.DecodeAll

namespace Epc
open Spec Re

/-- The fields of a tag are determined by its bits. -/
theorem C52_fields_unique {b : Str} {W : Nat} {K : Nat → Nat} {C D C' D' : Str} (h : KeyFields b W K C D) (h' : KeyFields b W K C' D') :
    C = C' ∧ D = D' := by
  obtain ⟨p, hp6, hp, hC, hD⟩ := h
  obtain ⟨p', hp6', hp', hC', hD'⟩ := h'
  obtain rfl : p = p' := hp.symm.trans hp'
  refine ⟨((padded_iff (by omega)).1 hC).2.trans ((padded_iff (by omega)).1 hC').2.symm, ?_⟩
  by_cases hk : K p = 0
  · rw [if_pos hk] at hD hD'
    rw [hD, hD']
  · rw [if_neg hk] at hD hD'
    exact ((padded_iff (by omega)).1 hD).2.trans ((padded_iff (by omega)).1 hD').2.symm
''']
H = {'sgtin':'00110000','sscc':'00110001','sgln':'00110010','grai':'00110011','giai':'00110100','gid':'00110101','gsrn':'00101101','gsrnp':'00101110','gdti':'00101100','cpi':'00111100','sgcn':'00111111','itip':'01000000'}
# serial schemes: cls, W, K, serial pos, serial bits, digits bound, new proof
S = [
 ('SGTIN',47,'fun p => p + 1','p + 1',58,38,12,True,'⟨by omega, ⟨by omega, by omega⟩, k2, k3, by omega⟩'),
 ('SGLN',44,'fun p => p','p',55,41,13,False,'⟨by omega, ⟨by omega, by omega⟩, k2, by omega⟩'),
 ('GRAI',47,'fun p => p','p',58,38,12,False,'⟨by omega, ⟨by omega, by omega⟩, k2, by omega⟩'),
 ('GDTI',44,'fun p => p','p',55,41,13,False,'⟨by omega, ⟨by omega, by omega⟩, k2, by omega⟩'),
]
DOC = {'SGTIN':'item reference of `p + 1` digits','SGLN':'location reference of `p` digits','GRAI':'asset type of `p` digits','GDTI':'document type of `p` digits'}
for cls,W,K,_,pos,bits,dig,ne,prf in S:
    low=cls.lower()
    dne = 'ne_nil_of_length hDl (by omega), dec_digits hD' if ne else None
    dpart = '⟨ne_nil_of_length hDl (by omega), dec_digits hD⟩' if ne else 'dec_digits hD'
    out.append(f'''/-- {cls}-96: company prefix of `12 - p` digits, {DOC[cls]}, serial number of {bits} bits. -/
theorem C52_{low}96 {{b : Str}} (hB : Bits b) (hb : b.take 8 = py "{H[low]}") (hl : 96 ≤ b.length) :
    (∀ C D S, KeyFields b {W} ({K}) C D → Plain (bitField b {pos} {bits}) S →
      ∃ x, {cls}.fromBinary b = .ok x ∧ x.epcUri = py "urn:epc:id:{low}:" ++ joinWith '.' [C, D, S]) ∧
    ((¬ ∃ C D, KeyFields b {W} ({K}) C D) → {cls}.fromBinary b = .error .convert) := by
  obtain ⟨k, k'⟩ := keyFields_decode (t := {cls}.table) (K := {K}) (W := {W}) (by decide) (by decide) hB (by omega) (by decide)
  rw [{cls}.decode_{low}96 hB hb hl]
  constructor
  · intro C D S hF hS
    rw [k C D hF, ok_bind]
    obtain ⟨p, hp, hC, hCl, hCne, hD, hDl⟩ := keyFields_facts hF
    have hlt := bitField_lt hB (lo := {pos}) (k := {bits}) (by omega)
    obtain ⟨k1, k2, k3, k4, k5, k6, k7, k8, k9⟩ := plain_facts hS (m := {dig}) (by decide) (by omega)
    have hn := {cls}.new_iff.2 ⟨C, D, S, ⟨⟨hCne, dec_digits hC⟩, {dpart}, k1⟩, {prf}, rfl, rfl⟩
    obtain ⟨x, hx, hu⟩ : ∃ x, {cls}.new (py "urn:epc:id:{low}:" ++ joinWith '.' [C, D, S]) = .ok x ∧ x.epcUri = py "urn:epc:id:{low}:" ++ joinWith '.' [C, D, S] := ⟨_, hn, rfl⟩
    refine ⟨x, ?_, hu⟩
    rw [show (C ++ '.' :: D) ++ '.' :: natStr (bitsNumber ((b.drop {pos}).take {bits})) = C ++ '.' :: (D ++ '.' :: S) from by
      rw [plain_iff.1 hS, List.append_assoc]; rfl]
    exact {cls}.fromTagUri_of_new (num_natStr _) hx
  · intro hno
    rw [k' hno, error_bind]
''')
for cls in ['SSCC','GSRN','GSRNP']:
    low=cls.lower()
    out.append(f'''/-- {cls}-96: company prefix of `12 - p` digits, reference of `p + 5` digits; the last 24 bits are not looked at. -/
theorem C52_{low}96 {{b : Str}} (hB : Bits b) (hb : b.take 8 = py "{H[low]}") (hl : 96 ≤ b.length) :
    (∀ C D, KeyFields b 61 (fun p => p + 5) C D →
      ∃ x, {cls}.fromBinary b = .ok x ∧ x.epcUri = py "urn:epc:id:{low}:" ++ joinWith '.' [C, D]) ∧
    ((¬ ∃ C D, KeyFields b 61 (fun p => p + 5) C D) → {cls}.fromBinary b = .error .convert) := by
  obtain ⟨k, k'⟩ := keyFields_decode (t := {cls}.table) (K := fun p => p + 5) (W := 61) (by decide) (by decide) hB (by omega) (by decide)
  rw [{cls}.decode_{low}96 hB hb hl]
  constructor
  · intro C D hF
    rw [k C D hF, ok_bind]
    obtain ⟨p, hp, hC, hCl, hCne, hD, hDl⟩ := keyFields_facts hF
    have hn := {cls}.new_iff.2 ⟨C, D, ⟨⟨hCne, dec_digits hC⟩, ⟨ne_nil_of_length hDl (by omega), dec_digits hD⟩⟩, ⟨by omega, by omega, by omega⟩, rfl, rfl⟩
    exact ⟨_, {cls}.fromTagUri_of_new (num_natStr _) hn, rfl⟩
  · intro hno
    rw [k' hno, error_bind]
''')
out.append('''/-- SGCN-96: company prefix of `12 - p` digits, coupon reference of `p` digits, and a serial of digits that may begin with zeros: the last
41 bits hold the number whose decimal digits are a `1` followed by the serial. -/
theorem C52_sgcn96 {b : Str} (hB : Bits b) (hb : b.take 8 = py "00111111") (hl : 96 ≤ b.length) :
    (∀ C D S, KeyFields b 44 (fun p => p) C D → Digits S → S ≠ [] → number ('1' :: S) = bitField b 55 41 →
      ∃ x, SGCN.fromBinary b = .ok x ∧ x.epcUri = py "urn:epc:id:sgcn:" ++ joinWith '.' [C, D, S]) ∧
    ((¬ ((∃ C D, KeyFields b 44 (fun p => p) C D) ∧ ∃ S, Digits S ∧ S ≠ [] ∧ number ('1' :: S) = bitField b 55 41)) →
      SGCN.fromBinary b = .error .convert) := by
  obtain ⟨k, k'⟩ := keyFields_decode (t := SGCN.table) (K := fun p => p) (W := 44) (by decide) (by decide) hB (by omega) (by decide)
  have hF55 : Bits ((b.drop 55).take 41) := bits_take (bits_drop hB 55) 41
  have hl55 : ((b.drop 55).take 41).length = 41 := field_length (by omega)
  obtain ⟨s, s'⟩ := decodeNumeric_spec hF55 (ne_nil_of_length hl55 (by decide))
  rw [SGCN.decode_sgcn96 hB hb hl]
  constructor
  · intro C D S hF hS hSne hn
    rw [k C D hF, ok_bind, s S hS hSne hn, ok_bind]
    obtain ⟨p, hp, hC, hCl, hCne, hD, hDl⟩ := keyFields_facts hF
    have hlt := bitField_lt hB (lo := 55) (k := 41) (by omega)
    have hS12 : S.length ≤ 12 := by
      refine Classical.byContradiction fun h => ?_
      have h13 : 10 ^ 13 ≤ 10 ^ S.length := Nat.pow_le_pow_right (by decide) (by omega)
      rw [number_one_cons hS] at hn
      omega
    have hn := SGCN.new_iff.2 ⟨C, D, S, ⟨⟨hCne, dec_digits hC⟩, dec_digits hD, ⟨hSne, dec_digits hS⟩⟩, ⟨by omega, hS12, by omega, by omega⟩, rfl, rfl⟩
    obtain ⟨x, hx, hu⟩ : ∃ x, SGCN.new (py "urn:epc:id:sgcn:" ++ joinWith '.' [C, D, S]) = .ok x ∧ x.epcUri = py "urn:epc:id:sgcn:" ++ joinWith '.' [C, D, S] := ⟨_, hn, rfl⟩
    refine ⟨x, ?_, hu⟩
    rw [show (C ++ '.' :: D) ++ '.' :: S = C ++ '.' :: (D ++ '.' :: S) from by
      simp]
    exact SGCN.fromTagUri_of_new (num_natStr _) hx
  · intro hno
    by_cases hF : ∃ C D, KeyFields b 44 (fun p => p) C D
    · have hS := s' fun h => hno ⟨hF, h⟩
      obtain ⟨C, D, hF⟩ := hF
      rw [k C D hF, ok_bind, hS, error_bind]
    · rw [k' hF, error_bind]

/-- ITIP-110: company prefix of `12 - p` digits, item reference of `p + 1` digits, piece and total of two digits (seven bits each), serial
number of 38 bits. -/
theorem C52_itip110 {b : Str} (hB : Bits b) (hb : b.take 8 = py "01000000") (hl : 110 ≤ b.length) :
    (∀ C D P T S, KeyFields b 47 (fun p => p + 1) C D → Padded 2 (bitField b 58 7) P → Padded 2 (bitField b 65 7) T → Plain (bitField b 72 38) S →
      ∃ x, ITIP.fromBinary b = .ok x ∧ x.epcUri = py "urn:epc:id:itip:" ++ joinWith '.' [C, D, P, T, S]) ∧
    ((¬ ((∃ C D, KeyFields b 47 (fun p => p + 1) C D) ∧ bitField b 58 7 ≤ 99 ∧ bitField b 65 7 ≤ 99)) → ITIP.fromBinary b = .error .convert) := by
  obtain ⟨k, k'⟩ := keyFields_decode (t := ITIP.table) (K := fun p => p + 1) (W := 47) (by decide) (by decide) hB (by omega) (by decide)
  obtain ⟨a, a'⟩ := decodeFixed_spec (bits_take (bits_drop hB 58) 7) (field_length (by omega))
  obtain ⟨c, c'⟩ := decodeFixed_spec (bits_take (bits_drop hB 65) 7) (field_length (by omega))
  rw [ITIP.decode_itip110 hB hb hl]
  constructor
  · intro C D P T S hF hP hT hS
    rw [k C D hF, ok_bind, a P hP, ok_bind, c T hT, ok_bind]
    obtain ⟨p, hp, hC, hCl, hCne, hD, hDl⟩ := keyFields_facts hF
    have hlt := bitField_lt hB (lo := 72) (k := 38) (by omega)
    obtain ⟨k1, k2, k3, k4, k5, k6, k7, k8, k9⟩ := plain_facts hS (m := 12) (by decide) (by omega)
    have hPl := hP.2.1
    have hTl := hT.2.1
    have hn := ITIP.new_iff.2 ⟨C, D, P, T, S, ⟨⟨hCne, dec_digits hC⟩, ⟨ne_nil_of_length hDl (by omega), dec_digits hD⟩,
      ⟨ne_nil_of_length hPl (by omega), dec_digits hP.1⟩, ⟨ne_nil_of_length hTl (by omega), dec_digits hT.1⟩, k1⟩,
      ⟨by omega, ⟨by omega, by omega⟩, k2, k3, by omega⟩, rfl, rfl⟩
    obtain ⟨x, hx, hu⟩ : ∃ x, ITIP.new (py "urn:epc:id:itip:" ++ joinWith '.' [C, D, P, T, S]) = .ok x ∧ x.epcUri = py "urn:epc:id:itip:" ++ joinWith '.' [C, D, P, T, S] := ⟨_, hn, rfl⟩
    refine ⟨x, ?_, hu⟩
    rw [show (C ++ '.' :: D) ++ '.' :: (P ++ '.' :: (T ++ '.' :: natStr (bitsNumber ((b.drop 72).take 38)))) =
      C ++ '.' :: (D ++ '.' :: (P ++ '.' :: (T ++ '.' :: S))) from by rw [plain_iff.1 hS, List.append_assoc]; rfl]
    exact ITIP.fromTagUri_of_new (num_natStr _) hx
  · intro hno
    by_cases hF : ∃ C D, KeyFields b 47 (fun p => p + 1) C D
    · by_cases h1 : bitField b 58 7 ≤ 99
      · have h2 : ¬ bitField b 65 7 ≤ 99 := fun h2 => hno ⟨hF, h1, h2⟩
        obtain ⟨C, D, hF⟩ := hF
        have hT := c' fun ⟨A, hA⟩ => by
          have := ((padded_iff (by decide)).1 hA).1
          exact h2 (by show bitsNumber _ ≤ 99; omega)
        rw [k C D hF, ok_bind, a _ ((padded_iff (by decide)).2 ⟨by show bitField b 58 7 < _; omega, rfl⟩), ok_bind, hT, error_bind]
      · obtain ⟨C, D, hF⟩ := hF
        have hP := a' fun ⟨A, hA⟩ => by
          have := ((padded_iff (by decide)).1 hA).1
          exact h1 (by show bitsNumber _ ≤ 99; omega)
        rw [k C D hF, ok_bind, hP, error_bind]
    · rw [k' hF, error_bind]

/-- GIAI-96: company prefix of `12 - p` digits, and the individual asset reference as a number. -/
theorem C52_giai96 {b : Str} (hB : Bits b) (hb : b.take 8 = py "00110100") (hl : 96 ≤ b.length) :
    (∀ C D, FreeFields b 85 C D → ∃ x, GIAI.fromBinary b = .ok x ∧ x.epcUri = py "urn:epc:id:giai:" ++ joinWith '.' [C, D]) ∧
    ((¬ ∃ C D, FreeFields b 85 C D) → GIAI.fromBinary b = .error .convert) := by
  obtain ⟨k, k'⟩ := freeFields_decode (t := GIAI.table96) (W := 85) (by decide) (by decide) hB (by omega) (by decide)
  rw [GIAI.decode_giai96 hB hb hl]
  constructor
  · intro C D hF
    rw [k C D hF, ok_bind]
    obtain ⟨p, hp, hC, hD, hCne, hDl, k1, k2, k3, k4⟩ := freeFields_facts hB hF
    have hsum := hDl (by decide : ∀ p ≤ 6, 2 ^ (85 - 3 - prefixBits (12 - p)) ≤ 10 ^ (18 + p))
    have hsplit : (split ':' D).headD [] = D := by rw [split_notMem k3]; rfl
    have hn := GIAI.new_iff.2 ⟨C, D, ⟨⟨hCne, dec_digits hC⟩, k1⟩, by
      rw [hsplit]; exact ⟨⟨by omega, by omega⟩, k2, by omega⟩, rfl, rfl⟩
    exact ⟨_, GIAI.fromTagUri_of_new (num_natStr _) hn, rfl⟩
  · intro hno
    rw [k' hno, error_bind]

/-- CPI-96: company prefix of `12 - p` digits, component/part reference as a number, serial number of 31 bits. -/
theorem C52_cpi96 {b : Str} (hB : Bits b) (hb : b.take 8 = py "00111100") (hl : 96 ≤ b.length) :
    (∀ C D S, FreeFields b 54 C D → Plain (bitField b 65 31) S →
      ∃ x, CPI.fromBinary b = .ok x ∧ x.epcUri = py "urn:epc:id:cpi:" ++ joinWith '.' [C, D, S]) ∧
    ((¬ ∃ C D, FreeFields b 54 C D) → CPI.fromBinary b = .error .convert) := by
  obtain ⟨k, k'⟩ := freeFields_decode (t := CPI.table96) (W := 54) (by decide) (by decide) hB (by omega) (by decide)
  rw [CPI.decode_cpi96 hB hb hl]
  constructor
  · intro C D S hF hS
    rw [k C D hF, ok_bind]
    obtain ⟨p, hp, hC, hD, hCne, hDl, k1, k2, k3, k4⟩ := freeFields_facts hB hF
    have hsum := hDl (by decide : ∀ p ≤ 6, 2 ^ (54 - 3 - prefixBits (12 - p)) ≤ 10 ^ (18 + p))
    have hlt := bitField_lt hB (lo := 65) (k := 31) (by omega)
    obtain ⟨_, _, _, _, k5, _, _, k8, k9⟩ := plain_facts hS (m := 12) (by decide) (by omega)
    have hn := CPI.new_iff.2 ⟨C, D, S, ⟨⟨hCne, dec_digits hC⟩, k4, k8⟩, ⟨by omega, k5, by omega, by omega⟩, rfl, rfl⟩
    obtain ⟨x, hx, hu⟩ : ∃ x, CPI.new (py "urn:epc:id:cpi:" ++ joinWith '.' [C, D, S]) = .ok x ∧ x.epcUri = py "urn:epc:id:cpi:" ++ joinWith '.' [C, D, S] := ⟨_, hn, rfl⟩
    refine ⟨x, ?_, hu⟩
    rw [show (C ++ '.' :: D) ++ '.' :: natStr (bitsNumber ((b.drop 65).take 31)) = C ++ '.' :: (D ++ '.' :: S) from by
      rw [plain_iff.1 hS, List.append_assoc]; rfl]
    exact CPI.fromTagUri_of_new (num_natStr _) hx
  · intro hno
    rw [k' hno, error_bind]

/-- GID-96: manager number of 28 bits, object class of 24 bits and serial number of 36 bits; no bit string of 96 bits with the header is
refused. -/
theorem C52_gid96 {b : Str} (hB : Bits b) (hb : b.take 8 = py "00110101") (hl : 96 ≤ b.length) {M O S : Str}
    (hM : Plain (bitField b 8 28) M) (hO : Plain (bitField b 36 24) O) (hS : Plain (bitField b 60 36) S) :
    ∃ x, GID.fromBinary b = .ok x ∧ x.epcUri = py "urn:epc:id:gid:" ++ joinWith '.' [M, O, S] := by
  have h1 := bitField_lt hB (lo := 8) (k := 28) (by omega)
  have h2 := bitField_lt hB (lo := 36) (k := 24) (by omega)
  have h3 := bitField_lt hB (lo := 60) (k := 36) (by omega)
  have d : ∀ {n : Nat} {s : Str}, Plain n s → Num s ∧ decVal s = n := fun h => by
    rw [plain_iff.1 h]; exact ⟨num_natStr _, by rw [decVal_Digits (Digits_natStr _), number_natStr]⟩
  have hn := GID.new_iff.2 ⟨M, O, S, ⟨(d hM).1, (d hO).1, (d hS).1⟩, ⟨by rw [(d hM).2]; exact h1, by rw [(d hO).2]; exact h2, by rw [(d hS).2]; exact h3⟩, rfl, rfl⟩
  obtain ⟨x, hx, hu⟩ : ∃ x, GID.new (py "urn:epc:id:gid:" ++ joinWith '.' [M, O, S]) = .ok x ∧ x.epcUri = py "urn:epc:id:gid:" ++ joinWith '.' [M, O, S] := ⟨_, hn, rfl⟩
  refine ⟨x, ?_, hu⟩
  unfold GID.fromBinary
  rw [parseHeader_fixed (cs := GID.Coding.gid96) (p := py "gid") (sz := py "96") (n := 96) hb (by decide) (by decide) (by decide) (by decide) hl, ok_bind]
  dsimp only
  have f : ∀ lo k, 0 < k → lo + k ≤ b.length → binIntStr ((b.drop lo).take k) = .ok (natStr (bitField b lo k)) := fun lo k hk h =>
    binIntStr_bits (bits_take (bits_drop hB lo) k) (ne_nil_of_length (field_length h) hk)
  rw [slice_of_take (by decide), slice_of_take (by decide), drop_of_take, f 8 28 (by decide) (by omega), ok_bind, f 36 24 (by decide) (by omega), ok_bind, f 60 36 (by decide) (by omega), ok_bind,
    ← plain_iff.1 hM, ← plain_iff.1 hO, ← plain_iff.1 hS]
  refine Eq.trans (congrArg _ ?_) (GID.fromTagUri_of_new hx)
  simp [joinWith]
''')
out.append('''/-- USDOD-96: filter value of four bits, six characters of eight bits and a serial number of 36 bits.  Blanks among the six characters are
removed; what is left must be a CAGE code or DoDAAC. -/
theorem C52_usdod96 {b : Str} (hB : Bits b) (hb : b.take 8 = py "00101111") (hl : 96 ≤ b.length) {G S : Str}
    (hG : G = (byteText b 12 6).filter (· ≠ ' ')) (hS : Plain (bitField b 60 36) S) :
    (CageCode G → ∃ x, USDOD.fromBinary b = .ok x ∧ x.epcUri = py "urn:epc:id:usdod:" ++ joinWith '.' [G, S]) ∧
    (¬ CageCode G → USDOD.fromBinary b = .error .convert) := by
  have h3 := bitField_lt hB (lo := 60) (k := 36) (by omega)
  have e : USDOD.fromBinary b = USDOD.fromTagUri (tagUriPrefix ++ USDOD.Coding.value .usdod96 ++ ':' :: (natStr (bitField b 8 4) ++ '.' :: (G ++ '.' :: S))) := by
    unfold USDOD.fromBinary
    rw [parseHeader_fixed (cs := USDOD.Coding.usdod96) (p := py "usdod") (sz := py "96") (n := 96) hb (by decide) (by decide) (by decide) (by decide) hl, ok_bind]
    dsimp only
    have hi : binaryToInt ((b.drop 8).take 4) = .ok (bitField b 8 4 : Int) :=
      binaryToInt_bits (bits_take (bits_drop hB 8) 4) (ne_nil_of_length (field_length (by omega)) (by decide))
    have hs : binIntStr ((b.drop 60).take 36) = .ok (natStr (bitField b 60 36)) :=
      binIntStr_bits (bits_take (bits_drop hB 60) 36) (ne_nil_of_length (field_length (by omega)) (by decide))
    rw [slice_of_take (by decide), slice_of_take (by decide), drop_of_take, hi, ok_bind, decodeCage_spec hB (by omega), ok_bind, hs, ok_bind,
      ← plain_iff.1 hS, ← hG]
    refine congrArg _ ?_
    simp [intStr]
  rw [e]
  constructor
  · intro hc
    have hnum : Num S ∧ decVal S = bitField b 60 36 := by
      rw [plain_iff.1 hS]; exact ⟨num_natStr _, by rw [decVal_Digits (Digits_natStr _), number_natStr]⟩
    have hn := USDOD.new_iff.2 ⟨G, S, ⟨cageCode_iff.1 hc, hnum.1⟩, by rw [hnum.2]; exact h3, rfl, rfl⟩
    exact ⟨_, USDOD.fromTagUri_of_new (num_natStr _) hn, rfl⟩
  · intro hc
    unfold USDOD.fromTagUri
    rw [fromTagUri_filter (by decide) (num_natStr _)]
    split
    · cases hx : USDOD.new (py "urn:epc:id:" ++ (split '-' (USDOD.Coding.value .usdod96)).headD [] ++ ':' :: (G ++ '.' :: S)) with
      | error e' => rw [USDOD.new_error hx]
      | ok x => exact absurd (usdod_cage rfl hx) hc
    · rfl

/-! ### The hypotheses are met, and both cases occur -/

/-- A tag whose fields are in range. -/
example : ∃ b : Str, Bits b ∧ b.take 8 = py "00110000" ∧ 96 ≤ b.length ∧
    KeyFields b 47 (fun p => p + 1) (py "0614141") (py "812345") ∧ Plain (bitField b 58 38) (py "6789") :=
  ⟨py "001100000111010000100101011110111111011100011001010011100100000000000000000000000001101010000101", by
    refine ⟨by decide +kernel, by decide +kernel, by decide +kernel, ⟨5, by decide, by decide +kernel, ?_, ?_⟩, ?_⟩
    · exact ⟨by decide, by decide, by decide +kernel⟩
    · exact ⟨by decide, by decide, by decide +kernel⟩
    · exact ⟨⟨by decide, by decide, by decide⟩, by decide +kernel⟩⟩

/-- A tag with partition value 7. -/
example : ∃ b : Str, Bits b ∧ b.take 8 = py "00110000" ∧ 96 ≤ b.length ∧ ¬ ∃ C D, KeyFields b 47 (fun p => p + 1) C D :=
  ⟨py "00110000" ++ List.replicate 88 '1', by decide +kernel, by decide +kernel, by decide +kernel, by
    rintro ⟨C, D, p, hp, h, _⟩
    have : bitField (py "00110000" ++ List.replicate 88 '1') 11 3 = 7 := by decide +kernel
    omega⟩

example : CageCode ((byteText (py "001011110000" ++ py "001000000100001101000010001100110011001000110001" ++ List.replicate 36 '0') 12 6).filter (· ≠ ' ')) := by
  have h : (byteText (py "001011110000" ++ py "001000000100001101000010001100110011001000110001" ++ List.replicate 36 '0') 12 6).filter (· ≠ ' ') = py "CB321" := by
    decide +kernel
  rw [h]
  exact ⟨by decide, by decide, by decide⟩
''')
out.append('end Epc\n')
open('/verif/lean/Verif/Props/C52.lean','w').write('\n'.join(out))
