/-
C56: the binary encodings are specified completely.

For every accepted URI of ASCII characters and every filter value: when the encoding is available (the tag URI exists; for the encodings with a
text, the serial number is the escaped form of a text over the GS1 character set), `binary` returns exactly the bits listed here, field by field:
header, filter value, partition value, company prefix, reference and serial number, with the widths of the TDS tables, each number written most
significant bit first, each text in its seven-bit, six-bit or eight-bit code and then filled with zeros.

`layout [(w₁, n₁), …]` is the concatenation of the numbers `nᵢ` in `wᵢ` bits each; `keyLayout W C D` are the partition value, the company prefix and
the reference in `W` bits together; `textLayout g s` are the codes of the characters of `s` in `g` bits each (see Spec/Layout).
-/
import Verif.Lemmas.LayoutEnc
import Verif.Lemmas.Layout
import Verif.Lemmas.VarBinary

namespace Epc
open Spec Re

theorem bin3_bitsOf (f : Fin 8) : bin 3 f = bitsOf 3 f.val := bin_bitsOf (by decide) f.isLt
theorem bin4_bitsOf (f : Fin 16) : bin 4 f = bitsOf 4 f.val := bin_bitsOf (by decide) f.isLt
theorem bin6_bitsOf (f : Fin 64) : bin 6 f = bitsOf 6 f.val := bin_bitsOf (by decide) f.isLt

theorem C56_sgtin96 {u t : Str} {x : SGTIN} {f : Fin 8} (ha : Ascii u) (hu : SGTIN.new u = .ok x) (ht : x.tagUri .sgtin96 f = .ok t) :
    x.binary .sgtin96 f = .ok (layout ([(8, 48), (3, f.val)] ++ keyLayout 47 x.companyPref x.itemRef ++ [(38, number x.serial)])) := by
  have hs := SGTIN.serial_of_tagUri hu ht
  obtain ⟨C, D, S, ⟨hC, hD, hS⟩, hlen, e, rfl⟩ := SGTIN.new_iff.1 hu
  obtain ⟨aC, aD, aS⟩ := ascii_uri3 (e ▸ ha)
  dsimp only at hs ⊢
  have p1 := part_layout (t := SGTIN.table) (W := 47) (T := 13) (by decide) (by decide) (by decide)
    (digits_of_dec_ascii hC.2 aC) (digits_of_dec_ascii hD.2 aD) (by omega) (by omega) (by omega)
  have s1 := (numeral_bin hs.1 38).1
  unfold SGTIN.binary
  rw [filter_ok, ok_bind]
  dsimp only
  rw [p1, ok_bind, if_pos rfl, s1, ok_bind, pure_ok, bin_bitsOf (by decide) hs.2]
  set_option linter.unusedSimpArgs false in
  simp only [List.cons_append, List.nil_append, layout_append, layout_cons, layout_nil, List.append_assoc, List.append_nil, bin3_bitsOf]
  rfl


theorem C56_sgtin198 {u raw : Str} {x : SGTIN} {f : Fin 8} (ha : Ascii u) (hu : SGTIN.new u = .ok x)
    (hr : ∀ c ∈ raw, c ∈ gs82) (hs : x.serial = escape raw) :
    x.binary .sgtin198 f = .ok (layout ([(8, 54), (3, f.val)] ++ keyLayout 47 x.companyPref x.itemRef ++ textLayout 7 raw ++ [(140 - 7 * raw.length, 0)])) := by
  obtain ⟨C, D, S, ⟨hC, hD, hS⟩, hlen, e, rfl⟩ := SGTIN.new_iff.1 hu
  obtain ⟨aC, aD, aS⟩ := ascii_uri3 (e ▸ ha)
  dsimp only at hs ⊢
  have p1 := part_layout (t := SGTIN.table) (W := 47) (T := 13) (by decide) (by decide) (by decide)
    (digits_of_dec_ascii hC.2 aC) (digits_of_dec_ascii hD.2 aD) (by omega) (by omega) (by omega)
  unfold SGTIN.binary
  rw [filter_ok, ok_bind]
  dsimp only
  rw [p1, ok_bind, if_neg (by decide), hs, text_layout hr, ok_bind, pure_ok]
  set_option linter.unusedSimpArgs false in
  simp only [List.cons_append, List.nil_append, layout_append, layout_cons, layout_nil, List.append_assoc, List.append_nil, bin3_bitsOf]
  rfl


theorem C56_sscc96 {u : Str} {x : SSCC} {f : Fin 8} (ha : Ascii u) (hu : SSCC.new u = .ok x) :
    x.binary .sscc96 f = .ok (layout ([(8, 49), (3, f.val)] ++ keyLayout 61 x.companyPref x.serial ++ [(24, 0)])) := by
  obtain ⟨C, D, ⟨hC, hD⟩, hlen, e, rfl⟩ := SSCC.new_iff.1 hu
  obtain ⟨aC, aD⟩ := ascii_uri2 (e ▸ ha)
  dsimp only
  have p1 := part_layout (t := SSCC.table) (W := 61) (T := 17) (by decide) (by decide) (by decide)
    (digits_of_dec_ascii hC.2 aC) (digits_of_dec_ascii hD.2 aD) (by omega) (by omega) (by omega)
  unfold SSCC.binary
  rw [filter_ok, ok_bind]
  dsimp only
  rw [p1, ok_bind, pure_ok]
  set_option linter.unusedSimpArgs false in
  simp only [List.cons_append, List.nil_append, layout_append, layout_cons, layout_nil, List.append_assoc, List.append_nil, bin3_bitsOf]
  rfl


theorem C56_sgln96 {u t : Str} {x : SGLN} {f : Fin 8} (ha : Ascii u) (hu : SGLN.new u = .ok x) (ht : x.tagUri .sgln96 f = .ok t) :
    x.binary .sgln96 f = .ok (layout ([(8, 50), (3, f.val)] ++ keyLayout 44 x.companyPref x.locationRef ++ [(41, number x.serial)])) := by
  have hs := SGLN.serial_of_tagUri hu ht
  obtain ⟨C, D, S, ⟨hC, hD, hS⟩, hlen, e, rfl⟩ := SGLN.new_iff.1 hu
  obtain ⟨aC, aD, aS⟩ := ascii_uri3 (e ▸ ha)
  dsimp only at hs ⊢
  have p1 := part_layout (t := SGLN.table) (W := 44) (T := 12) (by decide) (by decide) (by decide)
    (digits_of_dec_ascii hC.2 aC) (digits_of_dec_ascii hD aD) (by omega) (by omega) (by omega)
  have s1 := (numeral_bin hs.1 41).1
  unfold SGLN.binary
  rw [filter_ok, ok_bind]
  dsimp only
  rw [p1, ok_bind, if_pos rfl, s1, ok_bind, pure_ok, bin_bitsOf (by decide) hs.2]
  set_option linter.unusedSimpArgs false in
  simp only [List.cons_append, List.nil_append, layout_append, layout_cons, layout_nil, List.append_assoc, List.append_nil, bin3_bitsOf]
  rfl


theorem C56_sgln195 {u raw : Str} {x : SGLN} {f : Fin 8} (ha : Ascii u) (hu : SGLN.new u = .ok x)
    (hr : ∀ c ∈ raw, c ∈ gs82) (hs : x.serial = escape raw) :
    x.binary .sgln195 f = .ok (layout ([(8, 57), (3, f.val)] ++ keyLayout 44 x.companyPref x.locationRef ++ textLayout 7 raw ++ [(140 - 7 * raw.length, 0)])) := by
  obtain ⟨C, D, S, ⟨hC, hD, hS⟩, hlen, e, rfl⟩ := SGLN.new_iff.1 hu
  obtain ⟨aC, aD, aS⟩ := ascii_uri3 (e ▸ ha)
  dsimp only at hs ⊢
  have p1 := part_layout (t := SGLN.table) (W := 44) (T := 12) (by decide) (by decide) (by decide)
    (digits_of_dec_ascii hC.2 aC) (digits_of_dec_ascii hD aD) (by omega) (by omega) (by omega)
  unfold SGLN.binary
  rw [filter_ok, ok_bind]
  dsimp only
  rw [p1, ok_bind, if_neg (by decide), hs, text_layout hr, ok_bind, pure_ok]
  set_option linter.unusedSimpArgs false in
  simp only [List.cons_append, List.nil_append, layout_append, layout_cons, layout_nil, List.append_assoc, List.append_nil, bin3_bitsOf]
  rfl


theorem C56_grai96 {u t : Str} {x : GRAI} {f : Fin 8} (ha : Ascii u) (hu : GRAI.new u = .ok x) (ht : x.tagUri .grai96 f = .ok t) :
    x.binary .grai96 f = .ok (layout ([(8, 51), (3, f.val)] ++ keyLayout 47 x.companyPref x.assetType ++ [(38, number x.serial)])) := by
  have hs := GRAI.serial_of_tagUri hu ht
  obtain ⟨C, D, S, ⟨hC, hD, hS⟩, hlen, e, rfl⟩ := GRAI.new_iff.1 hu
  obtain ⟨aC, aD, aS⟩ := ascii_uri3 (e ▸ ha)
  dsimp only at hs ⊢
  have p1 := part_layout (t := GRAI.table) (W := 47) (T := 12) (by decide) (by decide) (by decide)
    (digits_of_dec_ascii hC.2 aC) (digits_of_dec_ascii hD aD) (by omega) (by omega) (by omega)
  have s1 := (numeral_bin hs.1 38).1
  unfold GRAI.binary
  rw [filter_ok, ok_bind]
  dsimp only
  rw [p1, ok_bind, if_pos rfl, s1, ok_bind, pure_ok, bin_bitsOf (by decide) hs.2]
  set_option linter.unusedSimpArgs false in
  simp only [List.cons_append, List.nil_append, layout_append, layout_cons, layout_nil, List.append_assoc, List.append_nil, bin3_bitsOf]
  rfl


theorem C56_grai170 {u raw : Str} {x : GRAI} {f : Fin 8} (ha : Ascii u) (hu : GRAI.new u = .ok x)
    (hr : ∀ c ∈ raw, c ∈ gs82) (hs : x.serial = escape raw) :
    x.binary .grai170 f = .ok (layout ([(8, 55), (3, f.val)] ++ keyLayout 47 x.companyPref x.assetType ++ textLayout 7 raw ++ [(112 - 7 * raw.length, 0)])) := by
  obtain ⟨C, D, S, ⟨hC, hD, hS⟩, hlen, e, rfl⟩ := GRAI.new_iff.1 hu
  obtain ⟨aC, aD, aS⟩ := ascii_uri3 (e ▸ ha)
  dsimp only at hs ⊢
  have p1 := part_layout (t := GRAI.table) (W := 47) (T := 12) (by decide) (by decide) (by decide)
    (digits_of_dec_ascii hC.2 aC) (digits_of_dec_ascii hD aD) (by omega) (by omega) (by omega)
  unfold GRAI.binary
  rw [filter_ok, ok_bind]
  dsimp only
  rw [p1, ok_bind, if_neg (by decide), hs, text_layout hr, ok_bind, pure_ok]
  set_option linter.unusedSimpArgs false in
  simp only [List.cons_append, List.nil_append, layout_append, layout_cons, layout_nil, List.append_assoc, List.append_nil, bin3_bitsOf]
  rfl


theorem C56_giai96 {u t : Str} {x : GIAI} {f : Fin 8} (ha : Ascii u) (hu : GIAI.new u = .ok x) (ht : x.tagUri .giai96 f = .ok t) :
    x.binary .giai96 f = .ok (layout ([(8, 52), (3, f.val)] ++ keyLayout 85 x.companyPref x.assetRef)) := by
  have hs := GIAI.serial_of_tagUri hu ht
  obtain ⟨C, S, ⟨hC, hS⟩, hlen, e, rfl⟩ := GIAI.new_iff.1 hu
  obtain ⟨aC, aS⟩ := ascii_uri2 (e ▸ ha)
  dsimp only at hs ⊢
  have p1 := part_layout_free (t := GIAI.table96) (W := 85) (by decide) (by decide) (digits_of_dec_ascii hC.2 aC) hs.1
    (by omega) (by omega) (by rw [show 85 - 3 - prefixBits C.length = 82 - prefixBits C.length by omega]; exact hs.2) .plain (.inl rfl)
  unfold GIAI.binary
  rw [filter_ok, ok_bind, if_pos rfl]
  dsimp only
  rw [p1, ok_bind, pure_ok]
  set_option linter.unusedSimpArgs false in
  simp only [List.cons_append, List.nil_append, layout_append, layout_cons, layout_nil, List.append_assoc, List.append_nil, bin3_bitsOf]
  rfl


theorem C56_giai202 {u raw : Str} {x : GIAI} {f : Fin 8} (ha : Ascii u) (hu : GIAI.new u = .ok x)
    (hr : ∀ c ∈ raw, c ∈ gs82) (hs : x.assetRef = escape raw) :
    x.binary .giai202 f = .ok (layout ([(8, 56), (3, f.val), (3, 12 - x.companyPref.length), (prefixBits x.companyPref.length, number x.companyPref)] ++
      textLayout 7 raw ++ [(188 - prefixBits x.companyPref.length - 7 * raw.length, 0)])) := by
  obtain ⟨C, S, ⟨hC, hS⟩, hlen, e, rfl⟩ := GIAI.new_iff.1 hu
  obtain ⟨aC, aS⟩ := ascii_uri2 (e ▸ ha)
  dsimp only at hs ⊢
  have p1 := part_layout_text (t := GIAI.table202) (W := 191) (by decide) (by decide) (digits_of_dec_ascii hC.2 aC) hr
    (by omega) (by omega)
  unfold GIAI.binary
  rw [filter_ok, ok_bind, if_neg (by decide)]
  dsimp only
  rw [hs, p1, ok_bind, pure_ok]
  set_option linter.unusedSimpArgs false in
  simp only [List.cons_append, List.nil_append, layout_append, layout_cons, layout_nil, List.append_assoc, List.append_nil, bin3_bitsOf]
  rfl


theorem C56_gsrn96 {u : Str} {x : GSRN} {f : Fin 8} (ha : Ascii u) (hu : GSRN.new u = .ok x) :
    x.binary .gsrn96 f = .ok (layout ([(8, 45), (3, f.val)] ++ keyLayout 61 x.companyPref x.serviceRef ++ [(24, 0)])) := by
  obtain ⟨C, D, ⟨hC, hD⟩, hlen, e, rfl⟩ := GSRN.new_iff.1 hu
  obtain ⟨aC, aD⟩ := ascii_uri2 (e ▸ ha)
  dsimp only
  have p1 := part_layout (t := GSRN.table) (W := 61) (T := 17) (by decide) (by decide) (by decide)
    (digits_of_dec_ascii hC.2 aC) (digits_of_dec_ascii hD.2 aD) (by omega) (by omega) (by omega)
  unfold GSRN.binary
  rw [filter_ok, ok_bind]
  dsimp only
  rw [p1, ok_bind, pure_ok]
  set_option linter.unusedSimpArgs false in
  simp only [List.cons_append, List.nil_append, layout_append, layout_cons, layout_nil, List.append_assoc, List.append_nil, bin3_bitsOf]
  rfl


theorem C56_gsrnp96 {u : Str} {x : GSRNP} {f : Fin 8} (ha : Ascii u) (hu : GSRNP.new u = .ok x) :
    x.binary .gsrnp96 f = .ok (layout ([(8, 46), (3, f.val)] ++ keyLayout 61 x.companyPref x.serviceRef ++ [(24, 0)])) := by
  obtain ⟨C, D, ⟨hC, hD⟩, hlen, e, rfl⟩ := GSRNP.new_iff.1 hu
  obtain ⟨aC, aD⟩ := ascii_uri2 (e ▸ ha)
  dsimp only
  have p1 := part_layout (t := GSRNP.table) (W := 61) (T := 17) (by decide) (by decide) (by decide)
    (digits_of_dec_ascii hC.2 aC) (digits_of_dec_ascii hD.2 aD) (by omega) (by omega) (by omega)
  unfold GSRNP.binary
  rw [filter_ok, ok_bind]
  dsimp only
  rw [p1, ok_bind, pure_ok]
  set_option linter.unusedSimpArgs false in
  simp only [List.cons_append, List.nil_append, layout_append, layout_cons, layout_nil, List.append_assoc, List.append_nil, bin3_bitsOf]
  rfl


theorem C56_gdti96 {u t : Str} {x : GDTI} {f : Fin 8} (ha : Ascii u) (hu : GDTI.new u = .ok x) (ht : x.tagUri .gdti96 f = .ok t) :
    x.binary .gdti96 f = .ok (layout ([(8, 44), (3, f.val)] ++ keyLayout 44 x.companyPref x.docType ++ [(41, number x.serial)])) := by
  have hs := GDTI.serial_of_tagUri hu ht
  obtain ⟨C, D, S, ⟨hC, hD, hS⟩, hlen, e, rfl⟩ := GDTI.new_iff.1 hu
  obtain ⟨aC, aD, aS⟩ := ascii_uri3 (e ▸ ha)
  dsimp only at hs ⊢
  have p1 := part_layout (t := GDTI.table) (W := 44) (T := 12) (by decide) (by decide) (by decide)
    (digits_of_dec_ascii hC.2 aC) (digits_of_dec_ascii hD aD) (by omega) (by omega) (by omega)
  have s1 := (numeral_bin hs.1 41).1
  unfold GDTI.binary
  rw [filter_ok, ok_bind]
  dsimp only
  rw [p1, ok_bind, if_pos rfl, s1, ok_bind, pure_ok, bin_bitsOf (by decide) hs.2]
  set_option linter.unusedSimpArgs false in
  simp only [List.cons_append, List.nil_append, layout_append, layout_cons, layout_nil, List.append_assoc, List.append_nil, bin3_bitsOf]
  rfl


theorem C56_gdti174 {u raw : Str} {x : GDTI} {f : Fin 8} (ha : Ascii u) (hu : GDTI.new u = .ok x)
    (hr : ∀ c ∈ raw, c ∈ gs82) (hs : x.serial = escape raw) :
    x.binary .gdti174 f = .ok (layout ([(8, 62), (3, f.val)] ++ keyLayout 44 x.companyPref x.docType ++ textLayout 7 raw ++ [(119 - 7 * raw.length, 0)])) := by
  obtain ⟨C, D, S, ⟨hC, hD, hS⟩, hlen, e, rfl⟩ := GDTI.new_iff.1 hu
  obtain ⟨aC, aD, aS⟩ := ascii_uri3 (e ▸ ha)
  dsimp only at hs ⊢
  have p1 := part_layout (t := GDTI.table) (W := 44) (T := 12) (by decide) (by decide) (by decide)
    (digits_of_dec_ascii hC.2 aC) (digits_of_dec_ascii hD aD) (by omega) (by omega) (by omega)
  unfold GDTI.binary
  rw [filter_ok, ok_bind]
  dsimp only
  rw [p1, ok_bind, if_neg (by decide), hs, text_layout hr, ok_bind, pure_ok]
  set_option linter.unusedSimpArgs false in
  simp only [List.cons_append, List.nil_append, layout_append, layout_cons, layout_nil, List.append_assoc, List.append_nil, bin3_bitsOf]
  rfl


theorem C56_sgcn96 {u : Str} {x : SGCN} {f : Fin 8} (ha : Ascii u) (hu : SGCN.new u = .ok x) :
    x.binary .sgcn96 f = .ok (layout ([(8, 63), (3, f.val)] ++ keyLayout 44 x.companyPref x.couponRef ++ [(41, number ('1' :: x.serial))])) := by
  obtain ⟨C, D, S, ⟨hC, hD, hS⟩, hlen, e, rfl⟩ := SGCN.new_iff.1 hu
  obtain ⟨aC, aD, aS⟩ := ascii_uri3 (e ▸ ha)
  dsimp only
  have p1 := part_layout (t := SGCN.table) (W := 44) (T := 12) (by decide) (by decide) (by decide)
    (digits_of_dec_ascii hC.2 aC) (digits_of_dec_ascii hD aD) (by omega) (by omega) (by omega)
  have dS := digits_of_dec_ascii hS.2 aS
  have hw : 2 * 10 ^ S.length < 2 ^ 41 :=
    Nat.lt_of_le_of_lt (Nat.mul_le_mul_left 2 (Nat.pow_le_pow_right (by decide) hlen.2.1)) (by decide)
  have s1 := encodeNumeric_ok dS hw
  unfold SGCN.binary
  rw [filter_ok, ok_bind]
  dsimp only
  rw [p1, ok_bind, s1, ok_bind, pure_ok, bin_bitsOf (by decide) (numeric_lt dS hw)]
  set_option linter.unusedSimpArgs false in
  simp only [List.cons_append, List.nil_append, layout_append, layout_cons, layout_nil, List.append_assoc, List.append_nil, bin3_bitsOf]
  rfl


theorem C56_itip110 {u t : Str} {x : ITIP} {f : Fin 8} (ha : Ascii u) (hu : ITIP.new u = .ok x)
    (hp : x.piece.length = 2 ∧ number x.piece < 99) (hq : x.total.length = 2 ∧ number x.total < 99)
    (ht : x.tagUri .itip110 f = .ok t) :
    x.binary .itip110 f = .ok (layout ([(8, 64), (3, f.val)] ++ keyLayout 47 x.companyPref x.itemRef ++ [(7, number x.piece), (7, number x.total)] ++ [(38, number x.serial)])) := by
  have hs := ITIP.serial_of_tagUri hu ht
  obtain ⟨C, D, A, B, S, ⟨hC, hD, hA, hB, hS⟩, hlen, e, rfl⟩ := ITIP.new_iff.1 hu
  obtain ⟨aC, aD, aA, aB, aS⟩ := ascii_uri5 (e ▸ ha)
  dsimp only at hs hp hq ⊢
  have p1 := part_layout (t := ITIP.table) (W := 47) (T := 13) (by decide) (by decide) (by decide)
    (digits_of_dec_ascii hC.2 aC) (digits_of_dec_ascii hD.2 aD) (by omega) (by omega) (by omega)
  have q1 := (fixed_ok (digits_of_dec_ascii hA.2 aA) hp.1 hp.2).1
  have r1 := (fixed_ok (digits_of_dec_ascii hB.2 aB) hq.1 hq.2).1
  have s1 := (numeral_bin hs.1 38).1
  unfold ITIP.binary
  rw [filter_ok, ok_bind]
  dsimp only
  rw [p1, ok_bind, q1, ok_bind, r1, ok_bind, if_pos rfl, s1, ok_bind, pure_ok, bin_bitsOf (w := 7) (by decide) (by omega),
    bin_bitsOf (w := 7) (by decide) (by omega), bin_bitsOf (by decide) hs.2]
  set_option linter.unusedSimpArgs false in
  simp only [List.cons_append, List.nil_append, layout_append, layout_cons, layout_nil, List.append_assoc, List.append_nil, bin3_bitsOf]
  rfl


theorem C56_itip212 {u raw : Str} {x : ITIP} {f : Fin 8} (ha : Ascii u) (hu : ITIP.new u = .ok x)
    (hp : x.piece.length = 2 ∧ number x.piece < 99) (hq : x.total.length = 2 ∧ number x.total < 99)
    (hr : ∀ c ∈ raw, c ∈ gs82) (hs : x.serial = escape raw) :
    x.binary .itip212 f = .ok (layout ([(8, 65), (3, f.val)] ++ keyLayout 47 x.companyPref x.itemRef ++ [(7, number x.piece), (7, number x.total)] ++ textLayout 7 raw ++ [(140 - 7 * raw.length, 0)])) := by
  obtain ⟨C, D, A, B, S, ⟨hC, hD, hA, hB, hS⟩, hlen, e, rfl⟩ := ITIP.new_iff.1 hu
  obtain ⟨aC, aD, aA, aB, aS⟩ := ascii_uri5 (e ▸ ha)
  dsimp only at hs hp hq ⊢
  have p1 := part_layout (t := ITIP.table) (W := 47) (T := 13) (by decide) (by decide) (by decide)
    (digits_of_dec_ascii hC.2 aC) (digits_of_dec_ascii hD.2 aD) (by omega) (by omega) (by omega)
  have q1 := (fixed_ok (digits_of_dec_ascii hA.2 aA) hp.1 hp.2).1
  have r1 := (fixed_ok (digits_of_dec_ascii hB.2 aB) hq.1 hq.2).1
  unfold ITIP.binary
  rw [filter_ok, ok_bind]
  dsimp only
  rw [p1, ok_bind, q1, ok_bind, r1, ok_bind, if_neg (by decide), hs, text_layout hr, ok_bind, pure_ok, bin_bitsOf (w := 7) (by decide) (by omega),
    bin_bitsOf (w := 7) (by decide) (by omega)]
  set_option linter.unusedSimpArgs false in
  simp only [List.cons_append, List.nil_append, layout_append, layout_cons, layout_nil, List.append_assoc, List.append_nil, bin3_bitsOf]
  rfl


theorem C56_cpi96 {u t : Str} {x : CPI} {f : Fin 8} (ha : Ascii u) (hu : CPI.new u = .ok x) (ht : x.tagUri .cpi96 f = .ok t) :
    x.binary .cpi96 f = .ok (layout ([(8, 60), (3, f.val)] ++ keyLayout 54 x.companyPref x.cpRef ++ [(31, number x.serial)])) := by
  have hs := CPI.serial_of_tagUri ha hu ht
  obtain ⟨C, D, S, ⟨hC, hD, hS⟩, hlen, e, rfl⟩ := CPI.new_iff.1 hu
  obtain ⟨aC, aD, aS⟩ := ascii_uri3 (e ▸ ha)
  dsimp only at hs ⊢
  obtain ⟨r, hr, hL, _, hM⟩ := StdTable.rowL (t := CPI.table96) (n := C.length) (by decide) (by omega) (by omega)
  have hall : ∀ r ∈ CPI.table96, 3 + r.M + r.N = 54 ∧ 10 ^ (15 - r.L) ≤ 2 ^ r.N := by decide
  have hr2 := hall r hr
  have hlt : number D < 2 ^ (54 - 3 - prefixBits C.length) := by
    rw [← hM, show 54 - 3 - r.M = r.N by omega]
    refine Nat.lt_of_lt_of_le (number_lt hs.2.1.1) (Nat.le_trans (Nat.pow_le_pow_right (by decide) ?_) hr2.2)
    omega
  have p1 := part_layout_free (t := CPI.table96) (W := 54) (by decide) (by decide) (digits_of_dec_ascii hC.2 aC) hs.2.1
    (by omega) (by omega) hlt .plain (.inl rfl)
  have s1 := (numeral_bin (numeral_of_num hS aS) 31).1
  unfold CPI.binary
  rw [filter_ok, ok_bind, if_pos rfl]
  dsimp only
  rw [p1, ok_bind, if_pos rfl, s1, ok_bind, pure_ok, bin_bitsOf (by decide) hs.1]
  set_option linter.unusedSimpArgs false in
  simp only [List.cons_append, List.nil_append, layout_append, layout_cons, layout_nil, List.append_assoc, List.append_nil, bin3_bitsOf]
  rfl


theorem C56_cpi_var {u raw : Str} {x : CPI} {f : Fin 8} (ha : Ascii u) (hu : CPI.new u = .ok x)
    (hr : ∀ c ∈ raw, c ∈ gs39) (hs : x.cpRef = escape39 raw) :
    x.binary .cpiVar f = .ok (layout ([(8, 61), (3, f.val), (3, 12 - x.companyPref.length), (prefixBits x.companyPref.length, number x.companyPref)] ++
      textLayout 6 raw ++ [(6, 0), (40, number x.serial)])) := by
  obtain ⟨C, D, S, ⟨hC, hD, hS⟩, hlen, e, rfl⟩ := CPI.new_iff.1 hu
  obtain ⟨aC, aD, aS⟩ := ascii_uri3 (e ▸ ha)
  dsimp only at hs ⊢
  have p1 := part_layout_six (t := CPI.tableVar) (by decide) (digits_of_dec_ascii hC.2 aC) hr (by omega) (by omega)
  have nS := numeral_of_num hS aS
  have s1 := (numeral_bin nS 40).1
  have hlt : number S < 2 ^ 40 :=
    Nat.lt_of_lt_of_le (number_lt nS.1) (Nat.le_trans (Nat.pow_le_pow_right (by decide) hlen.2.1) (by decide))
  unfold CPI.binary
  rw [filter_ok, ok_bind, if_neg (by decide)]
  dsimp only
  rw [hs, p1, ok_bind, if_neg (by decide), s1, ok_bind, pure_ok, bin_bitsOf (by decide) hlt]
  set_option linter.unusedSimpArgs false in
  simp only [List.cons_append, List.nil_append, layout_append, layout_cons, layout_nil, List.append_assoc, List.append_nil, bin3_bitsOf]
  rfl


theorem C56_gid96 {u : Str} {x : GID} (ha : Ascii u) (hu : GID.new u = .ok x) :
    x.binary .gid96 = .ok (layout [(8, 53), (28, number x.manager), (24, number x.object), (36, number x.serial)]) := by
  obtain ⟨C, D, S, ⟨hC, hD, hS⟩, hlen, e, rfl⟩ := GID.new_iff.1 hu
  obtain ⟨aC, aD, aS⟩ := ascii_uri3 (e ▸ ha)
  have nC := numeral_of_num hC aC
  have nD := numeral_of_num hD aD
  have nS := numeral_of_num hS aS
  rw [decVal_Digits nC.1, decVal_Digits nD.1, decVal_Digits nS.1] at hlen
  unfold GID.binary
  dsimp only
  rw [(numeral_bin nC 28).1, ok_bind, (numeral_bin nD 24).1, ok_bind, (numeral_bin nS 36).1, ok_bind, pure_ok,
    bin_bitsOf (by decide) hlen.1, bin_bitsOf (by decide) hlen.2.1, bin_bitsOf (by decide) hlen.2.2]
  simp only [layout_cons, layout_nil, List.append_assoc, List.append_nil]
  rfl

/-- The CAGE code is aligned to the right: a space goes before one of five characters. -/
theorem C56_usdod96 {u : Str} {x : USDOD} {f : Fin 16} (ha : Ascii u) (hu : USDOD.new u = .ok x) :
    x.binary .usdod96 f = .ok (layout ([(8, 47), (4, f.val)] ++ textLayout 8 (List.replicate (6 - x.cage.length) ' ' ++ x.cage) ++
      [(36, number x.serial)])) := by
  obtain ⟨C, S, ⟨hC, hS⟩, hlen, e, rfl⟩ := USDOD.new_iff.1 hu
  obtain ⟨aC, aS⟩ := ascii_uri2 (e ▸ ha)
  have nS := numeral_of_num hS aS
  rw [decVal_Digits nS.1] at hlen
  have h : ∀ c ∈ List.replicate (6 - C.length) ' ' ++ C, c.toNat < 128 := by
    intro c hc
    rcases List.mem_append.1 hc with hc | hc
    · rw [List.eq_of_mem_replicate hc]; decide
    · exact (isCage_facts (((lang_cage C).1 hC).2 c hc)).2.2.2.2
  unfold USDOD.binary
  rw [filter_ok, ok_bind]
  dsimp only
  rw [encodeCage_eq, (numeral_bin nS 36).1, ok_bind, pure_ok, bin_bitsOf (by decide) hlen]
  simp only [List.cons_append, List.nil_append, layout_append, layout_cons, layout_nil, List.append_assoc, List.append_nil, bin4_bitsOf]
  rw [layout_eight h]
  rfl

theorem C56_adi_var {u rp rs : Str} {x : ADI} {f : Fin 64} (hu : ADI.new u = .ok x)
    (hp : ∀ c ∈ rp, c ∈ gs39) (ep : x.partNumber = escape39 rp) (hr : ∀ c ∈ rs, c ∈ gs39) (es : x.serial = escape39 rs) :
    x.binary .adiVar f = .ok (layout ([(8, 59), (6, f.val)] ++ textLayout 6 (List.replicate (6 - x.cage.length) ' ' ++ x.cage) ++
      textLayout 6 rp ++ [(6, 0)] ++ textLayout 6 rs ++ [(6, 0)])) := by
  obtain ⟨_, _, _, _, hC, _⟩ := ADI.parts hu
  obtain ⟨hl, hc⟩ := (lang_cage x.cage).1 hC
  have hg : ∀ c ∈ x.cage, c ∈ gs39 := fun c h => (isCage_facts (hc c h)).1
  have he := encodeSix_escape hg
  rw [escape39_cage hc] at he
  have ht : sliceToI (code6 x.cage ++ py "000000") (-6) = code6 x.cage := by
    rw [show (-6 : Int) = -((6 : Nat) : Int) from rfl, sliceToI_neg _ _ (by decide) (by simp)]
    exact take_append_eq (by simp)
  have c1 : encodeCageCodeSixBits x.cage = .ok (code6 (List.replicate (6 - x.cage.length) ' ' ++ x.cage)) := by
    unfold encodeCageCodeSixBits
    rw [he, ok_bind]
    dsimp only
    rw [ht, pure_ok, length_code6]
    rcases (by omega : x.cage.length = 5 ∨ x.cage.length = 6) with h | h <;> rw [h] <;> rfl
  unfold ADI.binary
  rw [filter_ok, ok_bind, c1, ok_bind, ep, encodeSix_escape hp, ok_bind, es, encodeSix_escape hr, ok_bind, pure_ok]
  simp only [List.cons_append, List.nil_append, layout_append, layout_cons, layout_nil, List.append_assoc, List.append_nil, bin6_bitsOf,
    layout_six]
  rfl

/-- The hypotheses are met: encodings of concrete identifiers. -/
example : (do let x ← SGTIN.new (py "urn:epc:id:sgtin:0614141.812345.6789"); x.binary .sgtin96 3) =
    .ok (layout [(8, 48), (3, 3), (3, 5), (24, 614141), (20, 812345), (38, 6789)]) := by decide +kernel

example : (do let x ← SGTIN.new (py "urn:epc:id:sgtin:0614141.812345.6789"); x.tagUri .sgtin96 3) =
    .ok (py "urn:epc:tag:sgtin-96:3.0614141.812345.6789") := by decide +kernel

example : (do let x ← GRAI.new (py "urn:epc:id:grai:061414112345..a%2Fb"); x.binary .grai170 0) =
    .ok (layout [(8, 55), (3, 0), (3, 0), (40, 61414112345), (4, 0), (7, 97), (7, 47), (7, 98), (91, 0)]) := by decide +kernel

example : (do let x ← CPI.new (py "urn:epc:id:cpi:0614141.5PQ7%2FZ43.12345"); x.binary .cpiVar 1) =
    .ok (layout [(8, 61), (3, 1), (3, 5), (24, 614141), (6, 53), (6, 16), (6, 17), (6, 55), (6, 47), (6, 26), (6, 52), (6, 51), (6, 0),
      (40, 12345)]) := by decide +kernel

example : (do let x ← ADI.new (py "urn:epc:id:adi:2S194..12345678901"); x.binary .adiVar 1) =
    .ok (layout ([(8, 59), (6, 1), (6, 32), (6, 50), (6, 19), (6, 49), (6, 57), (6, 52), (6, 0)] ++ textLayout 6 (py "12345678901") ++ [(6, 0)])) := by
  decide +kernel

end Epc
