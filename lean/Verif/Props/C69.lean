/-
C69: what `binary` does with any serial number whatsoever.

C56 lists the bits of an encoding when the tag URI exists.  `binary` does not check that: here is what it returns, or raises, for every accepted URI,
also when the coding scheme cannot express the serial number.

A numeric coding scheme reads the serial number as a Python integer.  If it is one (`IntText`: perhaps a sign, digits, single underscores between
them) the result is its binary form, filled with zeros to the width of the field: longer than the field when the number is too large, and with a
minus sign among the bits when it is negative.  If it is not, `binary` raises a ValueError.

A coding scheme with a text cuts the serial number before and after every percent sign with two hexadecimal digits (`escPieces`) and encodes the
pieces (`TextBits`): a piece that starts with a percent sign is, as a whole, one hexadecimal number, the others are texts.  If one of the former is
no hexadecimal number `binary` raises a ValueError.

The other coding schemes always succeed (for ADI, whose URIs are ASCII, C56 says this).

Decimal digits of any script may stand in the other components (`asciiDigits` maps them to 0-9).
-/
import Verif.Lemmas.Encode
import Verif.Lemmas.AvailAny
import Verif.Props.C63
import Verif.Props.C56

namespace Epc
open Spec Re

private theorem serial_noSpace {s : Str} (h : Lang Rx.gs3a3 s) : ∀ c ∈ s, c.toNat < 127 ∧ isCSpace c = false :=
  fun c hc => ⟨(gs82_noSpace ((lang_serialText.1 h).2.1 c hc).1).1, (gs82_noSpace ((lang_serialText.1 h).2.1 c hc).1).2.1⟩

private theorem cpref_noSpace {s : Str} (h : Lang Rx.cpref s) : ∀ c ∈ s, c.toNat < 127 ∧ isCSpace c = false := by
  obtain ⟨raw, _, h1, rfl⟩ := (lang_cpref s).1 h
  have key : ∀ c ∈ gs39, ∀ d ∈ escChar39 c, d.toNat < 127 ∧ isCSpace d = false := by decide
  intro c hc
  obtain ⟨r, hr, hc⟩ := List.mem_flatMap.1 hc
  exact key r (h1 r hr) c hc

private theorem part_error {t : List Row} {r : Row} (ht : TableOk t) (hr : r ∈ t) {C D : Str} {mode : PartMode} {e : Err} (hC : Digits C)
    (hl : r.L = C.length) (hd : encodeRef D r mode = .error e) : encodePartitionTable C D t mode = .error e := by
  obtain ⟨⟨_, _, hL, _⟩, h2, _⟩ := ht r hr
  have hne : C ≠ [] := by intro h; rw [h] at hl; simp at hl; omega
  unfold encodePartitionTable
  rw [← hl, h2]
  show (strToBinary C r.M >>= _) = _
  rw [strToBinary_decimal (isDecimal_of_Digits hC) hne, decVal_Digits hC]
  show (encodeRef D r mode >>= _) = _
  rw [hd]
  rfl

private theorem fixed_lt {A : Str} (hA : Digits A) (hne : A ≠ []) (hlt : number A < 99) :
    encodeFixedWidthInteger A 7 = .ok (bitsOf 7 (number A)) := by
  have hd : fixedDigits 7 = 2 := by decide
  unfold encodeFixedWidthInteger
  rw [pyInt_Digits hA hne, ok_bind, hd, if_neg (by omega), strToBinary_decimal (isDecimal_of_Digits hA) hne, decVal_Digits hA,
    bin_bitsOf (by decide) (by omega)]

private theorem fixed_ge {A : Str} (hA : Digits A) (hne : A ≠ []) (hge : 99 ≤ number A) :
    encodeFixedWidthInteger A 7 = .error .convert := by
  have hd : fixedDigits 7 = 2 := by decide
  unfold encodeFixedWidthInteger
  rw [pyInt_Digits hA hne, ok_bind, hd, if_pos (by omega)]

private theorem a69_sgtin96 {u : Str} {x : SGTIN} {f : Fin 8} (ha : Ascii u) (hu : SGTIN.new u = .ok x) :
    (∀ i, IntText x.serial i → x.binary .sgtin96 f = .ok (layout ([(8, 48), (3, f.val)] ++ keyLayout 47 x.companyPref x.itemRef) ++ signedBits 38 i)) ∧
      ((¬ ∃ i, IntText x.serial i) → x.binary .sgtin96 f = .error .value) := by
  obtain ⟨C, D, S, ⟨hC, hD, hS⟩, hlen, e, rfl⟩ := SGTIN.new_iff.1 hu
  obtain ⟨aC, aD, aS⟩ := ascii_uri3 (e ▸ ha)
  dsimp only
  have p1 := part_layout (t := SGTIN.table) (W := 47) (T := 13) (by decide) (by decide) (by decide)
    (digits_of_dec_ascii hC.2 aC) (digits_of_dec_ascii hD.2 aD) (by omega) (by omega) (by omega)
  obtain ⟨h1, h2⟩ := strToBinary_text (serial_noSpace hS) (w := 38) (by decide)
  unfold SGTIN.binary
  rw [filter_ok, ok_bind]
  dsimp only
  rw [p1, ok_bind, if_pos rfl]
  constructor
  · intro i hi
    rw [h1 i hi, ok_bind, pure_ok]
    set_option linter.unusedSimpArgs false in
    simp only [List.cons_append, List.nil_append, layout_append, layout_cons, layout_nil, List.append_assoc, List.append_nil, bin3_bitsOf]
    rfl
  · intro hn
    rw [h2 hn, error_bind]

theorem C69_sgtin96 {u : Str} {x : SGTIN} {f : Fin 8} (hu : SGTIN.new u = .ok x) :
    (∀ i, IntText x.serial i → x.binary .sgtin96 f = .ok (layout ([(8, 48), (3, f.val)] ++ keyLayout 47 (asciiDigits x.companyPref) (asciiDigits x.itemRef)) ++ signedBits 38 i)) ∧
      ((¬ ∃ i, IntText x.serial i) → x.binary .sgtin96 f = .error .value) := by
  obtain ⟨y, ha, hy, e, rest⟩ := C63_sgtin u x hu
  have h := a69_sgtin96 (f := f) ha hy
  rw [(rest.2.2 .sgtin96 f).2] at h
  subst e
  obtain ⟨C, D, S, ⟨hC, hD, hS⟩, hlen, e, rfl⟩ := SGTIN.new_iff.1 hu
  dsimp only at h ⊢
  rwa [asciiDigits_ascii (gs3a3_ascii hS)] at h

private theorem a69_sgtin198 {u : Str} {x : SGTIN} {f : Fin 8} (ha : Ascii u) (hu : SGTIN.new u = .ok x) :
    (∀ b, TextBits (escPieces x.serial) b → x.binary .sgtin198 f = .ok (layout ([(8, 54), (3, f.val)] ++ keyLayout 47 x.companyPref x.itemRef) ++ fillRight 140 b)) ∧
      (∀ g, '%' :: g ∈ escPieces x.serial → (¬ ∃ n, HexText g n) → x.binary .sgtin198 f = .error .value) := by
  obtain ⟨C, D, S, ⟨hC, hD, hS⟩, hlen, e, rfl⟩ := SGTIN.new_iff.1 hu
  obtain ⟨aC, aD, aS⟩ := ascii_uri3 (e ▸ ha)
  dsimp only
  have p1 := part_layout (t := SGTIN.table) (W := 47) (T := 13) (by decide) (by decide) (by decide)
    (digits_of_dec_ascii hC.2 aC) (digits_of_dec_ascii hD.2 aD) (by omega) (by omega) (by omega)
  obtain ⟨h1, h2⟩ := encodeString_text (lang_serialText.1 hS) 140
  unfold SGTIN.binary
  rw [filter_ok, ok_bind]
  dsimp only
  rw [p1, ok_bind, if_neg (by decide)]
  constructor
  · intro b hb
    rw [h1 b hb, ok_bind, pure_ok]
    set_option linter.unusedSimpArgs false in
    simp only [List.cons_append, List.nil_append, layout_append, layout_cons, layout_nil, List.append_assoc, List.append_nil, bin3_bitsOf]
    rfl
  · intro g hg hn
    rw [h2 g hg hn, error_bind]

theorem C69_sgtin198 {u : Str} {x : SGTIN} {f : Fin 8} (hu : SGTIN.new u = .ok x) :
    (∀ b, TextBits (escPieces x.serial) b → x.binary .sgtin198 f = .ok (layout ([(8, 54), (3, f.val)] ++ keyLayout 47 (asciiDigits x.companyPref) (asciiDigits x.itemRef)) ++ fillRight 140 b)) ∧
      (∀ g, '%' :: g ∈ escPieces x.serial → (¬ ∃ n, HexText g n) → x.binary .sgtin198 f = .error .value) := by
  obtain ⟨y, ha, hy, e, rest⟩ := C63_sgtin u x hu
  have h := a69_sgtin198 (f := f) ha hy
  rw [(rest.2.2 .sgtin198 f).2] at h
  subst e
  obtain ⟨C, D, S, ⟨hC, hD, hS⟩, hlen, e, rfl⟩ := SGTIN.new_iff.1 hu
  dsimp only at h ⊢
  rwa [asciiDigits_ascii (gs3a3_ascii hS)] at h

private theorem a69_sgln96 {u : Str} {x : SGLN} {f : Fin 8} (ha : Ascii u) (hu : SGLN.new u = .ok x) :
    (∀ i, IntText x.serial i → x.binary .sgln96 f = .ok (layout ([(8, 50), (3, f.val)] ++ keyLayout 44 x.companyPref x.locationRef) ++ signedBits 41 i)) ∧
      ((¬ ∃ i, IntText x.serial i) → x.binary .sgln96 f = .error .value) := by
  obtain ⟨C, D, S, ⟨hC, hD, hS⟩, hlen, e, rfl⟩ := SGLN.new_iff.1 hu
  obtain ⟨aC, aD, aS⟩ := ascii_uri3 (e ▸ ha)
  dsimp only
  have p1 := part_layout (t := SGLN.table) (W := 44) (T := 12) (by decide) (by decide) (by decide)
    (digits_of_dec_ascii hC.2 aC) (digits_of_dec_ascii hD aD) (by omega) (by omega) (by omega)
  obtain ⟨h1, h2⟩ := strToBinary_text (serial_noSpace hS) (w := 41) (by decide)
  unfold SGLN.binary
  rw [filter_ok, ok_bind]
  dsimp only
  rw [p1, ok_bind, if_pos rfl]
  constructor
  · intro i hi
    rw [h1 i hi, ok_bind, pure_ok]
    set_option linter.unusedSimpArgs false in
    simp only [List.cons_append, List.nil_append, layout_append, layout_cons, layout_nil, List.append_assoc, List.append_nil, bin3_bitsOf]
    rfl
  · intro hn
    rw [h2 hn, error_bind]

theorem C69_sgln96 {u : Str} {x : SGLN} {f : Fin 8} (hu : SGLN.new u = .ok x) :
    (∀ i, IntText x.serial i → x.binary .sgln96 f = .ok (layout ([(8, 50), (3, f.val)] ++ keyLayout 44 (asciiDigits x.companyPref) (asciiDigits x.locationRef)) ++ signedBits 41 i)) ∧
      ((¬ ∃ i, IntText x.serial i) → x.binary .sgln96 f = .error .value) := by
  obtain ⟨y, ha, hy, e, rest⟩ := C63_sgln u x hu
  have h := a69_sgln96 (f := f) ha hy
  rw [(rest.2.2 .sgln96 f).2] at h
  subst e
  obtain ⟨C, D, S, ⟨hC, hD, hS⟩, hlen, e, rfl⟩ := SGLN.new_iff.1 hu
  dsimp only at h ⊢
  rwa [asciiDigits_ascii (gs3a3_ascii hS)] at h

private theorem a69_sgln195 {u : Str} {x : SGLN} {f : Fin 8} (ha : Ascii u) (hu : SGLN.new u = .ok x) :
    (∀ b, TextBits (escPieces x.serial) b → x.binary .sgln195 f = .ok (layout ([(8, 57), (3, f.val)] ++ keyLayout 44 x.companyPref x.locationRef) ++ fillRight 140 b)) ∧
      (∀ g, '%' :: g ∈ escPieces x.serial → (¬ ∃ n, HexText g n) → x.binary .sgln195 f = .error .value) := by
  obtain ⟨C, D, S, ⟨hC, hD, hS⟩, hlen, e, rfl⟩ := SGLN.new_iff.1 hu
  obtain ⟨aC, aD, aS⟩ := ascii_uri3 (e ▸ ha)
  dsimp only
  have p1 := part_layout (t := SGLN.table) (W := 44) (T := 12) (by decide) (by decide) (by decide)
    (digits_of_dec_ascii hC.2 aC) (digits_of_dec_ascii hD aD) (by omega) (by omega) (by omega)
  obtain ⟨h1, h2⟩ := encodeString_text (lang_serialText.1 hS) 140
  unfold SGLN.binary
  rw [filter_ok, ok_bind]
  dsimp only
  rw [p1, ok_bind, if_neg (by decide)]
  constructor
  · intro b hb
    rw [h1 b hb, ok_bind, pure_ok]
    set_option linter.unusedSimpArgs false in
    simp only [List.cons_append, List.nil_append, layout_append, layout_cons, layout_nil, List.append_assoc, List.append_nil, bin3_bitsOf]
    rfl
  · intro g hg hn
    rw [h2 g hg hn, error_bind]

theorem C69_sgln195 {u : Str} {x : SGLN} {f : Fin 8} (hu : SGLN.new u = .ok x) :
    (∀ b, TextBits (escPieces x.serial) b → x.binary .sgln195 f = .ok (layout ([(8, 57), (3, f.val)] ++ keyLayout 44 (asciiDigits x.companyPref) (asciiDigits x.locationRef)) ++ fillRight 140 b)) ∧
      (∀ g, '%' :: g ∈ escPieces x.serial → (¬ ∃ n, HexText g n) → x.binary .sgln195 f = .error .value) := by
  obtain ⟨y, ha, hy, e, rest⟩ := C63_sgln u x hu
  have h := a69_sgln195 (f := f) ha hy
  rw [(rest.2.2 .sgln195 f).2] at h
  subst e
  obtain ⟨C, D, S, ⟨hC, hD, hS⟩, hlen, e, rfl⟩ := SGLN.new_iff.1 hu
  dsimp only at h ⊢
  rwa [asciiDigits_ascii (gs3a3_ascii hS)] at h

private theorem a69_grai96 {u : Str} {x : GRAI} {f : Fin 8} (ha : Ascii u) (hu : GRAI.new u = .ok x) :
    (∀ i, IntText x.serial i → x.binary .grai96 f = .ok (layout ([(8, 51), (3, f.val)] ++ keyLayout 47 x.companyPref x.assetType) ++ signedBits 38 i)) ∧
      ((¬ ∃ i, IntText x.serial i) → x.binary .grai96 f = .error .value) := by
  obtain ⟨C, D, S, ⟨hC, hD, hS⟩, hlen, e, rfl⟩ := GRAI.new_iff.1 hu
  obtain ⟨aC, aD, aS⟩ := ascii_uri3 (e ▸ ha)
  dsimp only
  have p1 := part_layout (t := GRAI.table) (W := 47) (T := 12) (by decide) (by decide) (by decide)
    (digits_of_dec_ascii hC.2 aC) (digits_of_dec_ascii hD aD) (by omega) (by omega) (by omega)
  obtain ⟨h1, h2⟩ := strToBinary_text (serial_noSpace hS) (w := 38) (by decide)
  unfold GRAI.binary
  rw [filter_ok, ok_bind]
  dsimp only
  rw [p1, ok_bind, if_pos rfl]
  constructor
  · intro i hi
    rw [h1 i hi, ok_bind, pure_ok]
    set_option linter.unusedSimpArgs false in
    simp only [List.cons_append, List.nil_append, layout_append, layout_cons, layout_nil, List.append_assoc, List.append_nil, bin3_bitsOf]
    rfl
  · intro hn
    rw [h2 hn, error_bind]

theorem C69_grai96 {u : Str} {x : GRAI} {f : Fin 8} (hu : GRAI.new u = .ok x) :
    (∀ i, IntText x.serial i → x.binary .grai96 f = .ok (layout ([(8, 51), (3, f.val)] ++ keyLayout 47 (asciiDigits x.companyPref) (asciiDigits x.assetType)) ++ signedBits 38 i)) ∧
      ((¬ ∃ i, IntText x.serial i) → x.binary .grai96 f = .error .value) := by
  obtain ⟨y, ha, hy, e, rest⟩ := C63_grai u x hu
  have h := a69_grai96 (f := f) ha hy
  rw [(rest.2.2 .grai96 f).2] at h
  subst e
  obtain ⟨C, D, S, ⟨hC, hD, hS⟩, hlen, e, rfl⟩ := GRAI.new_iff.1 hu
  dsimp only at h ⊢
  rwa [asciiDigits_ascii (gs3a3_ascii hS)] at h

private theorem a69_grai170 {u : Str} {x : GRAI} {f : Fin 8} (ha : Ascii u) (hu : GRAI.new u = .ok x) :
    (∀ b, TextBits (escPieces x.serial) b → x.binary .grai170 f = .ok (layout ([(8, 55), (3, f.val)] ++ keyLayout 47 x.companyPref x.assetType) ++ fillRight 112 b)) ∧
      (∀ g, '%' :: g ∈ escPieces x.serial → (¬ ∃ n, HexText g n) → x.binary .grai170 f = .error .value) := by
  obtain ⟨C, D, S, ⟨hC, hD, hS⟩, hlen, e, rfl⟩ := GRAI.new_iff.1 hu
  obtain ⟨aC, aD, aS⟩ := ascii_uri3 (e ▸ ha)
  dsimp only
  have p1 := part_layout (t := GRAI.table) (W := 47) (T := 12) (by decide) (by decide) (by decide)
    (digits_of_dec_ascii hC.2 aC) (digits_of_dec_ascii hD aD) (by omega) (by omega) (by omega)
  obtain ⟨h1, h2⟩ := encodeString_text (lang_serialText.1 hS) 112
  unfold GRAI.binary
  rw [filter_ok, ok_bind]
  dsimp only
  rw [p1, ok_bind, if_neg (by decide)]
  constructor
  · intro b hb
    rw [h1 b hb, ok_bind, pure_ok]
    set_option linter.unusedSimpArgs false in
    simp only [List.cons_append, List.nil_append, layout_append, layout_cons, layout_nil, List.append_assoc, List.append_nil, bin3_bitsOf]
    rfl
  · intro g hg hn
    rw [h2 g hg hn, error_bind]

theorem C69_grai170 {u : Str} {x : GRAI} {f : Fin 8} (hu : GRAI.new u = .ok x) :
    (∀ b, TextBits (escPieces x.serial) b → x.binary .grai170 f = .ok (layout ([(8, 55), (3, f.val)] ++ keyLayout 47 (asciiDigits x.companyPref) (asciiDigits x.assetType)) ++ fillRight 112 b)) ∧
      (∀ g, '%' :: g ∈ escPieces x.serial → (¬ ∃ n, HexText g n) → x.binary .grai170 f = .error .value) := by
  obtain ⟨y, ha, hy, e, rest⟩ := C63_grai u x hu
  have h := a69_grai170 (f := f) ha hy
  rw [(rest.2.2 .grai170 f).2] at h
  subst e
  obtain ⟨C, D, S, ⟨hC, hD, hS⟩, hlen, e, rfl⟩ := GRAI.new_iff.1 hu
  dsimp only at h ⊢
  rwa [asciiDigits_ascii (gs3a3_ascii hS)] at h

private theorem a69_gdti96 {u : Str} {x : GDTI} {f : Fin 8} (ha : Ascii u) (hu : GDTI.new u = .ok x) :
    (∀ i, IntText x.serial i → x.binary .gdti96 f = .ok (layout ([(8, 44), (3, f.val)] ++ keyLayout 44 x.companyPref x.docType) ++ signedBits 41 i)) ∧
      ((¬ ∃ i, IntText x.serial i) → x.binary .gdti96 f = .error .value) := by
  obtain ⟨C, D, S, ⟨hC, hD, hS⟩, hlen, e, rfl⟩ := GDTI.new_iff.1 hu
  obtain ⟨aC, aD, aS⟩ := ascii_uri3 (e ▸ ha)
  dsimp only
  have p1 := part_layout (t := GDTI.table) (W := 44) (T := 12) (by decide) (by decide) (by decide)
    (digits_of_dec_ascii hC.2 aC) (digits_of_dec_ascii hD aD) (by omega) (by omega) (by omega)
  obtain ⟨h1, h2⟩ := strToBinary_text (serial_noSpace hS) (w := 41) (by decide)
  unfold GDTI.binary
  rw [filter_ok, ok_bind]
  dsimp only
  rw [p1, ok_bind, if_pos rfl]
  constructor
  · intro i hi
    rw [h1 i hi, ok_bind, pure_ok]
    set_option linter.unusedSimpArgs false in
    simp only [List.cons_append, List.nil_append, layout_append, layout_cons, layout_nil, List.append_assoc, List.append_nil, bin3_bitsOf]
    rfl
  · intro hn
    rw [h2 hn, error_bind]

theorem C69_gdti96 {u : Str} {x : GDTI} {f : Fin 8} (hu : GDTI.new u = .ok x) :
    (∀ i, IntText x.serial i → x.binary .gdti96 f = .ok (layout ([(8, 44), (3, f.val)] ++ keyLayout 44 (asciiDigits x.companyPref) (asciiDigits x.docType)) ++ signedBits 41 i)) ∧
      ((¬ ∃ i, IntText x.serial i) → x.binary .gdti96 f = .error .value) := by
  obtain ⟨y, ha, hy, e, rest⟩ := C63_gdti u x hu
  have h := a69_gdti96 (f := f) ha hy
  rw [(rest.2.2 .gdti96 f).2] at h
  subst e
  obtain ⟨C, D, S, ⟨hC, hD, hS⟩, hlen, e, rfl⟩ := GDTI.new_iff.1 hu
  dsimp only at h ⊢
  rwa [asciiDigits_ascii (gs3a3_ascii hS)] at h

private theorem a69_gdti174 {u : Str} {x : GDTI} {f : Fin 8} (ha : Ascii u) (hu : GDTI.new u = .ok x) :
    (∀ b, TextBits (escPieces x.serial) b → x.binary .gdti174 f = .ok (layout ([(8, 62), (3, f.val)] ++ keyLayout 44 x.companyPref x.docType) ++ fillRight 119 b)) ∧
      (∀ g, '%' :: g ∈ escPieces x.serial → (¬ ∃ n, HexText g n) → x.binary .gdti174 f = .error .value) := by
  obtain ⟨C, D, S, ⟨hC, hD, hS⟩, hlen, e, rfl⟩ := GDTI.new_iff.1 hu
  obtain ⟨aC, aD, aS⟩ := ascii_uri3 (e ▸ ha)
  dsimp only
  have p1 := part_layout (t := GDTI.table) (W := 44) (T := 12) (by decide) (by decide) (by decide)
    (digits_of_dec_ascii hC.2 aC) (digits_of_dec_ascii hD aD) (by omega) (by omega) (by omega)
  obtain ⟨h1, h2⟩ := encodeString_text (lang_serialText.1 hS) 119
  unfold GDTI.binary
  rw [filter_ok, ok_bind]
  dsimp only
  rw [p1, ok_bind, if_neg (by decide)]
  constructor
  · intro b hb
    rw [h1 b hb, ok_bind, pure_ok]
    set_option linter.unusedSimpArgs false in
    simp only [List.cons_append, List.nil_append, layout_append, layout_cons, layout_nil, List.append_assoc, List.append_nil, bin3_bitsOf]
    rfl
  · intro g hg hn
    rw [h2 g hg hn, error_bind]

theorem C69_gdti174 {u : Str} {x : GDTI} {f : Fin 8} (hu : GDTI.new u = .ok x) :
    (∀ b, TextBits (escPieces x.serial) b → x.binary .gdti174 f = .ok (layout ([(8, 62), (3, f.val)] ++ keyLayout 44 (asciiDigits x.companyPref) (asciiDigits x.docType)) ++ fillRight 119 b)) ∧
      (∀ g, '%' :: g ∈ escPieces x.serial → (¬ ∃ n, HexText g n) → x.binary .gdti174 f = .error .value) := by
  obtain ⟨y, ha, hy, e, rest⟩ := C63_gdti u x hu
  have h := a69_gdti174 (f := f) ha hy
  rw [(rest.2.2 .gdti174 f).2] at h
  subst e
  obtain ⟨C, D, S, ⟨hC, hD, hS⟩, hlen, e, rfl⟩ := GDTI.new_iff.1 hu
  dsimp only at h ⊢
  rwa [asciiDigits_ascii (gs3a3_ascii hS)] at h

private theorem a69_giai96 {u : Str} {x : GIAI} {f : Fin 8} (ha : Ascii u) (hu : GIAI.new u = .ok x) :
    (∀ i, IntText x.assetRef i → x.binary .giai96 f = .ok (layout [(8, 52), (3, f.val), (3, 12 - x.companyPref.length), (prefixBits x.companyPref.length, number x.companyPref)] ++ signedBits (82 - prefixBits x.companyPref.length) i)) ∧
      ((¬ ∃ i, IntText x.assetRef i) → x.binary .giai96 f = .error .value) := by
  obtain ⟨C, S, ⟨hC, hS⟩, hlen, e, rfl⟩ := GIAI.new_iff.1 hu
  obtain ⟨aC, aS⟩ := ascii_uri2 (e ▸ ha)
  have hne : (split ':' S).headD [] ≠ [] := by
    intro h
    rw [h] at hlen
    exact absurd hlen.2.1 (by decide)
  have hS2 : Lang Rx.gs3a3 ((split ':' S).headD []) := gs3a3_head hS hne
  clear hne
  generalize (split ':' S).headD [] = S at hS2 hlen ⊢
  dsimp only
  have dC := digits_of_dec_ascii hC.2 aC
  obtain ⟨r, hr, hL, hP, hM⟩ := StdTable.rowL (t := GIAI.table96) (n := C.length) (by decide) (by omega) (by omega)
  have hall : ∀ r ∈ GIAI.table96, 3 + r.M + r.N = 85 ∧ r.K ≠ 0 ∧ 1 < r.N := by decide
  obtain ⟨w1, w2, w3⟩ := hall r hr
  have hN : 82 - prefixBits C.length = r.N := by omega
  have hR : encodeRef S r .plain = strToBinary S r.N := if_pos w2
  obtain ⟨h1, h2⟩ := strToBinary_text (serial_noSpace hS2) (w := r.N) (by omega)
  rw [← hR] at h1 h2
  unfold GIAI.binary
  rw [filter_ok, ok_bind, if_pos rfl]
  dsimp only
  constructor
  · intro i hi
    rw [part_start (by decide) hr dC hL hP hM (h1 i hi), ok_bind, pure_ok, hN]
    set_option linter.unusedSimpArgs false in
    simp only [List.cons_append, List.nil_append, layout_append, layout_cons, layout_nil, List.append_assoc, List.append_nil, bin3_bitsOf]
    rfl
  · intro hn
    rw [part_error (by decide) hr dC hL (h2 hn), error_bind]

theorem C69_giai96 {u : Str} {x : GIAI} {f : Fin 8} (hu : GIAI.new u = .ok x) :
    (∀ i, IntText x.assetRef i → x.binary .giai96 f = .ok (layout [(8, 52), (3, f.val), (3, 12 - x.companyPref.length), (prefixBits x.companyPref.length, number (asciiDigits x.companyPref))] ++ signedBits (82 - prefixBits x.companyPref.length) i)) ∧
      ((¬ ∃ i, IntText x.assetRef i) → x.binary .giai96 f = .error .value) := by
  obtain ⟨y, ha, hy, e, rest⟩ := C63_giai u x hu
  have h := a69_giai96 (f := f) ha hy
  rw [(rest.2.2 .giai96 f).2] at h
  subst e
  obtain ⟨C, S, ⟨hC, hS⟩, hlen, e, rfl⟩ := GIAI.new_iff.1 hu
  have hne : (split ':' S).headD [] ≠ [] := by
    intro h
    rw [h] at hlen
    exact absurd hlen.2.1 (by decide)
  have hS2 : Lang Rx.gs3a3 ((split ':' S).headD []) := gs3a3_head hS hne
  dsimp only at h ⊢
  rwa [asciiDigits_ascii (gs3a3_ascii hS2), length_asciiDigits] at h

private theorem a69_giai202 {u : Str} {x : GIAI} {f : Fin 8} (ha : Ascii u) (hu : GIAI.new u = .ok x) :
    (∀ b, TextBits (escPieces x.assetRef) b → x.binary .giai202 f = .ok (layout [(8, 56), (3, f.val), (3, 12 - x.companyPref.length), (prefixBits x.companyPref.length, number x.companyPref)] ++ fillRight (188 - prefixBits x.companyPref.length) b)) ∧
      (∀ g, '%' :: g ∈ escPieces x.assetRef → (¬ ∃ n, HexText g n) → x.binary .giai202 f = .error .value) := by
  obtain ⟨C, S, ⟨hC, hS⟩, hlen, e, rfl⟩ := GIAI.new_iff.1 hu
  obtain ⟨aC, aS⟩ := ascii_uri2 (e ▸ ha)
  have hne : (split ':' S).headD [] ≠ [] := by
    intro h
    rw [h] at hlen
    exact absurd hlen.2.1 (by decide)
  have hS2 : Lang Rx.gs3a3 ((split ':' S).headD []) := gs3a3_head hS hne
  clear hne
  generalize (split ':' S).headD [] = S at hS2 hlen ⊢
  dsimp only
  have dC := digits_of_dec_ascii hC.2 aC
  obtain ⟨r, hr, hL, hP, hM⟩ := StdTable.rowL (t := GIAI.table202) (n := C.length) (by decide) (by omega) (by omega)
  have hall : ∀ r ∈ GIAI.table202, 3 + r.M + r.N = 191 ∧ r.K ≠ 0 ∧ 1 < r.N := by decide
  obtain ⟨w1, w2, w3⟩ := hall r hr
  have hN : 188 - prefixBits C.length = r.N := by omega
  have hR : encodeRef S r .string = encodeString S r.N := rfl
  obtain ⟨h1, h2⟩ := encodeString_text (lang_serialText.1 hS2) r.N
  rw [← hR] at h1 h2
  unfold GIAI.binary
  rw [filter_ok, ok_bind, if_neg (by decide)]
  dsimp only
  constructor
  · intro b hb
    rw [part_start (by decide) hr dC hL hP hM (h1 b hb), ok_bind, pure_ok, hN]
    set_option linter.unusedSimpArgs false in
    simp only [List.cons_append, List.nil_append, layout_append, layout_cons, layout_nil, List.append_assoc, List.append_nil, bin3_bitsOf]
    rfl
  · intro g hg hn
    rw [part_error (by decide) hr dC hL (h2 g hg hn), error_bind]

theorem C69_giai202 {u : Str} {x : GIAI} {f : Fin 8} (hu : GIAI.new u = .ok x) :
    (∀ b, TextBits (escPieces x.assetRef) b → x.binary .giai202 f = .ok (layout [(8, 56), (3, f.val), (3, 12 - x.companyPref.length), (prefixBits x.companyPref.length, number (asciiDigits x.companyPref))] ++ fillRight (188 - prefixBits x.companyPref.length) b)) ∧
      (∀ g, '%' :: g ∈ escPieces x.assetRef → (¬ ∃ n, HexText g n) → x.binary .giai202 f = .error .value) := by
  obtain ⟨y, ha, hy, e, rest⟩ := C63_giai u x hu
  have h := a69_giai202 (f := f) ha hy
  rw [(rest.2.2 .giai202 f).2] at h
  subst e
  obtain ⟨C, S, ⟨hC, hS⟩, hlen, e, rfl⟩ := GIAI.new_iff.1 hu
  have hne : (split ':' S).headD [] ≠ [] := by
    intro h
    rw [h] at hlen
    exact absurd hlen.2.1 (by decide)
  have hS2 : Lang Rx.gs3a3 ((split ':' S).headD []) := gs3a3_head hS hne
  dsimp only at h ⊢
  rwa [asciiDigits_ascii (gs3a3_ascii hS2), length_asciiDigits] at h

private theorem a69_itip110 {u : Str} {x : ITIP} {f : Fin 8} (ha : Ascii u) (hu : ITIP.new u = .ok x) :
    ((99 ≤ number x.piece ∨ 99 ≤ number x.total) → x.binary .itip110 f = .error .convert) ∧
    (number x.piece < 99 → number x.total < 99 →
      (∀ i, IntText x.serial i → x.binary .itip110 f = .ok (layout [(8, 64), (3, f.val), (3, 12 - x.companyPref.length), (prefixBits x.companyPref.length, number x.companyPref)] ++
          atLeast (44 - prefixBits x.companyPref.length) (number x.itemRef) ++
          layout [(7, number x.piece), (7, number x.total)] ++ signedBits 38 i)) ∧
        ((¬ ∃ i, IntText x.serial i) → x.binary .itip110 f = .error .value)) := by
  obtain ⟨C, D, A, B, S, ⟨hC, hD, hA, hB, hS⟩, hlen, e, rfl⟩ := ITIP.new_iff.1 hu
  obtain ⟨aC, aD, aA, aB, aS⟩ := ascii_uri5 (e ▸ ha)
  dsimp only
  have dC := digits_of_dec_ascii hC.2 aC
  have dD := digits_of_dec_ascii hD.2 aD
  obtain ⟨r, hr, hL, hP, hM⟩ := StdTable.rowL (t := ITIP.table) (n := C.length) (by decide) (by omega) (by omega)
  have hall : ∀ r ∈ ITIP.table, 3 + r.M + r.N = 47 ∧ r.K ≠ 0 ∧ 1 < r.N := by decide
  obtain ⟨w1, w2, w3⟩ := hall r hr
  have hN : 44 - prefixBits C.length = r.N := by omega
  have hR : encodeRef D r .plain = .ok (atLeast r.N (number D)) := by
    rw [← bin_atLeast (by omega), ← decVal_Digits dD, ← strToBinary_decimal (isDecimal_of_Digits dD) hD.1]
    exact if_pos w2
  have p1 := part_start (by decide) hr dC hL hP hM hR
  have dA := digits_of_dec_ascii hA.2 aA
  have dB := digits_of_dec_ascii hB.2 aB
  obtain ⟨h1, h2⟩ := strToBinary_text (serial_noSpace hS) (w := 38) (by decide)
  unfold ITIP.binary
  rw [filter_ok, ok_bind]
  dsimp only
  rw [p1, ok_bind]
  constructor
  · intro h
    by_cases hA' : 99 ≤ number A
    · rw [fixed_ge dA hA.1 hA', error_bind]
    · rw [fixed_lt dA hA.1 (by omega), ok_bind, fixed_ge dB hB.1 (by omega), error_bind]
  · intro hA' hB'
    rw [fixed_lt dA hA.1 hA', ok_bind, fixed_lt dB hB.1 hB', ok_bind, if_pos rfl]
    constructor
    · intro i hi
      rw [h1 i hi, ok_bind, pure_ok, hN]
      set_option linter.unusedSimpArgs false in
      simp only [List.cons_append, List.nil_append, layout_append, layout_cons, layout_nil, List.append_assoc, List.append_nil, bin3_bitsOf]
      rfl
    · intro hn
      rw [h2 hn, error_bind]

theorem C69_itip110 {u : Str} {x : ITIP} {f : Fin 8} (hu : ITIP.new u = .ok x) :
    ((99 ≤ number (asciiDigits x.piece) ∨ 99 ≤ number (asciiDigits x.total)) → x.binary .itip110 f = .error .convert) ∧
    (number (asciiDigits x.piece) < 99 → number (asciiDigits x.total) < 99 →
      (∀ i, IntText x.serial i → x.binary .itip110 f = .ok (layout [(8, 64), (3, f.val), (3, 12 - x.companyPref.length), (prefixBits x.companyPref.length, number (asciiDigits x.companyPref))] ++
          atLeast (44 - prefixBits x.companyPref.length) (number (asciiDigits x.itemRef)) ++
          layout [(7, number (asciiDigits x.piece)), (7, number (asciiDigits x.total))] ++ signedBits 38 i)) ∧
        ((¬ ∃ i, IntText x.serial i) → x.binary .itip110 f = .error .value)) := by
  obtain ⟨y, ha, hy, e, rest⟩ := C63_itip u x hu
  have h := a69_itip110 (f := f) ha hy
  rw [(rest.2 .itip110 f).2] at h
  subst e
  obtain ⟨C, D, A, B, S, ⟨hC, hD, hA, hB, hS⟩, hlen, e, rfl⟩ := ITIP.new_iff.1 hu
  dsimp only at h ⊢
  rwa [asciiDigits_ascii (gs3a3_ascii hS), length_asciiDigits] at h

private theorem a69_itip212 {u : Str} {x : ITIP} {f : Fin 8} (ha : Ascii u) (hu : ITIP.new u = .ok x) :
    ((99 ≤ number x.piece ∨ 99 ≤ number x.total) → x.binary .itip212 f = .error .convert) ∧
    (number x.piece < 99 → number x.total < 99 →
      (∀ b, TextBits (escPieces x.serial) b → x.binary .itip212 f = .ok (layout [(8, 65), (3, f.val), (3, 12 - x.companyPref.length), (prefixBits x.companyPref.length, number x.companyPref)] ++
          atLeast (44 - prefixBits x.companyPref.length) (number x.itemRef) ++
          layout [(7, number x.piece), (7, number x.total)] ++ fillRight 140 b)) ∧
        (∀ g, '%' :: g ∈ escPieces x.serial → (¬ ∃ n, HexText g n) → x.binary .itip212 f = .error .value)) := by
  obtain ⟨C, D, A, B, S, ⟨hC, hD, hA, hB, hS⟩, hlen, e, rfl⟩ := ITIP.new_iff.1 hu
  obtain ⟨aC, aD, aA, aB, aS⟩ := ascii_uri5 (e ▸ ha)
  dsimp only
  have dC := digits_of_dec_ascii hC.2 aC
  have dD := digits_of_dec_ascii hD.2 aD
  obtain ⟨r, hr, hL, hP, hM⟩ := StdTable.rowL (t := ITIP.table) (n := C.length) (by decide) (by omega) (by omega)
  have hall : ∀ r ∈ ITIP.table, 3 + r.M + r.N = 47 ∧ r.K ≠ 0 ∧ 1 < r.N := by decide
  obtain ⟨w1, w2, w3⟩ := hall r hr
  have hN : 44 - prefixBits C.length = r.N := by omega
  have hR : encodeRef D r .plain = .ok (atLeast r.N (number D)) := by
    rw [← bin_atLeast (by omega), ← decVal_Digits dD, ← strToBinary_decimal (isDecimal_of_Digits dD) hD.1]
    exact if_pos w2
  have p1 := part_start (by decide) hr dC hL hP hM hR
  have dA := digits_of_dec_ascii hA.2 aA
  have dB := digits_of_dec_ascii hB.2 aB
  obtain ⟨h1, h2⟩ := encodeString_text (lang_serialText.1 hS) 140
  unfold ITIP.binary
  rw [filter_ok, ok_bind]
  dsimp only
  rw [p1, ok_bind]
  constructor
  · intro h
    by_cases hA' : 99 ≤ number A
    · rw [fixed_ge dA hA.1 hA', error_bind]
    · rw [fixed_lt dA hA.1 (by omega), ok_bind, fixed_ge dB hB.1 (by omega), error_bind]
  · intro hA' hB'
    rw [fixed_lt dA hA.1 hA', ok_bind, fixed_lt dB hB.1 hB', ok_bind, if_neg (by decide)]
    constructor
    · intro b hb
      rw [h1 b hb, ok_bind, pure_ok, hN]
      set_option linter.unusedSimpArgs false in
      simp only [List.cons_append, List.nil_append, layout_append, layout_cons, layout_nil, List.append_assoc, List.append_nil, bin3_bitsOf]
      rfl
    · intro g hg hn
      rw [h2 g hg hn, error_bind]

theorem C69_itip212 {u : Str} {x : ITIP} {f : Fin 8} (hu : ITIP.new u = .ok x) :
    ((99 ≤ number (asciiDigits x.piece) ∨ 99 ≤ number (asciiDigits x.total)) → x.binary .itip212 f = .error .convert) ∧
    (number (asciiDigits x.piece) < 99 → number (asciiDigits x.total) < 99 →
      (∀ b, TextBits (escPieces x.serial) b → x.binary .itip212 f = .ok (layout [(8, 65), (3, f.val), (3, 12 - x.companyPref.length), (prefixBits x.companyPref.length, number (asciiDigits x.companyPref))] ++
          atLeast (44 - prefixBits x.companyPref.length) (number (asciiDigits x.itemRef)) ++
          layout [(7, number (asciiDigits x.piece)), (7, number (asciiDigits x.total))] ++ fillRight 140 b)) ∧
        (∀ g, '%' :: g ∈ escPieces x.serial → (¬ ∃ n, HexText g n) → x.binary .itip212 f = .error .value)) := by
  obtain ⟨y, ha, hy, e, rest⟩ := C63_itip u x hu
  have h := a69_itip212 (f := f) ha hy
  rw [(rest.2 .itip212 f).2] at h
  subst e
  obtain ⟨C, D, A, B, S, ⟨hC, hD, hA, hB, hS⟩, hlen, e, rfl⟩ := ITIP.new_iff.1 hu
  dsimp only at h ⊢
  rwa [asciiDigits_ascii (gs3a3_ascii hS), length_asciiDigits] at h

private theorem a69_cpi96 {u : Str} {x : CPI} {f : Fin 8} (ha : Ascii u) (hu : CPI.new u = .ok x) :
    (∀ i, IntText x.cpRef i → x.binary .cpi96 f = .ok (layout [(8, 60), (3, f.val), (3, 12 - x.companyPref.length), (prefixBits x.companyPref.length, number x.companyPref)] ++
      signedBits (51 - prefixBits x.companyPref.length) i ++ atLeast 31 (number x.serial))) ∧
      ((¬ ∃ i, IntText x.cpRef i) → x.binary .cpi96 f = .error .value) := by
  obtain ⟨C, D, S, ⟨hC, hD, hS⟩, hlen, e, rfl⟩ := CPI.new_iff.1 hu
  obtain ⟨aC, aD, aS⟩ := ascii_uri3 (e ▸ ha)
  dsimp only
  have dC := digits_of_dec_ascii hC.2 aC
  obtain ⟨r, hr, hL, hP, hM⟩ := StdTable.rowL (t := CPI.table96) (n := C.length) (by decide) (by omega) (by omega)
  have hall : ∀ r ∈ CPI.table96, 3 + r.M + r.N = 54 ∧ r.K ≠ 0 ∧ 1 < r.N := by decide
  obtain ⟨w1, w2, w3⟩ := hall r hr
  have hN : 51 - prefixBits C.length = r.N := by omega
  have hR : encodeRef D r .plain = strToBinary D r.N := if_pos w2
  obtain ⟨h1, h2⟩ := strToBinary_text (cpref_noSpace hD) (w := r.N) (by omega)
  rw [← hR] at h1 h2
  have s1 := (numeral_bin (numeral_of_num hS aS) 31).1
  unfold CPI.binary
  rw [filter_ok, ok_bind, if_pos rfl]
  dsimp only
  constructor
  · intro i hi
    rw [part_start (by decide) hr dC hL hP hM (h1 i hi), ok_bind, if_pos rfl, s1, ok_bind, pure_ok, hN, bin_atLeast (w := 31) (by decide)]
    set_option linter.unusedSimpArgs false in
    simp only [List.cons_append, List.nil_append, layout_append, layout_cons, layout_nil, List.append_assoc, List.append_nil, bin3_bitsOf]
    rfl
  · intro hn
    rw [part_error (by decide) hr dC hL (h2 hn), error_bind]

/-- The reference may be negative, since the minus sign belongs to its alphabet; the serial number may be too large. -/
theorem C69_cpi96 {u : Str} {x : CPI} {f : Fin 8} (hu : CPI.new u = .ok x) :
    (∀ i, IntText x.cpRef i → x.binary .cpi96 f = .ok (layout [(8, 60), (3, f.val), (3, 12 - x.companyPref.length), (prefixBits x.companyPref.length, number (asciiDigits x.companyPref))] ++
      signedBits (51 - prefixBits x.companyPref.length) i ++ atLeast 31 (number (asciiDigits x.serial)))) ∧
      ((¬ ∃ i, IntText x.cpRef i) → x.binary .cpi96 f = .error .value) := by
  obtain ⟨y, ha, hy, e, rest⟩ := C63_cpi u x hu
  have h := a69_cpi96 (f := f) ha hy
  rw [(rest.2 .cpi96 f).2] at h
  subst e
  obtain ⟨C, D, S, ⟨hC, hD, hS⟩, hlen, e, rfl⟩ := CPI.new_iff.1 hu
  dsimp only at h ⊢
  have aD : Ascii D := fun c hc => by have := (cpref_noSpace hD c hc).1; omega
  rwa [asciiDigits_ascii aD, length_asciiDigits] at h

theorem C69_sscc96 {u : Str} {x : SSCC} {f : Fin 8} (hu : SSCC.new u = .ok x) :
    x.binary .sscc96 f = .ok (layout ([(8, 49), (3, f.val)] ++ keyLayout 61 (asciiDigits x.companyPref) (asciiDigits x.serial) ++ [(24, 0)])) := by
  obtain ⟨y, ha, hy, e, rest⟩ := C63_sscc u x hu
  have h := C56_sscc96 (f := f) ha hy
  rw [(rest.2.2 .sscc96 f).2] at h
  subst e
  exact h

theorem C69_gsrn96 {u : Str} {x : GSRN} {f : Fin 8} (hu : GSRN.new u = .ok x) :
    x.binary .gsrn96 f = .ok (layout ([(8, 45), (3, f.val)] ++ keyLayout 61 (asciiDigits x.companyPref) (asciiDigits x.serviceRef) ++ [(24, 0)])) := by
  obtain ⟨y, ha, hy, e, rest⟩ := C63_gsrn u x hu
  have h := C56_gsrn96 (f := f) ha hy
  rw [(rest.2.2 .gsrn96 f).2] at h
  subst e
  exact h

theorem C69_gsrnp96 {u : Str} {x : GSRNP} {f : Fin 8} (hu : GSRNP.new u = .ok x) :
    x.binary .gsrnp96 f = .ok (layout ([(8, 46), (3, f.val)] ++ keyLayout 61 (asciiDigits x.companyPref) (asciiDigits x.serviceRef) ++ [(24, 0)])) := by
  obtain ⟨y, ha, hy, e, rest⟩ := C63_gsrnp u x hu
  have h := C56_gsrnp96 (f := f) ha hy
  rw [(rest.2.2 .gsrnp96 f).2] at h
  subst e
  exact h

theorem C69_sgcn96 {u : Str} {x : SGCN} {f : Fin 8} (hu : SGCN.new u = .ok x) :
    x.binary .sgcn96 f = .ok (layout ([(8, 63), (3, f.val)] ++ keyLayout 44 (asciiDigits x.companyPref) (asciiDigits x.couponRef) ++ [(41, number ('1' :: (asciiDigits x.serial)))])) := by
  obtain ⟨y, ha, hy, e, rest⟩ := C63_sgcn u x hu
  have h := C56_sgcn96 (f := f) ha hy
  rw [(rest.2.2 .sgcn96 f).2] at h
  subst e
  exact h

theorem C69_gid96 {u : Str} {x : GID} (hu : GID.new u = .ok x) :
    x.binary .gid96 = .ok (layout ([(8, 53), (28, number (asciiDigits x.manager)), (24, number (asciiDigits x.object)), (36, number (asciiDigits x.serial))])) := by
  obtain ⟨y, ha, hy, e, rest⟩ := C63_gid u x hu
  have h := C56_gid96 ha hy
  rw [(rest .gid96).2] at h
  subst e
  exact h

theorem C69_usdod96 {u : Str} {x : USDOD} {f : Fin 16} (hu : USDOD.new u = .ok x) :
    x.binary .usdod96 f = .ok (layout ([(8, 47), (4, f.val)] ++ textLayout 8 (List.replicate (6 - x.cage.length) ' ' ++ x.cage) ++
      [(36, number (asciiDigits x.serial))])) := by
  obtain ⟨y, ha, hy, e, rest⟩ := C63_usdod u x hu
  have h := C56_usdod96 (f := f) ha hy
  rw [(rest .usdod96 f).2] at h
  subst e
  obtain ⟨C, S, ⟨hC, hS⟩, hlen, e, rfl⟩ := USDOD.new_iff.1 hu
  have aC : Ascii C := fun c hc => by
    have key : ∀ c ∈ cageChars, c.toNat < 128 := by decide
    exact key c ((cageCode_iff.2 hC).1 c hc)
  dsimp only at h ⊢
  rwa [asciiDigits_ascii aC] at h

theorem C69_cpi_var {u : Str} {x : CPI} {f : Fin 8} (hu : CPI.new u = .ok x) :
    ∃ raw, (∀ c ∈ raw, c ∈ gs39) ∧ x.cpRef = escape39 raw ∧
    x.binary .cpiVar f = .ok (layout ([(8, 61), (3, f.val), (3, 12 - x.companyPref.length),
      (prefixBits x.companyPref.length, number (asciiDigits x.companyPref))] ++
      textLayout 6 raw ++ [(6, 0), (40, number (asciiDigits x.serial))])) := by
  obtain ⟨y, ha, hy, e, rest⟩ := C63_cpi u x hu
  subst e
  obtain ⟨C, D, S, ⟨hC, hD, hS⟩, hlen, e, rfl⟩ := CPI.new_iff.1 hu
  dsimp only at hy rest ⊢
  obtain ⟨raw, _, hr, rfl⟩ := (lang_cpref D).1 hD
  have aD : Ascii (escape39 raw) := fun c hc => by have := (cpref_noSpace hD c hc).1; omega
  have h := C56_cpi_var (f := f) ha hy hr (asciiDigits_ascii aD)
  rw [(rest.2 .cpiVar f).2] at h
  dsimp only at h
  rw [length_asciiDigits] at h
  exact ⟨raw, hr, rfl, h⟩

/-! Examples: a serial number with an underscore, a negative one, one that is no number; an escape glued to a letter. -/

private theorem intText_under : IntText (py "1_2") 12 :=
  ⟨[], py "1_2", rfl, by decide, by decide, by decide, by decide, by decide, by decide, by decide⟩

private theorem intText_minus : IntText (py "-5") (-5) :=
  ⟨py "-", py "5", rfl, by decide, by decide, by decide, by decide, by decide, by decide, by decide⟩

private theorem hexText_not : ¬ ∃ n, HexText (py "4z") n := by
  rintro ⟨n, h⟩
  rw [hexText_iff] at h
  exact absurd h (by rw [show digitsVal 16 (dropBasePrefix 16 (py "4z")) = Option.none by decide]; exact fun h => by cases h)

example : ∃ x, SGTIN.new (py "urn:epc:id:sgtin:0614141.112345.1_2") = .ok x ∧ IntText x.serial 12 := ⟨_, rfl, intText_under⟩
example : ∃ x, SGTIN.new (py "urn:epc:id:sgtin:0614141.112345.-5") = .ok x ∧ IntText x.serial (-5) := ⟨_, rfl, intText_minus⟩
example : ∃ x, CPI.new (py "urn:epc:id:cpi:0614141.-5.12345") = .ok x ∧ IntText x.cpRef (-5) := ⟨_, rfl, intText_minus⟩
example : ∃ x, SGTIN.new (py "urn:epc:id:sgtin:0614141.112345.x%4a%4z") = .ok x ∧
    escPieces x.serial = [py "x", py "%4a", py "%4z"] ∧ ¬ ∃ n, HexText (py "4z") n := ⟨_, rfl, by decide, hexText_not⟩
example : ∃ x, SGTIN.new (py "urn:epc:id:sgtin:0614141.112345.x%4a") = .ok x ∧
    TextBits (escPieces x.serial) (py "1111000" ++ py "1001010") := by
  refine ⟨_, rfl, ?_⟩
  have h4a : HexText (py "4a") 74 := hexText_iff.2 (by decide)
  exact .text (g := py "x") (b := py "1001010") (by decide) (.code (b := []) h4a (.text (g := []) (by decide) .nil))
example : ∃ x, ITIP.new (py "urn:epc:id:itip:4012345.012345.01.02.987") = .ok x ∧
    number (asciiDigits x.piece) < 99 ∧ number (asciiDigits x.total) < 99 ∧ IntText x.serial 987 :=
  ⟨_, rfl, by decide, by decide, [], py "987", rfl, by decide, by decide, by decide, by decide, by decide, by decide, by decide⟩

/-- A minus sign among the bits: the result is not a bit string any more. -/
theorem C69_minus_sign : ∃ u x b, SGTIN.new u = .ok x ∧ x.binary .sgtin96 0 = .ok b ∧ '-' ∈ b ∧ b.length = 96 :=
  ⟨py "urn:epc:id:sgtin:0614141.112345.-5", _, _, rfl, rfl, by decide, by decide⟩

end Epc
