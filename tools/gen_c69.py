#!/usr/bin/env python3
"""Writes lean/Verif/Props/C69.lean: the bits of the binary encodings for every serial number."""
import os
out = os.path.join(os.path.dirname(__file__), '..', 'lean', 'Verif', 'Props', 'C69.lean')

HEAD = '''/-
C69: what `binary` does with any serial number whatsoever.

C56 lists the bits of an encoding when the tag URI exists.  `binary` does not check that: here is what it returns, or raises, for every accepted URI,
also when the coding scheme cannot express the serial number.

A numeric coding scheme reads the serial number as a Python integer.  If it is one (`IntText`: perhaps a sign, digits, single underscores between
them) the result is its binary form, filled with zeros to the width of the field: longer than the field when the number is too large, and with a
minus sign among the bits when it is negative.  If it is not, `binary` raises a ValueError.

A coding scheme with a text cuts the serial number before and after every percent sign with two hexadecimal digits (`escPieces`) and encodes the
pieces (`TextBits`): a piece that starts with a percent sign is, as a whole, one hexadecimal number, the others are texts.  If one of the former is
no hexadecimal number `binary` raises a ValueError.

The other coding schemes always succeed (for ADI, whose URIs are ASCII, C56 says this).

Decimal digits of any script may stand in the other components (`asciiDigits` maps them to 0-9).
-/
import Verif.Lemmas.Encode
import Verif.Lemmas.AvailAny
import Verif.Props.C63
import Verif.Props.C56

namespace Epc
open Spec Re

private theorem serial_noSpace {s : Str} (h : Lang Rx.gs3a3 s) : ∀ c ∈ s, c.toNat < 127 ∧ isCSpace c = false :=
  fun c hc => ⟨(gs82_noSpace ((lang_serialText.1 h).2.1 c hc).1).1, (gs82_noSpace ((lang_serialText.1 h).2.1 c hc).1).2.1⟩

private theorem cpref_noSpace {s : Str} (h : Lang Rx.cpref s) : ∀ c ∈ s, c.toNat < 127 ∧ isCSpace c = false := by
  obtain ⟨raw, _, h1, rfl⟩ := (lang_cpref s).1 h
  have key : ∀ c ∈ gs39, ∀ d ∈ escChar39 c, d.toNat < 127 ∧ isCSpace d = false := by decide
  intro c hc
  obtain ⟨r, hr, hc⟩ := List.mem_flatMap.1 hc
  exact key r (h1 r hr) c hc

private theorem part_error {t : List Row} {r : Row} (ht : TableOk t) (hr : r ∈ t) {C D : Str} {mode : PartMode} {e : Err} (hC : Digits C)
    (hl : r.L = C.length) (hd : encodeRef D r mode = .error e) : encodePartitionTable C D t mode = .error e := by
  obtain ⟨⟨_, _, hL, _⟩, h2, _⟩ := ht r hr
  have hne : C ≠ [] := by intro h; rw [h] at hl; simp at hl; omega
  unfold encodePartitionTable
  rw [← hl, h2]
  show (strToBinary C r.M >>= _) = _
  rw [strToBinary_decimal (isDecimal_of_Digits hC) hne, decVal_Digits hC]
  show (encodeRef D r mode >>= _) = _
  rw [hd]
  rfl

private theorem fixed_lt {A : Str} (hA : Digits A) (hne : A ≠ []) (hlt : number A < 99) :
    encodeFixedWidthInteger A 7 = .ok (bitsOf 7 (number A)) := by
  have hd : fixedDigits 7 = 2 := by decide
  unfold encodeFixedWidthInteger
  rw [pyInt_Digits hA hne, ok_bind, hd, if_neg (by omega), strToBinary_decimal (isDecimal_of_Digits hA) hne, decVal_Digits hA,
    bin_bitsOf (by decide) (by omega)]

private theorem fixed_ge {A : Str} (hA : Digits A) (hne : A ≠ []) (hge : 99 ≤ number A) :
    encodeFixedWidthInteger A 7 = .error .convert := by
  have hd : fixedDigits 7 = 2 := by decide
  unfold encodeFixedWidthInteger
  rw [pyInt_Digits hA hne, ok_bind, hd, if_pos (by omega)]

'''
NUM = '''    (∀ i, IntText x.{s} i → x.binary .{cs} f = .ok ({lay} ++ signedBits {w} i)) ∧
      ((¬ ∃ i, IntText x.{s} i) → x.binary .{cs} f = .error .value)'''
TXT = '''    (∀ b, TextBits (escPieces x.{s}) b → x.binary .{cs} f = .ok ({lay} ++ fillRight {w} b)) ∧
      (∀ g, '%' :: g ∈ escPieces x.{s} → (¬ ∃ n, HexText g n) → x.binary .{cs} f = .error .value)'''
SIMP = '''set_option linter.unusedSimpArgs false in
simp only [List.cons_append, List.nil_append, layout_append, layout_cons, layout_nil, List.append_assoc, List.append_nil, bin3_bitsOf]
rfl'''
def ind(t, n): return '\n'.join((' ' * n + l) if l else l for l in t.split('\n'))
parts = []
def keyed(X, cs, hdr, W, T_, ref, emptyD, w, textual, lower):
    lay0 = f"layout ([(8, {hdr}), (3, f.val)] ++ keyLayout {W} "
    stmt = (TXT if textual else NUM)
    a = stmt.format(s='serial', cs=cs, lay=lay0 + f"x.companyPref x.{ref})", w=w)
    b = stmt.format(s='serial', cs=cs, lay=lay0 + f"(asciiDigits x.companyPref) (asciiDigits x.{ref}))", w=w)
    dD = "hD" if emptyD else "hD.2"
    enc = f"encodeString_text (lang_serialText.1 hS.1) {w}" if textual else f"strToBinary_text (serial_noSpace hS.1) (w := {w}) (by decide)"
    br = "if_neg (by decide)" if textual else "if_pos rfl"
    hS = "hS" 
    ok = "intro b hb" if textual else "intro i hi"
    ok1 = "h1 b hb" if textual else "h1 i hi"
    er = "intro g hg hn" if textual else "intro hn"
    er1 = "h2 g hg hn" if textual else "h2 hn"
    parts.append(f'''private theorem a69_{cs} {{u : Str}} {{x : {X}}} {{f : Fin 8}} (ha : Ascii u) (hu : {X}.new u = .ok x) :
{a} := by
  obtain ⟨C, D, S, ⟨hC, hD, hS⟩, hlen, e, rfl⟩ := {X}.new_iff.1 hu
  obtain ⟨aC, aD, aS⟩ := ascii_uri3 (e ▸ ha)
  dsimp only
  have p1 := part_layout (t := {X}.table) (W := {W}) (T := {T_}) (by decide) (by decide) (by decide)
    (digits_of_dec_ascii hC.2 aC) (digits_of_dec_ascii {dD} aD) (by omega) (by omega) (by omega)
  obtain ⟨h1, h2⟩ := {enc.replace('hS.1', hS)}
  unfold {X}.binary
  rw [filter_ok, ok_bind]
  dsimp only
  rw [p1, ok_bind, {br}]
  constructor
  · {ok}
    rw [{ok1}, ok_bind, pure_ok]
{ind(SIMP, 4)}
  · {er}
    rw [{er1}, error_bind]

theorem C69_{cs} {{u : Str}} {{x : {X}}} {{f : Fin 8}} (hu : {X}.new u = .ok x) :
{b} := by
  obtain ⟨y, ha, hy, e, rest⟩ := C63_{lower} u x hu
  have h := a69_{cs} (f := f) ha hy
  rw [(GETR .{cs} f).2] at h
  subst e
  obtain ⟨C, D, S, ⟨hC, hD, hS⟩, hlen, e, rfl⟩ := {X}.new_iff.1 hu
  dsimp only at h ⊢
  rwa [asciiDigits_ascii (gs3a3_ascii {hS})] at h
'''.replace('GETR', 'rest.2.2'))

keyed('SGTIN', 'sgtin96', 48, 47, 13, 'itemRef', False, 38, False, 'sgtin')
keyed('SGTIN', 'sgtin198', 54, 47, 13, 'itemRef', False, 140, True, 'sgtin')
keyed('SGLN', 'sgln96', 50, 44, 12, 'locationRef', True, 41, False, 'sgln')
keyed('SGLN', 'sgln195', 57, 44, 12, 'locationRef', True, 140, True, 'sgln')
keyed('GRAI', 'grai96', 51, 47, 12, 'assetType', True, 38, False, 'grai')
keyed('GRAI', 'grai170', 55, 47, 12, 'assetType', True, 112, True, 'grai')
keyed('GDTI', 'gdti96', 44, 44, 12, 'docType', True, 41, False, 'gdti')
keyed('GDTI', 'gdti174', 62, 44, 12, 'docType', True, 119, True, 'gdti')

def giai(cs, hdr, table, tot, textual):
    def lay(c): return f"layout [(8, {hdr}), (3, f.val), (3, 12 - x.companyPref.length), (prefixBits x.companyPref.length, number {c})]"
    w = f"({tot} - prefixBits x.companyPref.length)"
    stmt = TXT if textual else NUM
    a = stmt.format(s='assetRef', cs=cs, lay=lay('x.companyPref'), w=w)
    b = stmt.format(s='assetRef', cs=cs, lay=lay('(asciiDigits x.companyPref)'), w=w)
    enc = "encodeString_text (lang_serialText.1 hS2) r.N" if textual else "strToBinary_text (serial_noSpace hS2) (w := r.N) (by omega)"
    mode = '.string' if textual else '.plain'
    br = "if_neg (by decide)" if textual else "if_pos rfl"
    ok, hi, er, er1 = ("b", "hb", "g hg hn", "h2 g hg hn") if textual else ("i", "hi", "hn", "h2 hn")
    ref = (f"show encodeRef S r .string = _ from " if textual else "")
    parts.append(f'''private theorem a69_{cs} {{u : Str}} {{x : GIAI}} {{f : Fin 8}} (ha : Ascii u) (hu : GIAI.new u = .ok x) :
{a} := by
  obtain ⟨C, S, ⟨hC, hS⟩, hlen, e, rfl⟩ := GIAI.new_iff.1 hu
  obtain ⟨aC, aS⟩ := ascii_uri2 (e ▸ ha)
  have hne : (split ':' S).headD [] ≠ [] := by
    intro h
    rw [h] at hlen
    exact absurd hlen.2.1 (by decide)
  have hS2 : Lang Rx.gs3a3 ((split ':' S).headD []) := gs3a3_head hS hne
  clear hne
  generalize (split ':' S).headD [] = S at hS2 hlen ⊢
  dsimp only
  have dC := digits_of_dec_ascii hC.2 aC
  obtain ⟨r, hr, hL, hP, hM⟩ := StdTable.rowL (t := GIAI.{table}) (n := C.length) (by decide) (by omega) (by omega)
  have hall : ∀ r ∈ GIAI.{table}, 3 + r.M + r.N = {tot + 3} ∧ r.K ≠ 0 ∧ 1 < r.N := by decide
  obtain ⟨w1, w2, w3⟩ := hall r hr
  have hN : {tot} - prefixBits C.length = r.N := by omega
  have hR : encodeRef S r {mode} = {"encodeString S r.N := rfl" if textual else "strToBinary S r.N := if_pos w2"}
  obtain ⟨h1, h2⟩ := {enc}
  rw [← hR] at h1 h2
  unfold GIAI.binary
  rw [filter_ok, ok_bind, {br}]
  dsimp only
  constructor
  · intro {ok} {hi}
    rw [part_start (by decide) hr dC hL hP hM (h1 {ok} {hi}), ok_bind, pure_ok, hN]
{ind(SIMP, 4)}
  · intro {er}
    rw [part_error (by decide) hr dC hL ({er1}), error_bind]

theorem C69_{cs} {{u : Str}} {{x : GIAI}} {{f : Fin 8}} (hu : GIAI.new u = .ok x) :
{b} := by
  obtain ⟨y, ha, hy, e, rest⟩ := C63_giai u x hu
  have h := a69_{cs} (f := f) ha hy
  rw [(rest.2.2 .{cs} f).2] at h
  subst e
  obtain ⟨C, S, ⟨hC, hS⟩, hlen, e, rfl⟩ := GIAI.new_iff.1 hu
  have hne : (split ':' S).headD [] ≠ [] := by
    intro h
    rw [h] at hlen
    exact absurd hlen.2.1 (by decide)
  have hS2 : Lang Rx.gs3a3 ((split ':' S).headD []) := gs3a3_head hS hne
  dsimp only at h ⊢
  rwa [asciiDigits_ascii (gs3a3_ascii hS2), length_asciiDigits] at h
'''.replace('h1 b', 'h1 b'))
giai('giai96', 52, 'table96', 82, False)
giai('giai202', 56, 'table202', 188, True)

# ITIP
def itip(cs, hdr, w, textual):
    def lay(q): return (f"layout [(8, {hdr}), (3, f.val), (3, 12 - x.companyPref.length), (prefixBits x.companyPref.length, number {q('companyPref')})] ++\n"
        f"        atLeast (44 - prefixBits x.companyPref.length) (number {q('itemRef')}) ++\n"
        f"        layout [(7, number {q('piece')}), (7, number {q('total')})]")
    stmt = TXT if textual else NUM
    def full(q):
        return (f"    ((99 ≤ number {q('piece')} ∨ 99 ≤ number {q('total')}) → x.binary .{cs} f = .error .convert) ∧\n"
            f"    (number {q('piece')} < 99 → number {q('total')} < 99 →\n" + ind(stmt.format(s='serial', cs=cs, lay=lay(q), w=w), 2) + ")")
    enc = f"encodeString_text (lang_serialText.1 hS) {w}" if textual else f"strToBinary_text (serial_noSpace hS) (w := {w}) (by decide)"
    br = "if_neg (by decide)" if textual else "if_pos rfl"
    ok, hi, er, er1 = ("b", "hb", "g hg hn", "h2 g hg hn") if textual else ("i", "hi", "hn", "h2 hn")
    parts.append(f'''private theorem a69_{cs} {{u : Str}} {{x : ITIP}} {{f : Fin 8}} (ha : Ascii u) (hu : ITIP.new u = .ok x) :
{full(lambda n: 'x.' + n)} := by
  obtain ⟨C, D, A, B, S, ⟨hC, hD, hA, hB, hS⟩, hlen, e, rfl⟩ := ITIP.new_iff.1 hu
  obtain ⟨aC, aD, aA, aB, aS⟩ := ascii_uri5 (e ▸ ha)
  dsimp only
  have dC := digits_of_dec_ascii hC.2 aC
  have dD := digits_of_dec_ascii hD.2 aD
  obtain ⟨r, hr, hL, hP, hM⟩ := StdTable.rowL (t := ITIP.table) (n := C.length) (by decide) (by omega) (by omega)
  have hall : ∀ r ∈ ITIP.table, 3 + r.M + r.N = 47 ∧ r.K ≠ 0 ∧ 1 < r.N := by decide
  obtain ⟨w1, w2, w3⟩ := hall r hr
  have hN : 44 - prefixBits C.length = r.N := by omega
  have hR : encodeRef D r .plain = .ok (atLeast r.N (number D)) := by
    rw [← bin_atLeast (by omega), ← decVal_Digits dD, ← strToBinary_decimal (isDecimal_of_Digits dD) hD.1]
    exact if_pos w2
  have p1 := part_start (by decide) hr dC hL hP hM hR
  have dA := digits_of_dec_ascii hA.2 aA
  have dB := digits_of_dec_ascii hB.2 aB
  obtain ⟨h1, h2⟩ := {enc}
  unfold ITIP.binary
  rw [filter_ok, ok_bind]
  dsimp only
  rw [p1, ok_bind]
  constructor
  · intro h
    by_cases hA' : 99 ≤ number A
    · rw [fixed_ge dA hA.1 hA', error_bind]
    · rw [fixed_lt dA hA.1 (by omega), ok_bind, fixed_ge dB hB.1 (by omega), error_bind]
  · intro hA' hB'
    rw [fixed_lt dA hA.1 hA', ok_bind, fixed_lt dB hB.1 hB', ok_bind, {br}]
    constructor
    · intro {ok} {hi}
      rw [h1 {ok} {hi}, ok_bind, pure_ok, hN]
{ind(SIMP, 6)}
    · intro {er}
      rw [{er1}, error_bind]

theorem C69_{cs} {{u : Str}} {{x : ITIP}} {{f : Fin 8}} (hu : ITIP.new u = .ok x) :
{full(lambda n: f'(asciiDigits x.{n})')} := by
  obtain ⟨y, ha, hy, e, rest⟩ := C63_itip u x hu
  have h := a69_{cs} (f := f) ha hy
  rw [(rest.2 .{cs} f).2] at h
  subst e
  obtain ⟨C, D, A, B, S, ⟨hC, hD, hA, hB, hS⟩, hlen, e, rfl⟩ := ITIP.new_iff.1 hu
  dsimp only at h ⊢
  rwa [asciiDigits_ascii (gs3a3_ascii hS), length_asciiDigits] at h
''')
itip('itip110', 64, 38, False)
itip('itip212', 65, 140, True)

# CPI
def cpi():
    def lay(q): return f"layout [(8, 60), (3, f.val), (3, 12 - x.companyPref.length), (prefixBits x.companyPref.length, number {q('companyPref')})]"
    def full(q): return f'''    (∀ i, IntText x.cpRef i → x.binary .cpi96 f = .ok ({lay(q)} ++
      signedBits (51 - prefixBits x.companyPref.length) i ++ atLeast 31 (number {q('serial')}))) ∧
      ((¬ ∃ i, IntText x.cpRef i) → x.binary .cpi96 f = .error .value)'''
    parts.append(f'''private theorem a69_cpi96 {{u : Str}} {{x : CPI}} {{f : Fin 8}} (ha : Ascii u) (hu : CPI.new u = .ok x) :
{full(lambda n: 'x.' + n)} := by
  obtain ⟨C, D, S, ⟨hC, hD, hS⟩, hlen, e, rfl⟩ := CPI.new_iff.1 hu
  obtain ⟨aC, aD, aS⟩ := ascii_uri3 (e ▸ ha)
  dsimp only
  have dC := digits_of_dec_ascii hC.2 aC
  obtain ⟨r, hr, hL, hP, hM⟩ := StdTable.rowL (t := CPI.table96) (n := C.length) (by decide) (by omega) (by omega)
  have hall : ∀ r ∈ CPI.table96, 3 + r.M + r.N = 54 ∧ r.K ≠ 0 ∧ 1 < r.N := by decide
  obtain ⟨w1, w2, w3⟩ := hall r hr
  have hN : 51 - prefixBits C.length = r.N := by omega
  have hR : encodeRef D r .plain = strToBinary D r.N := if_pos w2
  obtain ⟨h1, h2⟩ := strToBinary_text (cpref_noSpace hD) (w := r.N) (by omega)
  rw [← hR] at h1 h2
  have s1 := (numeral_bin (numeral_of_num hS aS) 31).1
  unfold CPI.binary
  rw [filter_ok, ok_bind, if_pos rfl]
  dsimp only
  constructor
  · intro i hi
    rw [part_start (by decide) hr dC hL hP hM (h1 i hi), ok_bind, if_pos rfl, s1, ok_bind, pure_ok, hN, bin_atLeast (w := 31) (by decide)]
{ind(SIMP, 4)}
  · intro hn
    rw [part_error (by decide) hr dC hL (h2 hn), error_bind]

/-- The reference may be negative, since the minus sign belongs to its alphabet; the serial number may be too large. -/
theorem C69_cpi96 {{u : Str}} {{x : CPI}} {{f : Fin 8}} (hu : CPI.new u = .ok x) :
{full(lambda n: f'(asciiDigits x.{n})')} := by
  obtain ⟨y, ha, hy, e, rest⟩ := C63_cpi u x hu
  have h := a69_cpi96 (f := f) ha hy
  rw [(rest.2 .cpi96 f).2] at h
  subst e
  obtain ⟨C, D, S, ⟨hC, hD, hS⟩, hlen, e, rfl⟩ := CPI.new_iff.1 hu
  dsimp only at h ⊢
  have aD : Ascii D := fun c hc => by have := (cpref_noSpace hD c hc).1; omega
  rwa [asciiDigits_ascii aD, length_asciiDigits] at h
''')
cpi()

# the encodings that do not depend on a free serial number
def simple(X, cs, lower, lay, fbits=8, rest='rest.2.2'):
    import re
    l = re.sub(r'x\.(\w+)', lambda m: f'(asciiDigits x.{m.group(1)})', lay)
    fb = f" {{f : Fin {fbits}}}" if fbits else ""
    fa = " f" if fbits else ""
    parts.append(f'''theorem C69_{cs} {{u : Str}} {{x : {X}}}{fb} (hu : {X}.new u = .ok x) :
    x.binary .{cs}{fa} = .ok (layout ({l})) := by
  obtain ⟨y, ha, hy, e, rest⟩ := C63_{lower} u x hu
  have h := C56_{cs}{" (f := f)" if fbits else ""} ha hy
  rw [({rest} .{cs}{fa}).2] at h
  subst e
  exact h
''')
simple('SSCC', 'sscc96', 'sscc', "[(8, 49), (3, f.val)] ++ keyLayout 61 x.companyPref x.serial ++ [(24, 0)]")
simple('GSRN', 'gsrn96', 'gsrn', "[(8, 45), (3, f.val)] ++ keyLayout 61 x.companyPref x.serviceRef ++ [(24, 0)]")
simple('GSRNP', 'gsrnp96', 'gsrnp', "[(8, 46), (3, f.val)] ++ keyLayout 61 x.companyPref x.serviceRef ++ [(24, 0)]")
simple('SGCN', 'sgcn96', 'sgcn', "[(8, 63), (3, f.val)] ++ keyLayout 44 x.companyPref x.couponRef ++ [(41, number ('1' :: x.serial))]")
simple('GID', 'gid96', 'gid', "[(8, 53), (28, number x.manager), (24, number x.object), (36, number x.serial)]", 0, 'rest')
parts.append('''theorem C69_usdod96 {u : Str} {x : USDOD} {f : Fin 16} (hu : USDOD.new u = .ok x) :
    x.binary .usdod96 f = .ok (layout ([(8, 47), (4, f.val)] ++ textLayout 8 (List.replicate (6 - x.cage.length) ' ' ++ x.cage) ++
      [(36, number (asciiDigits x.serial))])) := by
  obtain ⟨y, ha, hy, e, rest⟩ := C63_usdod u x hu
  have h := C56_usdod96 (f := f) ha hy
  rw [(rest .usdod96 f).2] at h
  subst e
  obtain ⟨C, S, ⟨hC, hS⟩, hlen, e, rfl⟩ := USDOD.new_iff.1 hu
  have aC : Ascii C := fun c hc => by
    have key : ∀ c ∈ cageChars, c.toNat < 128 := by decide
    exact key c ((cageCode_iff.2 hC).1 c hc)
  dsimp only at h ⊢
  rwa [asciiDigits_ascii aC] at h
''')
parts.append('''theorem C69_cpi_var {u : Str} {x : CPI} {f : Fin 8} (hu : CPI.new u = .ok x) :
    ∃ raw, (∀ c ∈ raw, c ∈ gs39) ∧ x.cpRef = escape39 raw ∧
    x.binary .cpiVar f = .ok (layout ([(8, 61), (3, f.val), (3, 12 - x.companyPref.length),
      (prefixBits x.companyPref.length, number (asciiDigits x.companyPref))] ++
      textLayout 6 raw ++ [(6, 0), (40, number (asciiDigits x.serial))])) := by
  obtain ⟨y, ha, hy, e, rest⟩ := C63_cpi u x hu
  subst e
  obtain ⟨C, D, S, ⟨hC, hD, hS⟩, hlen, e, rfl⟩ := CPI.new_iff.1 hu
  dsimp only at hy rest ⊢
  obtain ⟨raw, _, hr, rfl⟩ := (lang_cpref D).1 hD
  have aD : Ascii (escape39 raw) := fun c hc => by have := (cpref_noSpace hD c hc).1; omega
  have h := C56_cpi_var (f := f) ha hy hr (asciiDigits_ascii aD)
  rw [(rest.2 .cpiVar f).2] at h
  dsimp only at h
  rw [length_asciiDigits] at h
  exact ⟨raw, hr, rfl, h⟩
''')
TAIL = '''
/-! Examples: a serial number with an underscore, a negative one, one that is no number; an escape glued to a letter. -/

private theorem intText_under : IntText (py "1_2") 12 :=
  ⟨[], py "1_2", rfl, by decide, by decide, by decide, by decide, by decide, by decide, by decide⟩

private theorem intText_minus : IntText (py "-5") (-5) :=
  ⟨py "-", py "5", rfl, by decide, by decide, by decide, by decide, by decide, by decide, by decide⟩

private theorem hexText_not : ¬ ∃ n, HexText (py "4z") n := by
  rintro ⟨n, h⟩
  rw [hexText_iff] at h
  exact absurd h (by rw [show digitsVal 16 (dropBasePrefix 16 (py "4z")) = Option.none by decide]; exact fun h => by cases h)

example : ∃ x, SGTIN.new (py "urn:epc:id:sgtin:0614141.112345.1_2") = .ok x ∧ IntText x.serial 12 := ⟨_, rfl, intText_under⟩
example : ∃ x, SGTIN.new (py "urn:epc:id:sgtin:0614141.112345.-5") = .ok x ∧ IntText x.serial (-5) := ⟨_, rfl, intText_minus⟩
example : ∃ x, CPI.new (py "urn:epc:id:cpi:0614141.-5.12345") = .ok x ∧ IntText x.cpRef (-5) := ⟨_, rfl, intText_minus⟩
example : ∃ x, SGTIN.new (py "urn:epc:id:sgtin:0614141.112345.x%4a%4z") = .ok x ∧
    escPieces x.serial = [py "x", py "%4a", py "%4z"] ∧ ¬ ∃ n, HexText (py "4z") n := ⟨_, rfl, by decide, hexText_not⟩
example : ∃ x, SGTIN.new (py "urn:epc:id:sgtin:0614141.112345.x%4a") = .ok x ∧
    TextBits (escPieces x.serial) (py "1111000" ++ py "1001010") := by
  refine ⟨_, rfl, ?_⟩
  have h4a : HexText (py "4a") 74 := hexText_iff.2 (by decide)
  exact .text (g := py "x") (b := py "1001010") (by decide) (.code (b := []) h4a (.text (g := []) (by decide) .nil))
example : ∃ x, ITIP.new (py "urn:epc:id:itip:4012345.012345.01.02.987") = .ok x ∧
    number (asciiDigits x.piece) < 99 ∧ number (asciiDigits x.total) < 99 ∧ IntText x.serial 987 :=
  ⟨_, rfl, by decide, by decide, [], py "987", rfl, by decide, by decide, by decide, by decide, by decide, by decide, by decide⟩

/-- A minus sign among the bits: the result is not a bit string any more. -/
theorem C69_minus_sign : ∃ u x b, SGTIN.new u = .ok x ∧ x.binary .sgtin96 0 = .ok b ∧ '-' ∈ b ∧ b.length = 96 :=
  ⟨py "urn:epc:id:sgtin:0614141.112345.-5", _, _, rfl, rfl, by decide, by decide⟩

end Epc
'''
open(out, 'w').write(HEAD + '\n'.join(parts) + TAIL)
