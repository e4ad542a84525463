#!/usr/bin/env python3
"""Writes lean/Verif/Props/C71.lean."""

HEAD = '''/-
C71: reading a tag and writing it again changes only unused bits.

If a binary encoding is decoded to an object, the binary encoding of the object, for the coding scheme and the filter value found in the bits,
is the same bit string, up to its size, except for bits that carry no information: the reference bits if the company prefix has twelve digits and
the reference none, groups of seven zeros before or between the characters of a text, and the blanks around and in a CAGE code.  Each theorem
says which bits come back.  (The encodings SGTIN-96, SSCC-96, GSRN-96, GSRNP-96, GIAI-96, CPI-96 and GID-96 are in C30.)
Generated by tools/gen_c71.py.
-/
import Verif.Props.C55
import Verif.Props.C56
import Verif.Props.C64
import Verif.Lemmas.Rewrite

namespace Epc
open Spec Re

theorem hdr_bits {b : Str} {h : Nat} {s : Str} (hb : b.take 8 = s) (e : bitsOf 8 h = s) : bitsOf 8 h = b.take 8 := e.trans hb.symm

theorem join_one (s : Str) : joinWith '.' [s] = s := rfl

theorem layout_one (w n : Nat) : layout [(w, n)] = bitsOf w n := by
  rw [layout_cons]; exact List.append_nil _

/-- A text stays as it is exactly if no group of seven zeros stands before a group that is not zero. -/
theorem C71_text {b : Str} {lo k : Nat} (hB : Bits b) (hl : lo + 7 * k ≤ b.length) :
    compactText b lo k (7 * k) = (b.drop lo).take (7 * k) ↔
      ∀ i j, i < j → j < k → bitField b (lo + 7 * i) 7 = 0 → bitField b (lo + 7 * j) 7 = 0 :=
  compact_iff hB k lo hl

/-- The key fields stay as they are exactly if the bits of a reference without digits are zero. -/
theorem C71_key {b : Str} {W : Nat} (hB : Bits b) (hW : 43 ≤ W) (hl : 11 + W ≤ b.length) :
    usedKeyBits b W = b.take (11 + W) ↔ (bitField b 11 3 = 0 → bitField b 54 (W - 43) = 0) := by
  unfold usedKeyBits
  by_cases h : bitField b 11 3 = 0
  · rw [if_pos h, show 11 + W = 54 + (W - 43) by omega, ← take_add_field b 54, List.append_cancel_left_eq, ← bitsOf_zero,
      ← bitsOf_bitField hB (by omega)]
    constructor
    · intro e _
      have := congrArg bitsNumber e
      rw [bitsNumber_bitsOf, bitsNumber_bitsOf, Nat.zero_mod, Nat.mod_eq_of_lt (bitField_lt hB (by omega))] at this
      exact this.symm
    · exact fun e => by rw [e h]
  · rw [if_neg h]
    exact ⟨fun _ h' => absurd h' h, fun _ => rfl⟩

'''

def dec(h):
    return int(h, 2)

def start(cls, cs, size):
    return (f'''  by_cases hl : {size} ≤ b.length
  case neg => rw [C28_{cs} b hb (by omega)] at hx; cases hx
  refine ⟨⟨_, bitField_lt hB (lo := 8) (k := 3) (by omega)⟩, rfl, ?_⟩
''')

ASC3 = "ascii_append.2 ⟨by decide, ascii_append.2 ⟨ascii_of_digits hC, ascii_cons.2 ⟨by decide, ascii_append.2 ⟨ascii_of_digits hD, ascii_cons.2 ⟨by decide, %s⟩⟩⟩⟩⟩"

def inv3(cls, dd):
    m = cls.lower()
    return (f'''  obtain ⟨p, hp, hC, hCl, hCne, hD, hDl⟩ := keyFields_facts hF
  obtain ⟨u, hn⟩ := {cls}.fromBinary_made b x hx
  have hn' := hn
  obtain ⟨C', D', S', ⟨hC', hD', hS'⟩, -, eu, rfl⟩ := {cls}.new_iff.1 hn
  dsimp only at hu
  obtain ⟨rfl, rfl, rfl⟩ := uri3_inj (q := py "urn:epc:id:{m}") hC'.2.no_dot {dd}.no_dot (dec_digits hC).no_dot (dec_digits hD).no_dot (eu.symm.trans hu)
''')

def stmt(cls, cs, header, res, extra=""):
    return (f'theorem C71_{cs} (b : Str) (x : {cls}) (hB : Bits b) (hb : b.take 8 = py "{header}") (hx : {cls}.fromBinary b = .ok x){extra} :\n'
            f'    ∃ f : Fin 8, f.val = bitField b 8 3 ∧ x.binary .{cs} f = .ok ({res}) := by\n')

def key(W, one):
    return f"layout_key hB (W := {W}) hh rfl hF (fun _ => by omega) (by decide) (by omega)" if one else f"layout_key_zero hB (W := {W}) hh rfl hF (by decide) (by omega)"

def numeric3(cls, cs, header, W, lo, w):
    m = cls.lower()
    return (f"/-- {cls}-96. -/\n" + stmt(cls, cs, header, f"usedKeyBits b {W} ++ (b.drop {lo}).take {w}") + start(cls, cs, 96) + f'''  have H := C52_{cs} hB hb hl
  by_cases hK : ∃ C D, KeyFields b {W} (fun p => p) C D
  case neg => rw [H.2 hK] at hx; cases hx
  obtain ⟨C, D, hF⟩ := hK
  have hP : Plain (bitField b {lo} {w}) (natStr (bitField b {lo} {w})) := plain_iff.2 rfl
  have hlt := bitField_lt hB (lo := {lo}) (k := {w}) (by omega)
  obtain ⟨y, hy, hu⟩ := H.1 C D _ hF hP
  rw [hx] at hy; cases hy
''' + inv3(cls, "hD'") + f'''  have ht := fun f => (C17_{m} _ _ f (by rw [hu] at hn'; exact hn')).1 ⟨hP.1, Nat.lt_of_le_of_lt (Nat.le_of_eq hP.2) hlt⟩
  have hau : Ascii u := by
    rw [hu]
    exact {ASC3 % "ascii_of_digits (Digits_natStr _)"}
  have hh := hdr_bits (h := {dec(header)}) hb (by decide)
  rw [C56_{cs} hau hn' (ht _)]
  dsimp only
  rw [{key(W, False)}, layout_one, join_one, hP.2, bitsOf_bitField hB (by omega)]

''')

def text3(cls, cs, size, header, K, W, lo, n, dd, maxlen):
    m = cls.lower()
    raw = f"sevenText b {lo} {n}"
    pre = f"b.take {11 + W}" if K != "p" else f"usedKeyBits b {W}"
    if maxlen:
        cond = f"(∀ c ∈ {raw}, c ∈ gs82) ∧ {raw} ≠ [] ∧ (LoneLetterEscapes ({raw}) → (escape ({raw})).length ≤ {maxlen})"
        use = "h1 hr.1 hr.2.1 hlo (hr.2.2 hlo)"
    else:
        cond = f"(∀ c ∈ {raw}, c ∈ gs82) ∧ {raw} ≠ []"
        use = "h1 hr.1 hr.2 hlo"
    return (f"/-- {cls}-{size}. -/\n" + stmt(cls, cs, header, f"{pre} ++ compactText b {lo} {n} {7 * n}") + start(cls, cs, size) + f'''  have H := C53_{cs} hB hb hl
  by_cases hK : ∃ C D, KeyFields b {W} (fun p => {K}) C D
  case neg => rw [H.2 hK] at hx; cases hx
  obtain ⟨C, D, hF⟩ := hK
  obtain ⟨h1, h2, h3⟩ := H.1 C D _ hF rfl
  by_cases hr : {cond}
  case neg => rw [h2 hr] at hx; cases hx
  by_cases hlo : LoneLetterEscapes ({raw})
  case neg => obtain ⟨e, he, -⟩ := h3 hlo; rw [he] at hx; cases hx
  obtain ⟨y, hy, hu⟩ := {use}
  rw [hx] at hy; cases hy
''' + inv3(cls, dd) + f'''  have hau : Ascii u := by
    rw [hu]
    exact {ASC3 % "gs3a3_ascii hS'"}
  have hh := hdr_bits (h := {dec(header)}) hb (by decide)
  rw [C56_{cs} hau hn' hr.1 rfl]
  dsimp only
  rw [List.append_assoc (_ ++ _), {key(W, K != "p")}, layout_text_fill]
  rfl

''')

def sgcn():
    return ("/-- SGCN-96. -/\n" + stmt("SGCN", "sgcn96", "00111111", "usedKeyBits b 44 ++ (b.drop 55).take 41") + start("SGCN", "sgcn96", 96) + f'''  have H := C52_sgcn96 hB hb hl
  by_cases hK : (∃ C D, KeyFields b 44 (fun p => p) C D) ∧ ∃ S, Digits S ∧ S ≠ [] ∧ number ('1' :: S) = bitField b 55 41
  case neg => rw [H.2 hK] at hx; cases hx
  obtain ⟨⟨C, D, hF⟩, S, hS, hSne, hSv⟩ := hK
  obtain ⟨y, hy, hu⟩ := H.1 C D S hF hS hSne hSv
  rw [hx] at hy; cases hy
''' + inv3("SGCN", "hD'") + f'''  have hau : Ascii u := by
    rw [hu]
    exact {ASC3 % "ascii_of_digits hS"}
  have hh := hdr_bits (h := 63) hb (by decide)
  rw [C56_sgcn96 hau hn']
  dsimp only
  rw [{key(44, False)}, layout_one, hSv, bitsOf_bitField hB (by omega)]

''')

def itip(long):
    cs, size, header = ("itip212", 212, "01000001") if long else ("itip110", 110, "01000000")
    res = "b.take 72 ++ compactText b 72 20 140" if long else "b.take 110"
    out = f"/-- ITIP-{size}; a piece or total of 99 cannot be written (C64). -/\n" + stmt("ITIP", cs, header, res, extra="\n    (h99 : number x.piece < 99 ∧ number x.total < 99)") + start("ITIP", cs, size)
    c = "C53" if long else "C52"
    out += f'''  have H := {c}_{cs} hB hb hl
  by_cases hK : (∃ C D, KeyFields b 47 (fun p => p + 1) C D) ∧ bitField b 58 7 ≤ 99 ∧ bitField b 65 7 ≤ 99
  case neg => rw [H.2 hK] at hx; cases hx
  obtain ⟨⟨C, D, hF⟩, hP99, hT99⟩ := hK
  have hA : Padded 2 (bitField b 58 7) (padLeft '0' 2 (natStr (bitField b 58 7))) := padded_two hP99
  have hT : Padded 2 (bitField b 65 7) (padLeft '0' 2 (natStr (bitField b 65 7))) := padded_two hT99
'''
    if long:
        out += '''  obtain ⟨h1, h2, h3⟩ := H.1 C D _ _ _ hF hA hT rfl
  by_cases hr : (∀ c ∈ sevenText b 72 20, c ∈ gs82) ∧ sevenText b 72 20 ≠ []
  case neg => rw [h2 hr] at hx; cases hx
  by_cases hlo : LoneLetterEscapes (sevenText b 72 20)
  case neg => obtain ⟨e, he, -⟩ := h3 hlo; rw [he] at hx; cases hx
  obtain ⟨y, hy, hu⟩ := h1 hr.1 hr.2 hlo
'''
    else:
        out += '''  have hP : Plain (bitField b 72 38) (natStr (bitField b 72 38)) := plain_iff.2 rfl
  have hlt := bitField_lt hB (lo := 72) (k := 38) (by omega)
  obtain ⟨y, hy, hu⟩ := H.1 C D _ _ _ hF hA hT hP
'''
    out += '''  rw [hx] at hy; cases hy
  obtain ⟨p, hp, hC, hCl, hCne, hD, hDl⟩ := keyFields_facts hF
  obtain ⟨u, hn⟩ := ITIP.fromBinary_made b x hx
  have hn' := hn
  obtain ⟨C', D', A', T', S', ⟨hC', hD', hA', hT', hS'⟩, hlen, eu, rfl⟩ := ITIP.new_iff.1 hn
  dsimp only at hu h99 ⊢
  obtain ⟨rfl, rfl, e3⟩ := uri3_inj (q := py "urn:epc:id:itip") hC'.2.no_dot hD'.2.no_dot (dec_digits hC).no_dot (dec_digits hD).no_dot (eu.symm.trans hu)
  obtain ⟨rfl, rfl, rfl⟩ := uri3_inj (q := []) (a := A') (b := T') (a' := padLeft '0' 2 (natStr (bitField b 58 7)))
    (b' := padLeft '0' 2 (natStr (bitField b 65 7))) hA'.2.no_dot hT'.2.no_dot (dec_digits hA.1).no_dot (dec_digits hT.1).no_dot (congrArg (':' :: ·) e3)
  have hau : Ascii u := by
    rw [hu]
    exact ascii_append.2 ⟨by decide, ascii_append.2 ⟨ascii_of_digits hC, ascii_cons.2 ⟨by decide, ascii_append.2 ⟨ascii_of_digits hD, ascii_cons.2 ⟨by decide,
      ascii_append.2 ⟨ascii_of_digits hA.1, ascii_cons.2 ⟨by decide, ascii_append.2 ⟨ascii_of_digits hT.1, ascii_cons.2 ⟨by decide, gs3a3_ascii hS'⟩⟩⟩⟩⟩⟩⟩⟩⟩
'''
    out += f"  have hh := hdr_bits (h := {dec(header)}) hb (by decide)\n"
    two = "layout_cons, layout_cons, hA.2.2, hT.2.2, bitsOf_bitField hB (by omega), bitsOf_bitField hB (by omega)"
    if long:
        out += f'''  rw [C56_itip212 hau hn' ⟨hA.2.1, h99.1⟩ ⟨hT.2.1, h99.2⟩ hr.1 rfl]
  dsimp only
  rw [List.append_assoc (_ ++ _ ++ _), List.append_assoc (_ ++ _), {key(47, True)}, layout_append, layout_text_fill,
    {two},
    show layout [] = [] from rfl, List.append_nil, ← List.append_assoc, ← List.append_assoc, take_add_field, take_add_field]
  rfl

'''
    else:
        out += f'''  have ht := fun f => (C17_itip _ _ f (by rw [hu] at hn'; exact hn')).1 ⟨hP.1, Nat.lt_of_le_of_lt (Nat.le_of_eq hP.2) hlt⟩
  rw [C56_itip110 hau hn' ⟨hA.2.1, h99.1⟩ ⟨hT.2.1, h99.2⟩ (ht _)]
  dsimp only
  rw [List.append_assoc (_ ++ _), {key(47, True)}, layout_append, layout_one, join_one, hP.2, bitsOf_bitField hB (by omega),
    {two},
    show layout [] = [] from rfl, List.append_nil, ← List.append_assoc, ← List.append_assoc, take_add_field, take_add_field, take_add_field]

'''
    return out

def main():
    out = HEAD
    for n, h, W, lo, w in [("SGLN", "00110010", 44, 55, 41), ("GRAI", "00110011", 47, 58, 38), ("GDTI", "00101100", 44, 55, 41)]:
        out += numeric3(n, n.lower() + "96", h, W, lo, w)
    for n in ["SGTIN", "SGLN", "GRAI", "GDTI"]:
        size, K, W, lo, g, h, dd, mx = {"SGTIN": (198, "p + 1", 47, 58, 20, "00110110", "hD'.2", 0), "SGLN": (195, "p", 44, 55, 20, "00111001", "hD'", 0),
                                "GRAI": (170, "p", 47, 58, 16, "00110111", "hD'", 16), "GDTI": (174, "p", 44, 55, 17, "00111110", "hD'", 17)}[n]
        out += text3(n, n.lower() + str(size), size, h, K, W, lo, g, dd, mx)
    out += sgcn() + itip(False) + itip(True)
    out += open(__file__.replace("gen_c71.py", "c71_tail.txt")).read()
    open(__file__.replace("tools/gen_c71.py", "lean/Verif/Props/C71.lean"), "w").write(out)

main()
