#!/usr/bin/env python3
"""Writes lean/Verif/Props/C64.lean."""

HEAD = '''/-
C64: what was read from a tag can be written again.

If a binary encoding is decoded to an object, the tag URI and the binary encoding of that object for the coding scheme and the filter value
found in the bits are available, and both are decoded to the same object again.  (The bits need not be the same: C30.)  The exceptions are
stated beside the rule: a GIAI-202 whose reference has a ':', an ITIP with a piece or total of 99, the tag URI of a CPI-96 with more than 15
characters, and an ADI whose part number has six zeros in its bits.
Generated by tools/gen_c64.py.
-/
import Verif.Props.C16
import Verif.Props.C17
import Verif.Props.C21
import Verif.Props.C22
import Verif.Props.C23
import Verif.Props.C27
import Verif.Props.C28
import Verif.Props.C30
import Verif.Props.C47
import Verif.Props.C52
import Verif.Props.C53
import Verif.Props.C54
import Verif.Lemmas.Made

namespace Epc
open Spec Re

'''

def stmt(cls, cs, header, fw=3, extra="", tag=None, binr=None):
    m = cls.lower()
    fin = 2 ** fw
    tag = tag or f"(∃ t, x.tagUri .{cs} f = .ok t ∧ {cls}.fromTagUri t = .ok x)"
    binr = binr or f"∃ b', x.binary .{cs} f = .ok b' ∧ {cls}.fromBinary b' = .ok x"
    return (f'theorem C64_{cs} (b : Str) (x : {cls}) (hB : Bits b) (hb : b.take 8 = py "{header}") (hx : {cls}.fromBinary b = .ok x){extra} :\n'
            f'    ∃ f : Fin {fin}, f.val = bitField b 8 {fw} ∧ {tag} ∧\n      {binr} := by\n')

def start(cls, cs, size, fw=3):
    return (f'''  by_cases hl : {size} ≤ b.length
  case neg => rw [C28_{cs} b hb (by omega)] at hx; cases hx
  refine ⟨⟨_, bitField_lt hB (lo := 8) (k := {fw}) (by omega)⟩, rfl, ?_⟩
  generalize (⟨_, _⟩ : Fin {2**fw}) = f
''')

ASC3 = "ascii_append.2 ⟨by decide, ascii_append.2 ⟨ascii_of_digits hC, ascii_cons.2 ⟨by decide, ascii_append.2 ⟨ascii_of_digits hD, ascii_cons.2 ⟨by decide, %s⟩⟩⟩⟩⟩"
ASC2 = "ascii_append.2 ⟨by decide, ascii_append.2 ⟨ascii_of_digits hC, ascii_cons.2 ⟨by decide, %s⟩⟩⟩"

def inv3(cls, dd):
    m = cls.lower()
    return (f'''  obtain ⟨p, hp, hC, hCl, hCne, hD, hDl⟩ := keyFields_facts hF
  obtain ⟨u, hn⟩ := {cls}.fromBinary_made b x hx
  have hn' := hn
  obtain ⟨C', D', S', ⟨hC', hD', hS'⟩, -, eu, rfl⟩ := {cls}.new_iff.1 hn
  dsimp only at hu
  obtain ⟨-, -, rfl⟩ := uri3_inj (q := py "urn:epc:id:{m}") hC'.2.no_dot {dd}.no_dot (dec_digits hC).no_dot (dec_digits hD).no_dot (eu.symm.trans hu)
''')

def numeric3(cls, cs, header, K, W, lo, w, dd):
    m = cls.lower()
    return (f"/-- {cls}-96. -/\n" + stmt(cls, cs, header) + start(cls, cs, 96) + f'''  have H := C52_{cs} hB hb hl
  by_cases hK : ∃ C D, KeyFields b {W} (fun p => {K}) C D
  case neg => rw [H.2 hK] at hx; cases hx
  obtain ⟨C, D, hF⟩ := hK
  have hP : Plain (bitField b {lo} {w}) (natStr (bitField b {lo} {w})) := plain_iff.2 rfl
  have hlt := bitField_lt hB (lo := {lo}) (k := {w}) (by omega)
  obtain ⟨y, hy, hu⟩ := H.1 C D _ hF hP
  rw [hx] at hy; cases hy
''' + inv3(cls, dd) + f'''  have ht := (C17_{m} _ _ f (by rw [hu] at hn'; exact hn')).1 ⟨hP.1, Nat.lt_of_le_of_lt (Nat.le_of_eq hP.2) hlt⟩
  rw [← hu] at ht
  refine ⟨⟨_, ht, C16_{m} u _ _ f _ hn' ht⟩, C21_{cs} u _ _ f ?_ hn' ht⟩
  rw [hu]
  exact {ASC3 % "ascii_of_digits (Digits_natStr _)"}

''')

def text3(cls, cs, size, header, K, W, lo, n, dd, maxlen):
    m = cls.lower()
    raw = f"sevenText b {lo} {n}"
    if maxlen:
        cond = f"(∀ c ∈ {raw}, c ∈ gs82) ∧ {raw} ≠ [] ∧ (LoneLetterEscapes ({raw}) → (escape ({raw})).length ≤ {maxlen})"
        use, hne = "h1 hr.1 hr.2.1 hlo (hr.2.2 hlo)", "hr.2.1"
    else:
        cond = f"(∀ c ∈ {raw}, c ∈ gs82) ∧ {raw} ≠ []"
        use, hne = "h1 hr.1 hr.2 hlo", "hr.2"
    return (f"/-- {cls}-{size}. -/\n" + stmt(cls, cs, header) + start(cls, cs, size) + f'''  have H := C53_{cs} hB hb hl
  by_cases hK : ∃ C D, KeyFields b {W} (fun p => {K}) C D
  case neg => rw [H.2 hK] at hx; cases hx
  obtain ⟨C, D, hF⟩ := hK
  obtain ⟨h1, h2, h3⟩ := H.1 C D _ hF rfl
  by_cases hr : {cond}
  case neg => rw [h2 hr] at hx; cases hx
  by_cases hlo : LoneLetterEscapes ({raw})
  case neg => obtain ⟨e, he, -⟩ := h3 hlo; rw [he] at hx; cases hx
  obtain ⟨y, hy, hu⟩ := {use}
  rw [hx] at hy; cases hy
''' + inv3(cls, dd) + f'''  have ht := C47_{m} _ _ f (by rw [hu] at hn'; exact hn')
  rw [← hu] at ht
  refine ⟨⟨_, ht, C16_{m} u _ _ f _ hn' ht⟩, C22_{cs} u _ f ?_ hn' ⟨_, {hne}, hr.1, rfl⟩⟩
  rw [hu]
  exact {ASC3 % "gs3a3_ascii hS'"}

''')

def two(cls, cs, header):
    m = cls.lower()
    return (f"/-- {cls}-96. -/\n" + stmt(cls, cs, header) + start(cls, cs, 96) + f'''  have H := C52_{cs} hB hb hl
  by_cases hK : ∃ C D, KeyFields b 61 (fun p => p + 5) C D
  case neg => rw [H.2 hK] at hx; cases hx
  obtain ⟨C, D, hF⟩ := hK
  obtain ⟨y, hy, hu⟩ := H.1 C D hF
  rw [hx] at hy; cases hy
  obtain ⟨p, hp, hC, hCl, hCne, hD, hDl⟩ := keyFields_facts hF
  obtain ⟨u, hn⟩ := {cls}.fromBinary_made b x hx
  have eu : x.epcUri = u := by obtain ⟨_, _, _, _, _, rfl⟩ := {cls}.new_iff.1 hn; rfl
  rw [eu] at hu
  have ht := C47_{m} _ _ f (by rw [hu] at hn; exact hn)
  refine ⟨⟨_, ht, C16_{m} u _ _ f _ hn ht⟩, C21_{cs} u _ f ?_ hn⟩
  rw [hu]
  exact {ASC2 % "ascii_of_digits hD"}

''')

def sgcn():
    return ("/-- SGCN-96. -/\n" + stmt("SGCN", "sgcn96", "00111111") + start("SGCN", "sgcn96", 96) + f'''  have H := C52_sgcn96 hB hb hl
  by_cases hK : (∃ C D, KeyFields b 44 (fun p => p) C D) ∧ ∃ S, Digits S ∧ S ≠ [] ∧ number ('1' :: S) = bitField b 55 41
  case neg => rw [H.2 hK] at hx; cases hx
  obtain ⟨⟨C, D, hF⟩, S, hS, hSne, hSv⟩ := hK
  obtain ⟨y, hy, hu⟩ := H.1 C D S hF hS hSne hSv
  rw [hx] at hy; cases hy
  obtain ⟨p, hp, hC, hCl, hCne, hD, hDl⟩ := keyFields_facts hF
  obtain ⟨u, hn⟩ := SGCN.fromBinary_made b x hx
  have eu : x.epcUri = u := by obtain ⟨_, _, _, _, _, _, rfl⟩ := SGCN.new_iff.1 hn; rfl
  rw [eu] at hu
  have ht := C47_sgcn _ _ f (by rw [hu] at hn; exact hn)
  refine ⟨⟨_, ht, C16_sgcn u _ _ f _ hn ht⟩, C21_sgcn96 u _ f ?_ hn⟩
  rw [hu]
  exact {ASC3 % "ascii_of_digits hS"}

''')

def itip(long):
    cs, size, header = ("itip212", 212, "01000001") if long else ("itip110", 110, "01000000")
    binr = (f"(number x.piece < 99 ∧ number x.total < 99 → ∃ b', x.binary .{cs} f = .ok b' ∧ ITIP.fromBinary b' = .ok x) ∧\n"
            f"      (¬ (number x.piece < 99 ∧ number x.total < 99) → x.binary .{cs} f = .error .convert)")
    out = f"/-- ITIP-{size}: a piece or total of 99 can be read, but not written. -/\n" + stmt("ITIP", cs, header, binr=binr) + start("ITIP", cs, size)
    c = "C53" if long else "C52"
    out += f'''  have H := {c}_{cs} hB hb hl
  by_cases hK : (∃ C D, KeyFields b 47 (fun p => p + 1) C D) ∧ bitField b 58 7 ≤ 99 ∧ bitField b 65 7 ≤ 99
  case neg => rw [H.2 hK] at hx; cases hx
  obtain ⟨⟨C, D, hF⟩, hP99, hT99⟩ := hK
  have hA : Padded 2 (bitField b 58 7) (padLeft '0' 2 (natStr (bitField b 58 7))) := padded_two hP99
  have hT : Padded 2 (bitField b 65 7) (padLeft '0' 2 (natStr (bitField b 65 7))) := padded_two hT99
'''
    if long:
        out += '''  obtain ⟨h1, h2, h3⟩ := H.1 C D _ _ _ hF hA hT rfl
  by_cases hr : (∀ c ∈ sevenText b 72 20, c ∈ gs82) ∧ sevenText b 72 20 ≠ []
  case neg => rw [h2 hr] at hx; cases hx
  by_cases hlo : LoneLetterEscapes (sevenText b 72 20)
  case neg => obtain ⟨e, he, -⟩ := h3 hlo; rw [he] at hx; cases hx
  obtain ⟨y, hy, hu⟩ := h1 hr.1 hr.2 hlo
'''
    else:
        out += '''  have hP : Plain (bitField b 72 38) (natStr (bitField b 72 38)) := plain_iff.2 rfl
  have hlt := bitField_lt hB (lo := 72) (k := 38) (by omega)
  obtain ⟨y, hy, hu⟩ := H.1 C D _ _ _ hF hA hT hP
'''
    out += '''  rw [hx] at hy; cases hy
  obtain ⟨p, hp, hC, hCl, hCne, hD, hDl⟩ := keyFields_facts hF
  obtain ⟨u, hn⟩ := ITIP.fromBinary_made b x hx
  have hn' := hn
  obtain ⟨C', D', A', T', S', ⟨hC', hD', hA', hT', hS'⟩, hlen, eu, rfl⟩ := ITIP.new_iff.1 hn
  dsimp only at hu ⊢
  obtain ⟨rfl, rfl, e3⟩ := uri3_inj (q := py "urn:epc:id:itip") hC'.2.no_dot hD'.2.no_dot (dec_digits hC).no_dot (dec_digits hD).no_dot (eu.symm.trans hu)
  obtain ⟨rfl, rfl, rfl⟩ := uri3_inj (q := []) (a := A') (b := T') (a' := padLeft '0' 2 (natStr (bitField b 58 7)))
    (b' := padLeft '0' 2 (natStr (bitField b 65 7))) hA'.2.no_dot hT'.2.no_dot (dec_digits hA.1).no_dot (dec_digits hT.1).no_dot (congrArg (':' :: ·) e3)
  have hau : Ascii u := by
    rw [hu]
    exact ascii_append.2 ⟨by decide, ascii_append.2 ⟨ascii_of_digits hC, ascii_cons.2 ⟨by decide, ascii_append.2 ⟨ascii_of_digits hD, ascii_cons.2 ⟨by decide,
      ascii_append.2 ⟨ascii_of_digits hA.1, ascii_cons.2 ⟨by decide, ascii_append.2 ⟨ascii_of_digits hT.1, ascii_cons.2 ⟨by decide, gs3a3_ascii hS'⟩⟩⟩⟩⟩⟩⟩⟩⟩
'''
    if long:
        out += '''  have ht := C47_itip _ _ f (by rw [hu] at hn'; exact hn')
  rw [← hu] at ht
  refine ⟨⟨_, ht, C16_itip u _ _ f _ hn' ht⟩, fun ⟨q1, q2⟩ => C22_itip212_partial u _ f hau hn' ⟨hA.2.1, q1⟩ ⟨hT.2.1, q2⟩ ⟨_, hr.2, hr.1, rfl⟩, fun hno => ?_⟩
'''
    else:
        out += '''  have ht := (C17_itip _ _ f (by rw [hu] at hn'; exact hn')).1 ⟨hP.1, Nat.lt_of_le_of_lt (Nat.le_of_eq hP.2) hlt⟩
  rw [← hu] at ht
  refine ⟨⟨_, ht, C16_itip u _ _ f _ hn' ht⟩, fun ⟨q1, q2⟩ => C21_itip110_partial u _ _ f hau hn' ⟨hA.2.1, q1⟩ ⟨hT.2.1, q2⟩ ht, fun hno => ?_⟩
'''
    out += '''  exact itip_binary_99 hC hD (by omega) (by omega) ⟨hA.1, ne_nil_of_length hA.2.1 (by decide)⟩ ⟨hT.1, ne_nil_of_length hT.2.1 (by decide)⟩ hno

'''
    return out

def main():
    out = HEAD
    out += open(__file__.replace("gen_c64.py", "c64_head.txt")).read()
    for n in ["SGTIN", "SGLN", "GRAI", "GDTI"]:
        K, W, lo, w, h, dd = {"SGTIN": ("p + 1", 47, 58, 38, "00110000", "hD'.2"), "SGLN": ("p", 44, 55, 41, "00110010", "hD'"),
                              "GRAI": ("p", 47, 58, 38, "00110011", "hD'"), "GDTI": ("p", 44, 55, 41, "00101100", "hD'")}[n]
        out += numeric3(n, n.lower() + "96", h, K, W, lo, w, dd)
    for n in ["SGTIN", "SGLN", "GRAI", "GDTI"]:
        size, K, W, lo, g, h, dd, mx = {"SGTIN": (198, "p + 1", 47, 58, 20, "00110110", "hD'.2", 0), "SGLN": (195, "p", 44, 55, 20, "00111001", "hD'", 0),
                                "GRAI": (170, "p", 47, 58, 16, "00110111", "hD'", 16), "GDTI": (174, "p", 44, 55, 17, "00111110", "hD'", 17)}[n]
        out += text3(n, n.lower() + str(size), size, h, K, W, lo, g, dd, mx)
    for n, h in [("SSCC", "00110001"), ("GSRN", "00101101"), ("GSRNP", "00101110")]:
        out += two(n, n.lower() + "96", h)
    out += sgcn() + itip(False) + itip(True)
    out += open(__file__.replace("gen_c64.py", "c64_tail.txt")).read()
    open(__file__.replace("tools/gen_c64.py", "lean/Verif/Props/C64.lean"), "w").write(out)

main()
