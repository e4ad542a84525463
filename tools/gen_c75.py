#!/usr/bin/env python3
"""Generate lean/Verif/Lemmas/FieldsAll.lean and lean/Verif/Props/C75.lean (texts whose fields are numbers)."""
import os
ROOT = os.path.dirname(os.path.dirname(os.path.abspath(__file__)))
from gen_bin import R
from gen_decode import P

CLS = ["SGTIN", "SSCC", "SGLN", "GRAI", "GIAI", "GSRN", "GSRNP", "GDTI", "CPI", "SGCN", "ITIP", "GID", "USDOD", "ADI"]
lem = '''/-
`from_binary` on two texts with the same numbers in their fields.
Generated by tools/gen_c75.py.
-/
import Verif.Lemmas.Fields

set_option linter.unusedSimpArgs false

namespace Epc
open Spec
'''
prop = '''/-
C75: the texts `from_binary` takes.  A binary is announced as a string of zeros and ones, but the fields are read by Python's `int(text, 2)`, so every
class takes other texts as well.  The strongest true form: a field is seen only through its number, so `from_binary` answers as it does for the text
in which every number is written out in zeros and ones.
Generated by tools/gen_c75.py.
-/
import Verif.Lemmas.FieldsAll

namespace Epc
open Spec

/-! ### The claim is false of every class -/

'''
bits = open(os.path.join(ROOT, "tools", "c75_texts.txt")).read().split()
TXT = dict(zip(bits[0::2], bits[1::2]))


def bad(C, cs):
    t = TXT[cs]
    if C == "GID":
        return t[:8] + "+" + t[9:]
    return t[:8] + "+" + t[9:]


first = {}
for r in R:
    first.setdefault(r[0], r[1])
for C in CLS:
    prop += f'''theorem C75_{C.lower()}_claim_false : ¬ ∀ b x, {C}.fromBinary b = .ok x → Bits b := by
  intro h
  have hx : ({C}.fromBinary (py "{bad(C, first[C])}")).toBool = true := by decide +kernel
  cases e : {C}.fromBinary (py "{bad(C, first[C])}") with
  | error _ => rw [e] at hx; exact Bool.noConfusion hx
  | ok x => exact absurd (h _ x e) (by decide +kernel)

'''
prop += '''/-! ### What holds of every text -/

/-- The rewritten text consists of zeros and ones when the header does and every field is a number that is not negative. -/
theorem C75_bits_partial {b : Str} {ws : List Nat} (hh : Bits (b.take 8)) (hl : b.length = 8 + ws.sum)
    (hr : ∀ pre w post, ws = pre ++ w :: post → ∃ n, Reads ((b.drop (8 + pre.sum)).take w) n) : Bits (b.take 8 ++ fieldsBits (b.drop 8) ws) :=
  Bits_append.2 ⟨hh, Bits_fieldsBits ws _ (by rw [List.length_drop]; omega) fun pre w post e => by
    obtain ⟨n, hn⟩ := hr pre w post e
    rw [← List.drop_drop] at hn
    exact ⟨n, hn⟩⟩

'''
for C, cs, name, size, hd, fn, w, kind, ex, can in R:
    fixed = f'''  rw [parseHeader_fixed (cs := Coding.{cs}) (p := py "{C.lower()}") (sz := py "{size}") (n := {size}) hb (by decide) (by decide) (by decide) (by decide) hl,
    parseHeader_fixed (cs := Coding.{cs}) (p := py "{C.lower()}") (sz := py "{size}") (n := {size}) hb' (by decide) (by decide) (by decide) (by decide) hl', ok_bind, ok_bind]
'''.replace("Coding.", f"{C}.Coding.")
    head = f'''
theorem {C}.same_{cs} {{b b' : Str}} (hb : b.take 8 = py "{hd}") (hb' : b'.take 8 = py "{hd}")'''
    pb = "prefixBits (12 - p)"
    if cs in P:
        W, T, mode, lo, sw, ser = P[cs]
        pm = mode.strip() or ".plain"
        hy = [f"(hl : {size} ≤ b.length) (hl' : {size} ≤ b'.length) (hf : Same b b' 8 3)",
              f"(hk : decodePartitionTable ((b.drop 11).take {W}) {T} {pm} = decodePartitionTable ((b'.drop 11).take {W}) {T} {pm})"]
        rws = ["hf", "hk"]
        if C == "ITIP":
            hy.append("(hp : Same b b' 58 7) (ht : Same b b' 65 7)")
        if ser in ("int", "num"):
            hy.append(f"(hs : Same b b' {lo} {sw})")
        elif ser == "str":
            hy.append(f"(hs : b.drop {lo} = b'.drop {lo})")
        lem += head + "\n    " + "\n    ".join(hy) + f" :\n    {C}.fromBinary b = {C}.fromBinary b' := by\n"
        lem += "  unfold Same at *\n"
        lem += f"  unfold {C}.fromBinary\n" + fixed
        if C == "CPI":
            lem += "  unfold CPI.decodeParts\n"
        lem += "  simp only [reduceIte, reduceCtorEq, drop_of_take, slice_of_take (show 11 ≤ %d by decide), slice_of_take (show %d ≤ %d by decide), binIntStr, binaryToInt]\n" % (size, 11 + W, size)
        if C == "ITIP":
            lem += f"  rw [slice_of_take (show 65 ≤ {size} by decide), slice_of_take (show 72 ≤ {size} by decide), slice_of_take (show 65 ≤ {size} by decide), slice_of_take (show 72 ≤ {size} by decide)]\n"
            lem += "  rw [fixed_same hl hl' (by decide) hp, fixed_same hl hl' (by decide) ht]\n"
        if ser == "num":
            lem += "  unfold decodeNumericString\n"
        sub = lambda x: f"show pyInt 2 (({x}.drop {lo}).take ({size} - {lo})) = pyInt 2 (({x}'.drop {lo}).take ({size} - {lo})) from hs"
        lem += "  rw [show pyInt 2 ((b.drop 8).take (11 - 8)) = pyInt 2 ((b'.drop 8).take (11 - 8)) from hf]\n"
        lem += f"  rw [show decodePartitionTable ((b.drop 11).take ({11 + W} - 11)) {T} {pm} = decodePartitionTable ((b'.drop 11).take ({11 + W} - 11)) {T} {pm} from hk]\n"
        if C == "CPI":
            lem += f"""  generalize decodePartitionTable ((b'.drop 11).take (65 - 11)) CPI.table96 .unpadded = d
  cases d with
  | error e => rfl
  | ok d =>
    simp only [ok_bind, pure_ok]
    rw [{sub('b')}]
"""
        elif ser in ("int", "num"):
            lem += f"  rw [{sub('b')}]\n"
        elif ser == "str":
            lem += "  rw [hs]\n"
        mid = [f"[3]", 3, f"{pb}", f"{W} - 3 - {pb}"]
        text = cs == "giai202"
        ws = f"3 :: keyWidths {W} p" if not text else f"[3, 3, {pb}]"
        tail = []
        if C == "ITIP":
            tail += ["7", "7"]
        if ser in ("int", "num"):
            tail += [str(sw)]
        if tail:
            ws += f" ++ [{', '.join(tail)}]"
        tl = "[" + ", ".join(tail) + "]"
        std = f"(by decide : StdTable {T})"
        om = f"(by have := prefixBits_le_40 (12 - p); simp <;> omega)"
        ol = f"(by have := prefixBits_le_40 (12 - p); omega)"
        fields = ["3", "3", pb, f"{W} - 3 - {pb}"] + tail if not text else ["3", "3", pb]

        def at(i):
            return f"(same_at [{', '.join(fields[:i])}] ({fields[i]}) [{', '.join(fields[i + 1:])}] {om} {ol})"
        args = ["hb", "(by rw [take_behind (by omega)]; exact hb)", "hl", "(by rw [length_behind]; exact hl)", at(0)]
        if not text:
            args.append(f"(key_same {std} (by decide) (by decide) (by decide) hP {at(1)} {at(2)} {at(3)})")
        else:
            args.append(f"(key_same_text {std} (by rw [List.take_take]; exact hP) (same_inner (by decide) {at(1)}) (same_inner {ol} {at(2)})\n"
                        f"      (by rw [List.drop_take, List.drop_take, List.drop_drop, List.drop_drop, drop_behind {om} {ol}]))")
        if C == "ITIP":
            args += [at(4), at(5)]
        if ser in ("int", "num"):
            args.append(at(len(fields) - 1))
        elif ser == "str":
            args.append(f"(drop_behind {om.replace('simp', 'simp [keyWidths]')} {ol}).symm")
        said = {"int": "filter value, partition value, company prefix, reference and serial", "num": "filter value, partition value, company prefix, reference and serial",
                "str": "filter value, partition value, company prefix and reference (the characters of the serial are kept)",
                None: "filter value, partition value, company prefix and reference"}[ser]
        if text:
            said = "filter value, partition value and company prefix (the characters of the reference are kept)"
        if C == "ITIP":
            said = said.replace("reference", "reference, piece, total", 1).replace("reference, piece, total and serial", "reference, piece, total and serial")
        prop += f'''/-- {name}: {said}. -/
theorem C75_{cs}_partial {{b : Str}} {{p : Nat}} (hb : b.take 8 = py "{hd}") (hl : {size} ≤ b.length) (hP : Reads ((b.drop 11).take 3) p) :
    {C}.fromBinary b = {C}.fromBinary (b.take 8 ++ fieldsBits (b.drop 8) ({ws})) :=
  {C}.same_{cs} {(chr(10) + "    ").join(args)}

'''
    elif cs == "gid96":
        lem += head + f'''
    (hl : 96 ≤ b.length) (hl' : 96 ≤ b'.length) (hm : Same b b' 8 28) (ho : Same b b' 36 24) (hs : Same b b' 60 36) :
    GID.fromBinary b = GID.fromBinary b' := by
  unfold Same at *
  unfold GID.fromBinary
{fixed}  simp only [drop_of_take, slice_of_take (show 36 ≤ 96 by decide), slice_of_take (show 60 ≤ 96 by decide), binIntStr, binaryToInt]
  rw [show pyInt 2 ((b.drop 8).take (36 - 8)) = pyInt 2 ((b'.drop 8).take (36 - 8)) from hm,
    show pyInt 2 ((b.drop 36).take (60 - 36)) = pyInt 2 ((b'.drop 36).take (60 - 36)) from ho,
    show pyInt 2 ((b.drop 60).take (96 - 60)) = pyInt 2 ((b'.drop 60).take (96 - 60)) from hs]
'''
        prop += f'''/-- {name}: manager, class and serial. -/
theorem C75_gid96_partial {{b : Str}} (hb : b.take 8 = py "{hd}") (hl : 96 ≤ b.length) :
    GID.fromBinary b = GID.fromBinary (b.take 8 ++ fieldsBits (b.drop 8) [28, 24, 36]) :=
  GID.same_gid96 hb (by rw [take_behind (by omega)]; exact hb) hl (by rw [length_behind]; exact hl)
    (same_at [] 28 [24, 36] rfl (by omega)) (same_at [28] 24 [36] rfl (by omega)) (same_at [28, 24] 36 [] rfl (by omega))

'''
    elif cs == "usdod96":
        lem += head + f'''
    (hl : 96 ≤ b.length) (hl' : 96 ≤ b'.length) (hf : Same b b' 8 4) (hc : (b.drop 12).take 48 = (b'.drop 12).take 48) (hs : Same b b' 60 36) :
    USDOD.fromBinary b = USDOD.fromBinary b' := by
  unfold Same at *
  unfold USDOD.fromBinary
{fixed}  simp only [drop_of_take, slice_of_take (show 12 ≤ 96 by decide), slice_of_take (show 60 ≤ 96 by decide), binIntStr, binaryToInt]
  rw [show pyInt 2 ((b.drop 8).take (12 - 8)) = pyInt 2 ((b'.drop 8).take (12 - 8)) from hf,
    show (b.drop 12).take (60 - 12) = (b'.drop 12).take (60 - 12) from hc,
    show pyInt 2 ((b.drop 60).take (96 - 60)) = pyInt 2 ((b'.drop 60).take (96 - 60)) from hs]
'''
        prop += f'''/-- {name}: filter value and serial (the CAGE code is kept). -/
theorem C75_usdod96_partial {{b : Str}} (hb : b.take 8 = py "{hd}") (hl : 96 ≤ b.length) :
    USDOD.fromBinary b = USDOD.fromBinary (b.take 8 ++ (fieldBits ((b.drop 8).take 4) ++ ((b.drop 12).take 48 ++ fieldsBits (b.drop 60) [36]))) := by
  have h8 : (b.take 8).length = 8 := by rw [List.length_take]; omega
  have h4 : (fieldBits ((b.drop 8).take 4)).length = 4 := by rw [length_fieldBits, List.length_take, List.length_drop]; omega
  have h48 : ((b.drop 12).take 48).length = 48 := by rw [List.length_take, List.length_drop]; omega
  have h36 := length_fieldsBits [36] (b.drop 60)
  rw [List.length_drop] at h36
  refine USDOD.same_usdod96 hb (by rw [List.take_left' h8, hb]) hl (by simp only [List.length_append]; omega) ?_ ?_ ?_
  · unfold Same
    rw [List.drop_left' h8, List.take_left' h4, pyInt_fieldBits]
  · rw [show 12 = 8 + 4 from rfl, ← List.drop_drop (l := _ ++ _), List.drop_left' h8, List.drop_left' h4, List.take_left' h48]
  · have := same_fields [] 36 [] (b.drop 60) (by rw [List.length_drop, List.sum_nil]; omega)
    unfold Same at *
    rw [List.drop_drop] at this
    rw [show 60 = 8 + (4 + 48) from rfl, ← List.drop_drop (l := _ ++ _), List.drop_left' h8, ← List.drop_drop (l := _ ++ _), List.drop_left' h4, List.drop_left' h48]
    exact this

'''
    elif cs == "cpiVar":
        lem += head + f'''
    {{p : Nat}} (hP : Reads ((b.drop 11).take 3) p) (hf : Same b b' 8 3) (hp : Same b b' 11 3)
    (hk : decodePartitionTable (b.drop 11) CPI.tableVar .sixBit = decodePartitionTable (b'.drop 11) CPI.tableVar .sixBit)
    (hs : b.drop (14 + prefixBits (12 - p)) = b'.drop (14 + prefixBits (12 - p))) :
    CPI.fromBinary b = CPI.fromBinary b' := by
  unfold Same at *
  unfold Reads at hP
  unfold CPI.fromBinary
  rw [parseHeader_var (cs := CPI.Coding.cpiVar) (p := py "cpi") (sz := py "var") hb (by decide) (by decide) (by decide),
    parseHeader_var (cs := CPI.Coding.cpiVar) (p := py "cpi") (sz := py "var") hb' (by decide) (by decide) (by decide), ok_bind, ok_bind]
  unfold CPI.decodeParts
  simp only [reduceIte, reduceCtorEq, binIntStr, binaryToInt, slice_eq]
  rw [show pyInt 2 ((b.drop 8).take (11 - 8)) = pyInt 2 ((b'.drop 8).take (11 - 8)) from hf, hk, ← hp, hP]
  simp only [ok_bind]
  cases hr : rowByP CPI.tableVar (p : Int) with
  | error e => rfl
  | ok r =>
    obtain ⟨hmem, hrp⟩ := rowByP_mem hr
    have e : p = r.P := by omega
    have hM := ((by decide : StdTable CPI.tableVar).2.2.1 r hmem).2
    subst e
    rw [← hM] at hs
    simp only [ok_bind]
    rw [show 11 + 3 + r.M = 14 + r.M from rfl, hs]
'''
        ol = "(by have := prefixBits_le_40 (12 - p); omega)"
        om = "(by have := prefixBits_le_40 (12 - p); simp <;> omega)"
        f = ["3", "3", pb]

        def at(i):
            return f"(same_at [{', '.join(f[:i])}] ({f[i]}) [{', '.join(f[i + 1:])}] {om} {ol})"

        def inner(i, off, w):
            return f"(by have h := {at(i)}\n          unfold Same at *; rw [List.drop_drop, List.drop_drop]; exact h)"
        prop += f'''/-- {name}: filter value, partition value and company prefix (the characters behind them are kept). -/
theorem C75_cpiVar_partial {{b : Str}} {{p : Nat}} (hb : b.take 8 = py "{hd}") (hl : 54 ≤ b.length) (hP : Reads ((b.drop 11).take 3) p) :
    CPI.fromBinary b = CPI.fromBinary (b.take 8 ++ fieldsBits (b.drop 8) [3, 3, {pb}]) := by
  have h := prefixBits_le_40 (12 - p)
  have h1 : Same b (b.take 8 ++ fieldsBits (b.drop 8) [3, 3, {pb}]) 11 3 := same_at [3] 3 [{pb}] rfl (by omega)
  have h2 : Same b (b.take 8 ++ fieldsBits (b.drop 8) [3, 3, {pb}]) 14 ({pb}) := same_at [3, 3] ({pb}) [] rfl (by omega)
  have hd : (b.take 8 ++ fieldsBits (b.drop 8) [3, 3, {pb}]).drop (14 + {pb}) = b.drop (14 + {pb}) :=
    drop_behind (by simp <;> omega) (by omega)
  refine CPI.same_cpiVar hb (by rw [take_behind (by omega)]; exact hb) hP (same_at [] 3 [3, {pb}] rfl (by omega)) h1
    (key_same_text (by decide) hP ?_ ?_ ?_) hd.symm
  · unfold Same at *
    rw [List.drop_zero, List.drop_zero]
    exact h1
  · unfold Same at *
    rw [List.drop_drop, List.drop_drop]
    exact h2
  · rw [List.drop_drop, List.drop_drop, ← Nat.add_assoc]
    exact hd.symm

'''
    elif cs == "adiVar":
        lem += head + f'''
    (hf : Same b b' 8 6) (hs : b.drop 14 = b'.drop 14) : ADI.fromBinary b = ADI.fromBinary b' := by
  unfold Same at *
  have h50 : b.drop 50 = b'.drop 50 := by
    rw [show 50 = 14 + 36 from rfl, ← List.drop_drop, ← List.drop_drop, hs]
  unfold ADI.fromBinary
  rw [parseHeader_var (cs := ADI.Coding.adiVar) (p := py "adi") (sz := py "var") hb (by decide) (by decide) (by decide),
    parseHeader_var (cs := ADI.Coding.adiVar) (p := py "adi") (sz := py "var") hb' (by decide) (by decide) (by decide), ok_bind, ok_bind]
  simp only [binaryToInt, slice_eq]
  rw [show pyInt 2 ((b.drop 8).take (14 - 8)) = pyInt 2 ((b'.drop 8).take (14 - 8)) from hf, h50, hs]
'''
        prop += f'''/-- {name}: the filter value (the characters behind it are kept). -/
theorem C75_adiVar_partial {{b : Str}} (hb : b.take 8 = py "{hd}") (hl : 14 ≤ b.length) :
    ADI.fromBinary b = ADI.fromBinary (b.take 8 ++ fieldsBits (b.drop 8) [6]) :=
  ADI.same_adiVar hb (by rw [take_behind (by omega)]; exact hb) (same_at [] 6 [] rfl (by omega)) (drop_behind (b := b) (lo := 14) (ws := [6]) rfl (by omega)).symm

'''
lem = lem.replace("open Spec\n", '''open Spec

theorem fixed_same {b b' : Str} {lo hi n : Nat} (hl : n ≤ b.length) (hl' : n ≤ b'.length) (hi' : hi ≤ n)
    (h : pyInt 2 ((b.drop lo).take (hi - lo)) = pyInt 2 ((b'.drop lo).take (hi - lo))) :
    decodeFixedWidthInteger ((b.drop lo).take (hi - lo)) = decodeFixedWidthInteger ((b'.drop lo).take (hi - lo)) := by
  have e : ((b.drop lo).take (hi - lo)).length = ((b'.drop lo).take (hi - lo)).length := by
    rw [List.length_take, List.length_take, List.length_drop, List.length_drop]; omega
  unfold decodeFixedWidthInteger
  rw [e, h]
''', 1) + "\nend Epc\n"
tail = os.path.join(ROOT, "tools", "c75_tail.txt")
prop += open(tail).read() if os.path.exists(tail) else ""
prop += "end Epc\n"
open(os.path.join(ROOT, "lean/Verif/Lemmas/FieldsAll.lean"), "w").write(lem)
open(os.path.join(ROOT, "lean/Verif/Props/C75.lean"), "w").write(prop)
