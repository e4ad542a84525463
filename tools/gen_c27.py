#!/usr/bin/env python3
"""Generate lean/Verif/Props/C27.lean, C28.lean and C29.lean (length and header of a binary)."""
import os
ROOT = os.path.dirname(os.path.dirname(os.path.abspath(__file__)))
from gen_bin import R, CLS
def head(doc, imps=("Verif.Lemmas.BinOk",)):
    return "/-\n" + doc + "Generated by tools/gen_c27.py.\n-/\n" + "".join(f"import {i}\n" for i in imps) + "\nnamespace Epc\nopen Spec Re\n"
a = head('''C27: trailing bits after a fixed-size encoding are ignored.  `b.take 8` are the first eight characters of `b`.
''', ("Verif.Lemmas.BinOk", "Verif.Model.Parsers")) + '''
theorem parseHeader_ext {κ : Type} {headers : List (Str × κ)} {value : κ → Str} {cs : κ} {b e h p sz : Str} {n : Nat}
    (hb : b.take 8 = h) (h8 : 8 ≤ n) (hl : headers.lookup h = some cs) (hs : split '-' (value cs) = [p, sz])
    (hn : isNumeric sz = true) (hi : pyInt 10 sz = .ok (n : Int)) (hle : n ≤ b.length) :
    parseHeader headers value (b ++ e) = parseHeader headers value b := by
  rw [parseHeader_fixed hb hl hs hn hi hle,
    parseHeader_fixed (h := h) (by rw [List.take_append_of_le_length (by omega)]; exact hb) hl hs hn hi (by simp; omega),
    List.take_append_of_le_length hle]
'''
b = head('''C28: binaries that are too short for the fixed-size scheme their header announces are rejected with `ConvertException`.
''', ("Verif.Lemmas.BinOk", "Verif.Model.Parsers"))
c = head('''C29: unknown headers are rejected with `ConvertException` by `binary_to_tag_encodable`.

False for the `from_binary` methods of the classes: they raise `KeyError`.
''', ("Verif.Lemmas.BinOk", "Verif.Model.Parsers"))
for r in R:
    C, cs, name, size, hd, fn, w, kind, ex, can = r
    if not size:
        continue
    nm, sz = C.lower(), str(size)
    args = f'(cs := {C}.Coding.{cs}) (p := py "{nm}") (sz := py "{sz}") (n := {size})'
    a += f'''
theorem C27_{cs} (b extra : Str) (hb : b.take 8 = py "{hd}") (hl : {size} ≤ b.length) : {C}.fromBinary (b ++ extra) = {C}.fromBinary b := by
  unfold {C}.fromBinary
  rw [parseHeader_ext {args} hb (by decide) (by decide) (by decide) (by decide) (by decide) hl]
'''
    b += f'''
theorem C28_{cs} (b : Str) (hb : b.take 8 = py "{hd}") (hl : b.length < {size}) : {C}.fromBinary b = .error .convert := by
  unfold {C}.fromBinary
  rw [parseHeader_short {args} hb (by decide) (by decide) (by decide) (by decide) hl, error_bind]
'''
a += '''
example : (SGTIN.fromBinary (py "001100000001011001000101000111111101010000001100000011100100000000000000000000000000000000000001")).isOk = true := by decide +kernel
'''
b += '''
example : (py "00110000").take 8 = py "00110000" ∧ (py "00110000").length < 96 := by decide
'''
for C in CLS:
    hs = [r[4] for r in R if r[0] == C]
    lst = ", ".join(f'py "{h}"' for h in hs)
    c += f'''
/-- What the class method does instead: `KeyError`. -/
theorem C29_{C.lower()}_key (b : Str) (hb : b.take 8 ∉ [{lst}]) : {C}.fromBinary b = .error .key := by
  unfold {C}.fromBinary parseHeader
  rw [lookup_none hb (by decide), error_bind]
'''
allh = ", ".join(f'py "{r[4]}"' for r in R)
c = c.replace("open Spec Re\n", '''open Spec Re

theorem lookup_none {κ : Type} {ks : List Str} {k : Str} (hk : k ∉ ks) : ∀ {hs : List (Str × κ)}, (∀ a ∈ hs.map (·.1), a ∈ ks) →
    hs.lookup k = Option.none
  | [], _ => rfl
  | (a, b) :: t, h => by
    rw [List.map_cons, List.forall_mem_cons] at h
    rw [List.lookup_cons, show (k == a) = false by rw [beq_eq_false_iff_ne]; rintro rfl; exact hk h.1]
    exact lookup_none hk h.2

/-- The 21 headers. -/
def allHeaders : List Str := [''' + allh + ''']

/-- `binary_to_tag_encodable` raises `ConvertException` for every other header, and for strings shorter than a header. -/
theorem C29_parser_partial (b : Str) (hb : b.take 8 ∉ allHeaders) : binaryToTagEncodable b = .error .convert := by
  unfold binaryToTagEncodable
  rw [lookup_none hb (by decide +kernel)]

example : (py "11110000").take 8 ∉ allHeaders ∧ (py "0011").take 8 ∉ allHeaders := by decide

/-- The claim about the class methods. -/
def C29_claim : Prop := ∀ b : Str, b.take 8 ∉ [py "00110000", py "00110110"] → SGTIN.fromBinary b = .error .convert

theorem C29_claim_false : ¬ C29_claim := fun h => absurd (h (py "11110000") (by decide)) (by decide +kernel)
''', 1)
for n, t in (("C27", a), ("C28", b), ("C29", c)):
    open(os.path.join(ROOT, f"lean/Verif/Props/{n}.lean"), "w").write(t + "\nend Epc\n")
