#!/usr/bin/env python3
"""Generate lean/Verif/Props/C19.lean."""
import os
ROOT = os.path.dirname(os.path.dirname(os.path.abspath(__file__)))
from gen_bin import R, CLS
s = '''/-
C19: decoding ignores filter value and coding scheme, and the binaries for two filter values differ only in the filter field.

`C19_filter_*` and the same-scheme half hold for every object; two different schemes are compared when `tag_uri` returns for both.  For
ITIP piece and total must have two digits (the claim is false otherwise).
Generated by tools/gen_c19.py.
-/
import Verif.Lemmas.AvailAny
import Verif.Lemmas.Shape
import Verif.Lemmas.BinSplit
import Verif.Props.C16

namespace Epc
open Spec Re
'''
for C in CLS:
    rows = [r for r in R if r[0] == C]
    nm = C.lower()
    fn, w = rows[0][5], rows[0][6]
    if C == "GID":
        s += '''
/-- GID has one coding scheme and no filter values: there is one binary and one tag URI per object. -/
theorem C19_gid (x : GID) (cs cs' : GID.Coding) : x.binary cs = x.binary cs' ∧ x.tagUri cs = x.tagUri cs' := by
  cases cs; cases cs'; exact ⟨rfl, rfl⟩
'''
        continue
    ex = rows[0][8]
    cs0 = rows[0][1]
    s += f'''
/-- {C}: another filter value changes the filter field only. -/
theorem C19_filter_{nm} (x : {C}) (cs : {C}.Coding) (f g : Fin {fn}) (b : Str) (hb : x.binary cs f = .ok b) :
    ∃ b', x.binary cs g = .ok b' ∧ b'.length = b.length ∧ b'.take 8 = b.take 8 ∧ b'.drop {8+w} = b.drop {8+w} := by
  obtain ⟨s, rfl, h⟩ := {C}.binary_split hb
  have h8 : cs.header.length = 8 := by cases cs <;> rfl
  have hf : (bin {w} f).length = {w} := length_bin (by omega) (by omega)
  have hg : (bin {w} g).length = {w} := length_bin (by omega) (by omega)
  refine ⟨_, h g, by simp only [List.length_append]; omega, by rw [take_append_eq h8, take_append_eq h8], ?_⟩
  rw [drop_skip (k := {8+w}) (by omega) (by omega), drop_skip (k := {8+w}) (by omega) (by omega)]

example : ((do let x ← {C}.new (py "urn:epc:id:{nm}:{ex}"); x.binary .{cs0} 3) : Except Err Str).isOk = true := by decide +kernel
'''
    swap = f'''  have same : ∀ {{cs : {C}.Coding}} {{f g : Fin {fn}}} {{b b' : Str}}, x.binary cs f = .ok b → x.binary cs g = .ok b' →
      ∀ y, {C}.fromBinary b = .ok y ↔ {C}.fromBinary b' = .ok y := by
    intro cs f g b b' hb hb' y
    obtain ⟨s, rfl, h⟩ := {C}.binary_split hb
    rw [h g] at hb'
    injection hb' with hb'
    subst hb'
    exact ⟨{C}.fromBinary_swap, {C}.fromBinary_swap⟩
'''
    tag = "by rw [GIAI.tagUri_decodes hu ht, GIAI.tagUri_decodes hu ht']" if C == "GIAI" else f"by rw [C16_{nm} u x cs f t hu ht, C16_{nm} u x cs' g t' hu ht']"
    hyp = "\n    (hp : x.piece.length = 2) (hq : x.total.length = 2)" if C == "ITIP" else ""
    s += f'''
/-- {C}: the object read back does not depend on filter value or coding scheme. -/
theorem C19_{nm}{"_partial" if C == "ITIP" else ""} (u t t' b b' : Str) (x : {C}) (cs cs' : {C}.Coding) (f g : Fin {fn}) (hu : {C}.new u = .ok x){hyp}
    (ht : x.tagUri cs f = .ok t) (ht' : x.tagUri cs' g = .ok t') (hb : x.binary cs f = .ok b) (hb' : x.binary cs' g = .ok b') :
    {C}.fromTagUri t = {C}.fromTagUri t' ∧ ∀ y, {C}.fromBinary b = .ok y ↔ {C}.fromBinary b' = .ok y := by
  refine ⟨{tag}, ?_⟩
{swap}'''
    if len(rows) == 1:
        s += "  cases cs; cases cs'\n  exact same hb hb'\n"
    else:
        a, b = rows[0][1], rows[1][1]
        if C == "GIAI":
            core = f'''    obtain ⟨z, hz, r1, _, H1⟩ := GIAI.any_giai96 hu ht
    obtain ⟨z', hz', r2, _, H2⟩ := GIAI.any_giai202 hu (numeral_canonical (GIAI.serial_of_tagUri hu ht).1)
    rw [hz] at hz'
    injection hz' with hz'
    subst hz'
    have e1 := H1.roundtrip f
    have e2 := H2.roundtrip g
    rw [hb] at e1
    rw [hb'] at e2'''
        else:
            if C == "CPI":
                h1, h2 = "CPI.any_cpi96 hu ht", "CPI.any_cpiVar hu"
            elif C == "ITIP":
                h1 = "ITIP.any_itip110 hu ⟨hp, hn.1⟩ ⟨hq, hn.2⟩ ht"
                h2 = "ITIP.any_itip212 hu ⟨hp, hn.1⟩ ⟨hq, hn.2⟩ (numeral_canonical (ITIP.serial_of_tagUri hu ht).1)"
            else:
                h1 = f"{C}.any_{a} hu ht"
                h2 = f"{C}.any_{b} hu (numeral_canonical ({C}.serial_of_tagUri hu ht).1)"
            core = ("    have hn := ITIP.any_small hu hb\n" if C == "ITIP" else "") + f'''    obtain ⟨z, hz, r1, _, H1⟩ := {h1}
    obtain ⟨z', hz', r2, _, H2⟩ := {h2}
    rw [hz] at hz'
    injection hz' with hz'
    subst hz'
    have e1 := H1.roundtrip f
    have e2 := H2.roundtrip g
    rw [hb] at e1
    rw [hb'] at e2'''
        core += f'''
    have e1 : {C}.fromBinary b = _ := e1
    have e2 : {C}.fromBinary b' = _ := e2
    intro y
    rw [e1, e2]
'''
        s += f'''  have diff : ∀ {{f g : Fin {fn}}} {{b b' t : Str}}, x.tagUri .{a} f = .ok t → x.binary .{a} f = .ok b → x.binary .{b} g = .ok b' →
      ∀ y, {C}.fromBinary b = .ok y ↔ {C}.fromBinary b' = .ok y := by
    intro f g b b' t ht hb hb'
{core}  cases cs <;> cases cs'
  · exact same hb hb'
  · exact diff ht hb hb'
  · exact fun y => (diff ht' hb' hb y).symm
  · exact same hb hb'
'''
    s += f'''
example : ((do let x ← {C}.new (py "urn:epc:id:{nm}:{ex}"); let _ ← x.tagUri .{rows[0][1]} 3; let _ ← x.tagUri .{rows[-1][1]} 5; let _ ← x.binary .{rows[0][1]} 3; x.binary .{rows[-1][1]} 5) : Except Err Str).isOk = true := by decide +kernel
'''
s += '''
/-- The claim for ITIP without the hypotheses on the lengths of piece and total. -/
def C19_itip_claim : Prop := ∀ (u t t' b b' : Str) (x : ITIP) (cs cs' : ITIP.Coding) (f g : Fin 8), ITIP.new u = .ok x →
  x.tagUri cs f = .ok t → x.tagUri cs' g = .ok t' → x.binary cs f = .ok b → x.binary cs' g = .ok b' →
  ∀ y, ITIP.fromBinary b = .ok y ↔ ITIP.fromBinary b' = .ok y

/-- It is false: with piece and total of one digit, the item reference has too many bits for its field. -/
theorem C19_itip_claim_false : ¬ C19_itip_claim := by
  intro h
  have h1 : ((do let x ← ITIP.new (py "urn:epc:id:itip:952114.016777218.2.2.4"); let _ ← x.tagUri .itip110 0; let _ ← x.tagUri .itip212 0; let b ← x.binary .itip110 0; let b' ← x.binary .itip212 0; return (ITIP.fromBinary b).isOk && !(ITIP.fromBinary b').isOk) : Except Err Bool) = .ok true := by
    decide +kernel
  obtain ⟨x, h1, h2⟩ := bind_ok_iff.1 h1
  obtain ⟨t, h3, h2⟩ := bind_ok_iff.1 h2
  obtain ⟨t', h4, h2⟩ := bind_ok_iff.1 h2
  obtain ⟨b, h5, h2⟩ := bind_ok_iff.1 h2
  obtain ⟨b', h6, h2⟩ := bind_ok_iff.1 h2
  injection h2 with h2
  have H := h _ t t' b b' x _ _ 0 0 h1 h3 h4 h5 h6
  rw [Bool.and_eq_true] at h2
  cases hy : ITIP.fromBinary b with
  | error e => rw [hy] at h2; exact absurd h2.1 (by simp [Except.isOk, Except.toBool])
  | ok y => rw [(H y).1 hy] at h2; exact absurd h2.2 (by simp [Except.isOk, Except.toBool])

end Epc
'''
open(os.path.join(ROOT, "lean/Verif/Props/C19.lean"), "w").write(s)
