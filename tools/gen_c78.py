#!/usr/bin/env python3
"""Generate lean/Verif/Props/C78.lean: the objects that survive every chain of conversions."""
import os
ROOT = os.path.dirname(os.path.dirname(os.path.abspath(__file__)))
o = '''/-
C78: an object that is written down, read, written down in another notation, read again, and so on.

`Relay x r` (`Spec/Relay`): `x` is sent any number of times, each time as its URI, as its GS1 element string, or as the tag URI, binary,
hexadecimal or base64 form of any coding scheme and filter value for which `tag_uri` returns; each text is read by the general parser of
its notation; `r` is the outcome.  `Portable x`: the conditions on `x`.
Generated by tools/gen_c78.py.
-/
import Verif.Lemmas.LayoutText
import Verif.Lemmas.Relay
import Verif.Props.C16
import Verif.Props.C23
import Verif.Props.C25
import Verif.Props.C26
import Verif.Props.C32
import Verif.Props.C39
import Verif.Props.C46
import Verif.Props.C47
import Verif.Props.C63
import Verif.Props.C68
import Verif.Props.C69

namespace Epc
open Spec Re

set_option linter.unusedVariables false

private theorem canonical_raw {S raw : Str} (h : Lang Rx.gs3a3 S) (e : S = escape raw) : Canonical S :=
  ⟨raw, by rintro rfl; have := raw_pos h e; simp at this, gs82_of_escape h e, e⟩

'''
# class: (file, codings: (name, theorem, kind), element)
# kind: tag = tag_uri must return, canon = canonical serial
X = {
 "SGTIN": ("sgtin", [("sgtin96", "tag"), ("sgtin198", "canon")], "group2"),
 "SGLN": ("sgln", [("sgln96", "tag"), ("sgln195", "canon")], "group3"),
 "GRAI": ("grai", [("grai96", "tag"), ("grai170", "canon")], "canon"),
 "GDTI": ("gdti", [("gdti96", "tag"), ("gdti174", "canon")], "canon"),
 "SSCC": ("sscc", [("sscc96", "")], "all"),
 "GSRN": ("gsrn", [("gsrn96", "")], "all"),
 "GSRNP": ("gsrnp", [("gsrnp96", "")], "all"),
 "CPI": ("cpi", [("cpi96", "tag"), ("cpiVar", "")], "all"),
 "SGCN": ("sgcn", [("sgcn96", "")], "ascii"),
 "USDOD": ("usdod", [("usdod96", "")], None),
 "GID": ("gid", [("gid96", "")], None),
}
T68 = {"cpiVar": "cpi_var"}
for C, (c, cod, el) in X.items():
    gid = C == "GID"
    f = "" if gid else " f"
    text = el in ("group2", "group3", "canon")
    k = {"group2": 2, "group3": 3}.get(el)
    o += f'''/-- {C}. -/
theorem C78_{c} (u : Str) (x : {C}) (hu : {C}.new u = .ok x) :
    (∀ r, Relay (.{c} x) r → r = .ok (.{c} x)) ↔ Portable (.{c} x) := by
  rw [relay_iff]
  have hc : Cls.new .{c} u = .ok (.{c} x) := by show ({C}.new u).map _ = _; rw [hu]; rfl
  have hx : x.epcUri = u := (Cls.new_facts hc).2.1
  constructor
  · intro H
    show _ ∧ _
''' if text else f'''/-- {C}. -/
theorem C78_{c} (u : Str) (x : {C}) (hu : {C}.new u = .ok x) :
    (∀ r, Relay (.{c} x) r → r = .ok (.{c} x)) ↔ Portable (.{c} x) := by
  rw [relay_iff]
  have hc : Cls.new .{c} u = .ok (.{c} x) := by show ({C}.new u).map _ = _; rw [hu]; rfl
  have hx : x.epcUri = u := (Cls.new_facts hc).2.1
  constructor
  · intro H
    show Ascii _
'''
    last, kind = cod[-1]
    t68 = T68.get(last, last)
    if text:
        o += f'''    obtain ⟨s, hs, -⟩ := C46_{c} u x hu
    obtain ⟨x', h2, e⟩ := map_ok_iff.1 (elem_sent (C := x.companyPref) hc H hs rfl)
    cases e
    have hser : ∃ raw, x.serial = escape raw{f" ∧ ¬ HasGroup {k} raw" if k else ""} := by
'''
        if k == 2:
            o += f'''      obtain ⟨i, C, I, k, raw, ⟨hd, -⟩, -, hg, -, -, h3⟩ := ({C}.from_iff s _ x).1 h2
      obtain ⟨C', D', S', ⟨⟨-, hC'⟩, ⟨-, hD'⟩, -⟩, -, e', rfl⟩ := {C}.new_iff.1 h3
      have hd' := Dec.cons.1 hd
      have hIk := Dec.append.1 (Dec.append.1 hd'.2).2
      have e3 := uri3_inj (Dec.append.1 hd'.2).1.no_dot (Dec.cons.2 ⟨hd'.1, hIk.1⟩ : Dec (i :: I)).no_dot hC'.no_dot hD'.no_dot e'
      exact ⟨raw, e3.2.2.symm, hg⟩
'''
        else:
            g = "hg, " if k else ""
            o += f'''      obtain ⟨C, I, k, raw, ⟨hd, -⟩, -, {g}-, -, h3⟩ := ({C}.from_iff s _ x).1 h2
      obtain ⟨C', D', S', ⟨⟨-, hC'⟩, hD', -⟩, -, e', rfl⟩ := {C}.new_iff.1 h3
      have e3 := uri3_inj (Dec.append.1 hd).1.no_dot (Dec.append.1 (Dec.append.1 hd).2).1.no_dot hC'.no_dot (by first | exact hD'.no_dot | exact hD'.2.no_dot) e'
      exact ⟨raw, e3.2.2.symm{", hg" if k else ""}⟩
'''
        o += f'''    refine ⟨?_, hser⟩
    have hcan : Canonical x.serial := by
      obtain ⟨raw, hraw{", -" if k else ""}⟩ := hser
      obtain ⟨C', D', S', ⟨-, -, hS⟩, -, e', rfl⟩ := {C}.new_iff.1 hu
      exact canonical_raw hS hraw
    obtain ⟨t, ht⟩ : ∃ t, x.tagUri .{last} 0 = .ok t := by
      obtain ⟨C', D', S', -, -, rfl, -⟩ := {C}.new_iff.1 hu
      exact ⟨_, C47_{c} _ x 0 hu⟩
    obtain ⟨y, b, h, s', hy, hb, hh, hs', rb, -, -⟩ := C68_{t68} u x 0 hu hcan
'''
    else:
        if kind == "" and len(cod) > 1:
            o += f'''    obtain ⟨t, ht⟩ : ∃ t, x.tagUri .{last} 0 = .ok t := by
      obtain ⟨C', D', S', -, -, rfl, -⟩ := {C}.new_iff.1 hu
      exact ⟨_, C47_{c} _ x 0 hu⟩
'''
        else:
            o += f"    obtain ⟨t, ht⟩ : ∃ t, x.tagUri .{last}{'' if gid else ' 0'} = .ok t := ⟨_, rfl⟩\n"
        o += f"    obtain ⟨y, b, h, s', hy, hb, hh, hs', rb, -, -⟩ := C68_{t68} u x{'' if gid else ' 0'} hu\n"
    z = "" if gid else " 0"
    wit = f"⟨.{last}, ht, hb, rfl, rfl⟩" if gid else f"⟨.{last}, 0, ht, hb, rfl, rfl⟩"
    o += f'''    have e := decoded_eq (inj := Scheme.{c}) (fun _ _ e => Scheme.{c}.inj e) (fb := {C}.fromBinary) (y := y) H
      (show Forms t (.ok b) _ _ (.{c} x) from {wit}) ((C39_{c} x .{last}{z}).1 b hb) (by simpa using rb [])
    subst e
    have e1 : asciiDigits u = u := by
      have := (Cls.new_facts (c := .{c}) (x := .{c} y) (u := asciiDigits u) (by show ({C}.new _).map _ = _; rw [hy]; rfl)).2.1
      exact (this.symm.trans hx)
    obtain ⟨_, ha, -⟩ := C63_{c} u y hu
    rw [hx, ← e1]
    exact ha
'''
    # sufficiency
    if text:
        o += f'''  · rintro ⟨ha, raw, hraw{", hg" if k else ""}⟩
    rw [hx] at ha
    have hcan : Canonical x.serial := by
      obtain ⟨C', D', S', ⟨-, -, hS⟩, -, e', rfl⟩ := {C}.new_iff.1 hu
      exact canonical_raw hS hraw
'''
    else:
        o += f'''  · intro ha
    have ha : Ascii u := hx ▸ ha
'''
    o += "    refine sent_ok hc ?_ ?_\n"
    if el is None:
        o += "    · intro s C hs hC\n      cases hs\n"
    else:
        if text:
            call = f"C32_{c}{'_partial' if k else ''} u x raw hu hraw"
        elif el == "ascii":
            call = f"C32_{c} u x hu (by obtain ⟨C', D', S', -, -, rfl, rfl⟩ := {C}.new_iff.1 hu; intro a h; exact ha a (by simp [h]))"
        else:
            call = f"C32_{c} u x hu"
        pat = "⟨s', hs', hr, -⟩" if k else "⟨s', hs', hr⟩"
        hr = "hr hg" if k else "hr"
        o += f'''    · rintro s C hs rfl
      obtain {pat} := {call}
      have e : s = s' := Except.ok.inj (hs.symm.trans hs')
      subst e
      exact elem_back hc hs (by show ({C}.fromGs1ElementString _ _).map _ = _; rw [{hr}]; rfl)
'''
    o += f'''    · rintro t b h s ⟨cs{"" if gid else ", f"}, ht, rfl, rfl, rfl⟩
      refine ⟨(C18_parser_iff t _).2 ⟨.{c}, by show ({C}.fromTagUri t).map _ = _; rw [C16_{c} u x cs{f} t hu ht]; rfl⟩, ?_⟩
      cases cs
'''
    for name, kind in cod:
        t68 = T68.get(name, name)
        call = {"tag": f"C68_{t68} u t x f hu ht", "canon": f"C68_{t68} u x f hu hcan", "": f"C68_{t68} u x{f} hu"}[kind]
        ind = "      · " if len(cod) > 1 else "      · "
        o += f'''      · obtain ⟨y, b, h, s, hy, hb, hh, hs, rb, rh, rs⟩ := {call}
        rw [asciiDigits_ascii ha, hu] at hy
        cases hy
        exact forms_back (C39_{c} x .{name}{f}) hb hh hs (by simpa using rb []) rh rs
'''
    o += "\n"
open(os.path.join(ROOT, "lean/Verif/Props/C78.lean"), "w").write(o + open(os.path.join(ROOT, "tools/c78_tail.txt")).read())
