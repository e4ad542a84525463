#!/usr/bin/env python3
"""Generate lean/Verif/Refine/Patterns.lean: the regular expressions of the model written as patterns, and the proof that the texts of
/repo/epcpy/utils/regex.py are the texts of these patterns."""
import os
import re

ROOT = os.path.dirname(os.path.dirname(os.path.abspath(__file__)))
src = open(f"{ROOT}/lean/Verif/Model/Regexes.lean").read()
CLS = {
    "isCprefPlain": "cprefItems", "isCage": "cageItems", "isBicOwner": "bicItems", "isCpiElem": "cpiItems", "isDigitA": "digitItems",
    "isDecimal": "[.digit]", "isHexA": "hexItems", "isGs3a3Plain": "plainItems", "isGs3a3Any": "anyItems",
    "(fun c => isDigitA c && c != '0')": "[.range '1' '9']", "(fun c => c == 'J' || c == 'U' || c == 'Z')": "[.one 'J', .one 'U', .one 'Z']",
}
body = src[src.index("/-- `\\.` -/"):src.index("end Epc.Rx")]
blocks = re.findall(r"/--.*?-/\ndef .*?(?=\n\n|\n/--|\Z)", body, re.S)
defs, thms, names = [], [], {}
for b in blocks:
    doc, d = re.match(r"/-- (.*?)-/\n(def .*)", b, re.S).groups()
    name = re.match(r"def (\w+)", d).group(1)
    m = re.match(r"`([A-Z0-9_]+)`", doc)
    if m:
        names[m.group(1)] = name
    t = d
    for k, v in CLS.items():
        t = t.replace(f".cls {k}", f".cls {v}")
    if name == "adiChar":
        t = t.replace("cprefItems", "adiItems")
    t = t.replace("Re.chr", "Pat.chr").replace("Re.range", "Pat.range").replace(": Re ", ": Pat ").replace("Re)", "Pat)")
    assert "Re" not in t.replace("Regex", ""), t
    defs.append(t)
    args = re.match(r"def \w+ ((?:\([^)]*\) ?)*)", t).group(1).strip()
    vs = " ".join(re.findall(r"\w+", args.replace(": Pat", "")))
    lhs = f"({name} {vs}).toRe" if vs else f"{name}.toRe"
    rhs = " ".join(f"{v}.toRe" for v in vs.split())
    rhs = f"Rx.{name} " + " ".join(f"({v}.toRe)" for v in vs.split()) if vs else f"Rx.{name}"
    thms.append(f"@[pats] theorem toRe_{name} {args} : {lhs} = {rhs} := by\n  simp only [{name}, Rx.{name}, pats]")

# the constants that the modules import from regex.py
import ast
texts = []
for n in ast.parse(open("/repo/epcpy/utils/regex.py").read()).body:
    texts.append(n.targets[0].id)
rows = []
for t in texts:
    if t == "VERIFY_GS3A3_CHARS":
        q, r = "verify", "verifyGs3a3Re"
    elif t in names:
        q, r = names[t], f"Rx.{names[t]}"
    else:
        continue
    rows.append((t, q, r))
prog = open(f"{ROOT}/lean/Verif/Src/Program.lean").read()
used = set(re.findall(r"\.text Src\.regex\.(\w+)", prog))
assert used <= {t for t, _, _ in rows}, used - {t for t, _, _ in rows}
out = '''/-
The regular expressions of the model are those that the source writes down as texts.

Generated by tools/gen_patterns.py: the first part repeats Model/Regexes with patterns instead of regular expressions, the second shows that the
constants of /repo/epcpy/utils/regex.py are the texts of these patterns.
-/
import Verif.Lemmas.Pattern
import Verif.Refine.PatsAttr
import Verif.Model.Regexes
import Verif.Model.Adi
import Verif.Src.Simp

namespace Epc.Pat

/-! ### Sets -/

theorem eq_nat (c a : Char) : (c == a) = decide (c.toNat = a.toNat) := by
  rw [Bool.eq_iff_iff, beq_iff_eq, decide_eq_true_iff]
  exact ⟨fun h => by rw [h], fun h => Char.toNat_inj.1 h⟩

theorem le_nat (c a : Char) : decide (c ≤ a) = decide (c.toNat ≤ a.toNat) := by
  rw [Bool.eq_iff_iff, decide_eq_true_iff, decide_eq_true_iff]
  exact Iff.rfl

/-- Two sets of characters that are written differently. -/
macro "sets" : tactic => `(tactic| (
  simp only [toRe, Re.cls.injEq]
  funext c
  rw [Bool.eq_iff_iff]
  simp only [List.any_cons, List.any_nil, Bool.or_false, Item.has, isDigitA, isHexA, isBit, isAlphaA, isGs3a3Punct, isGs3a3Plain, isEscaped,
    isGs3a3Any, Rx.isUpperA, Rx.isCprefPlain, Rx.isCage, Rx.isBicOwner, Rx.isCpiElem, eq_nat, le_nat, bne, Bool.or_eq_true, Bool.and_eq_true,
    Bool.not_eq_true', decide_eq_true_iff, decide_eq_false_iff_not]
  simp only [Char.reduceToNat]
  all_goals omega))

def digitItems : List Item := [.range '0' '9']
def cprefItems : List Item := [.range '0' '9', .range 'A' 'Z', .one '-']
def adiItems : List Item := [.range 'A' 'Z', .range '0' '9', .one '-']
def cageItems : List Item := [.range '0' '9', .range 'A' 'H', .range 'J' 'N', .range 'P' 'Z']
def bicItems : List Item := [.range 'A' 'H', .range 'J' 'N', .range 'P' 'Z']
def cpiItems : List Item := [.range '0' '9', .range 'A' 'Z', .one '/', .one '-', .one '#']
def hexItems : List Item := [.range '0' '9', .range 'a' 'f', .range 'A' 'F']
def plainItems : List Item :=
  [.range 'a' 'z', .range 'A' 'Z', .range '0' '9', .one '!', .one '\\'', .one '(', .one ')', .one '*', .one '+', .range ',' '.', .one ':', .one ';',
   .one '=', .one '_']
def anyItems : List Item :=
  [.range 'a' 'z', .range 'A' 'Z', .range '0' '9', .one '!', .one '\\'', .one '(', .one ')', .one '*', .one '+', .range ',' '.', .one ':', .one ';',
   .one '=', .one '_', .one '"', .one '%', .one '&', .one '/', .one '<', .one '>', .one '?']

@[pats] theorem set_digit : (Pat.cls digitItems).toRe = .cls isDigitA := by unfold digitItems; sets
@[pats] theorem set_cpref : (Pat.cls cprefItems).toRe = .cls Rx.isCprefPlain := by unfold cprefItems; sets
@[pats] theorem set_adi : (Pat.cls adiItems).toRe = .cls Rx.isCprefPlain := by unfold adiItems; sets
@[pats] theorem set_cage : (Pat.cls cageItems).toRe = .cls Rx.isCage := by unfold cageItems; sets
@[pats] theorem set_bic : (Pat.cls bicItems).toRe = .cls Rx.isBicOwner := by unfold bicItems; sets
@[pats] theorem set_cpi : (Pat.cls cpiItems).toRe = .cls Rx.isCpiElem := by unfold cpiItems; sets
@[pats] theorem set_hex : (Pat.cls hexItems).toRe = .cls isHexA := by unfold hexItems; sets
@[pats] theorem set_plain : (Pat.cls plainItems).toRe = .cls isGs3a3Plain := by unfold plainItems; sets
@[pats] theorem set_any : (Pat.cls anyItems).toRe = .cls isGs3a3Any := by unfold anyItems; sets
@[pats] theorem set_decimal : (Pat.cls [.digit]).toRe = .cls isDecimal := by
  simp only [toRe, List.any_cons, List.any_nil, Bool.or_false, Item.has]
@[pats] theorem set_dot : (Pat.cls [.any]).toRe = .cls anyChar := by
  simp only [toRe, List.any_cons, List.any_nil, Bool.or_false, Item.has]
@[pats] theorem set_positive : (Pat.cls [.range '1' '9']).toRe = .cls (fun c => isDigitA c && c != '0') := by sets
@[pats] theorem set_category : (Pat.cls [.one 'J', .one 'U', .one 'Z']).toRe = .cls (fun c => c == 'J' || c == 'U' || c == 'Z') := by sets

attribute [pats] toRe_rep toRe_range toRe_plus toRe_opt toRe_seqs toRe_alts toRe_chr List.map_cons List.map_nil

@[pats] theorem toRe_seq (a b : Pat) : (Pat.seq a b).toRe = .seq a.toRe b.toRe := rfl
@[pats] theorem toRe_alt (a b : Pat) : (Pat.alt a b).toRe = .alt a.toRe b.toRe := rfl
@[pats] theorem toRe_star (a : Pat) : (Pat.star a).toRe = .star a.toRe := rfl
@[pats] theorem toRe_lit : ∀ s : Str, (lit s).toRe = Re.lit s
  | [] => rfl
  | [c] => toRe_chr c
  | c :: d :: s => by
    rw [lit, Re.lit, toRe_seq, toRe_chr, toRe_lit (d :: s)]
    · exact fun h => by cases h
    · exact fun h => by cases h

/-! ### The regular expressions of the model as patterns -/

''' + "\n".join(defs) + '''
def verify : Pat := plus (.cls anyItems)

''' + "\n".join(thms) + '''
@[pats] theorem toRe_verify : verify.toRe = verifyGs3a3Re := by
  simp only [verify, verifyGs3a3Re, pats]

end Epc.Pat

namespace Epc.Src

/-! ### The texts of the source -/

/-- The regular expression of a text. -/
def rx (text : Str) : Re := (compile text).getD .none

theorem rx_of_reads {text : Str} {q : Pat} (h : Pat.reads text q = true) : compile text = some (rx text) ∧ Pat.Equiv (rx text) q.toRe := by
  obtain ⟨r, h1, h2⟩ := Pat.compile_of_reads h
  unfold rx
  rw [h1]
  exact ⟨rfl, h2⟩

theorem compile_ok {p : Str} {r : Re} (h : compile p = some r) : methodCall (.module .re) .compile [.str p] = .ok (.regex r) := by
  simp only [methodCall, h]

''' + "\n".join(f'''theorem reads_{t} : Pat.reads regex.{t} Pat.{q} = true := by decide +kernel
theorem equiv_{t} : Pat.Equiv (rx regex.{t}) {r} := Pat.toRe_{q} ▸ (rx_of_reads reads_{t}).2
@[src] theorem compile_{t} : methodCall (.module .re) .compile [.str regex.{t}] = .ok (.regex (rx regex.{t})) :=
  compile_ok (rx_of_reads reads_{t}).1
@[src] theorem full_{t} (s : Str) : (rx regex.{t}).fullmatch s = {r}.fullmatch s := equiv_{t}.fullmatch s
@[src] theorem match_{t} (s : Str) : (rx regex.{t}).matchPrefix s = {r}.matchPrefix s := equiv_{t}.matchPrefix s''' for t, q, r in rows) + '''



end Epc.Src
'''
open(f"{ROOT}/lean/Verif/Refine/Patterns.lean", "w").write(out)
print(len(rows), "texts;", len(used), "used by the modules; without a counterpart:", [t for t in texts if t not in {r[0] for r in rows}])
