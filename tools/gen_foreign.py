#!/usr/bin/env python3
"""Generate Model/Foreign.lean, Lemmas/Foreign.lean, Props/C84.lean and Props/C85.lean: the output methods called with coding schemes and
filter values of other classes.  The bodies of `binary` are copied from the model of each class."""
import os, re
ROOT = os.path.dirname(os.path.dirname(os.path.abspath(__file__)))
# class: (file, filter values, lines of tag_uri, lines of binary, check, rest of the tag URI, sample body, sample coding)
X = {
 "SGTIN": ("sgtin", 8, "265-294", "296-322", "badSerial", "x.companyPref ++ '.' :: x.itemRef ++ '.' :: x.serial", "0614141.812345.6789", "sgtin96"),
 "SSCC": ("sscc", 8, "193-208", "210-233", None, "x.companyPref ++ '.' :: x.serial", "0614141.1234567890", "sscc96"),
 "SGLN": ("sgln", 8, "202-230", "232-257", "badSerial", "x.companyPref ++ '.' :: x.locationRef ++ '.' :: x.serial", "0614141.12345.400", "sgln96"),
 "GRAI": ("grai", 8, "200-230", "232-258", "badSerial", "x.companyPref ++ '.' :: x.assetType ++ '.' :: x.serial", "0614141.12345.400", "grai96"),
 "GIAI": ("giai", 8, "259-295", "297-321", "badAssetRef", "x.companyPref ++ '.' :: x.assetRef", "0614141.12345400", "giai96"),
 "GSRN": ("gsrn", 8, "190-204", "206-227", None, "x.companyPref ++ '.' :: x.serviceRef", "0614141.1234567890", "gsrn96"),
 "GSRNP": ("gsrnp", 8, "190-206", "208-229", None, "x.companyPref ++ '.' :: x.serviceRef", "0614141.1234567890", "gsrnp96"),
 "GDTI": ("gdti", 8, "202-235", "237-263", "badSerial", "x.companyPref ++ '.' :: x.docType ++ '.' :: x.serial", "0614141.12345.400", "gdti96"),
 "CPI": ("cpi", 8, "260-291", "293-326", "badSerial", "x.companyPref ++ '.' :: x.cpRef ++ '.' :: x.serial", "0614141.123456.123456789", "cpi96"),
 "SGCN": ("sgcn", 8, "198-213", "215-236", None, "x.companyPref ++ '.' :: x.couponRef ++ '.' :: x.serial", "4012345.67890.04711", "sgcn96"),
 "ITIP": ("itip", 8, "201-231", "233-264", "badSerial", "x.companyPref ++ '.' :: x.itemRef ++ '.' :: x.piece ++ '.' :: x.total ++ '.' :: x.serial", "4012345.012345.01.02.987", "itip110"),
 "GID": ("gid", None, "65-78", "80-99", None, "x.manager ++ '.' :: x.object ++ '.' :: x.serial", "952056.2718.1414", "gid96"),
 "USDOD": ("usdod", 16, "80-95", "97-116", None, "x.cage ++ '.' :: x.serial", "2S194.12345678901", "usdod96"),
 "ADI": ("adi", 64, "137-151", "153-176", None, "x.cage ++ '.' :: x.partNumber ++ '.' :: x.serial", "35962.PQ7VZ4.M37GXB92", "adiVar"),
}
MARK = re.compile(r"^(\s*)def (tag_uri|binary|hex|base64|from_binary)\b")
BITS = {8: 3, 16: 4, 64: 6}


def lines_of(fn, which):
    """lines of the method in /repo, from `def` to the line before the next decorator or def"""
    src = open(f"/repo/epcpy/epc_schemes/{fn}.py").read().split("\n")
    start = next(i for i, l in enumerate(src) if l.startswith(f"    def {which}("))
    end = start + 1
    while end < len(src) and not (src[end].startswith("    def ") or src[end].startswith("    @")):
        end += 1
    while not src[end - 1].strip():
        end -= 1
    return f"{start + 1}-{end}"


def body(cls, fn):
    """the body of `binary` in the model"""
    t = open(f"{ROOT}/lean/Verif/Model/{fn.capitalize()}.lean").read()
    m = re.search(r"^def binary \(x : \w+\) \(cs : Coding\)(?: \(f : Fin \d+\))? : Except Err Str := do\n((?:  .*\n)+)", t, re.M)
    if m:
        return "".join("    " + l[2:] + "\n" for l in m.group(1).rstrip("\n").split("\n"))
    raise SystemExit(f"no binary in {fn}")


con = "\n".join(f"  | {v[0]} (cs : {k}.Coding)" for k, v in X.items())
val = "\n".join(f"  | .{v[0]} cs => cs.value" for v in X.values())
clsm = "\n".join(f"  | .{v[0]} _ => .{v[0]}" for v in X.values())
m = f'''/-
The output methods called with a coding scheme of any class and a filter value of any class.  Python does not check the annotations of the
parameters.  Of a coding scheme the methods use `.value`, `.name` and the comparison with their own members (a member of another enumeration
is never equal to them); of a filter value they use `.value` only, and the values of the filter enumerations are the decimal numerals of the
numbers below 8, 16 (USDOD) or 64 (ADI).
Generated by tools/gen_foreign.py; the bodies of `binary` are those of the model of each class.
-/
import Verif.Model.Parsers

namespace Epc

/-- A member of the `BinaryCodingScheme` of some class. -/
inductive AnyCoding where
{con}
  deriving DecidableEq, Repr

/-- `.value` of a coding scheme. -/
def AnyCoding.value : AnyCoding → Str
{val}

/-- The class the coding scheme belongs to. -/
def AnyCoding.cls : AnyCoding → Cls
{clsm}
'''
for k, (fn, n, _, _, check, rest, sample, sc) in X.items():
    filt = "" if n is None else " (f : Fin 64)"
    fa = "" if n is None else " f"
    ftxt = "" if n is None else "filterStr f ++ '.' :: "
    m += f'''
namespace {k}

/-- `{k}.tag_uri` with a coding scheme {"" if n is None else "and a filter value "}of any class.  /repo/epcpy/epc_schemes/{fn}.py:{lines_of(fn, "tag_uri")} -/
'''
    if check:
        m += f'''def tagUriAny (x : {k}) (cs : AnyCoding){filt} : Except Err Str := do
  let bad ← match cs with
    | .{fn} cs => x.{check} cs
    | _ => .ok false
  if bad then .error .convert
  else return tagUriPrefix ++ cs.value ++ ':' :: {ftxt}{rest}
'''
    else:
        m += f'''def tagUriAny (x : {k}) (cs : AnyCoding){filt} : Except Err Str :=
  .ok (tagUriPrefix ++ cs.value ++ ':' :: {ftxt}{rest})
'''
    m += f'''
/-- `{k}.binary` with a coding scheme {"" if n is None else "and a filter value "}of any class: `BinaryHeader[binary_coding_scheme.name]` comes first and finds the names of
the own coding schemes only.  /repo/epcpy/epc_schemes/{fn}.py:{lines_of(fn, "binary")} -/
def binaryAny (x : {k}) (cs : AnyCoding){filt} : Except Err Str :=
  match cs with
  | .{fn} cs => do
{body(k, fn)}  | _ => .error .key

/-- `{k}.hex` with a coding scheme {"" if n is None else "and a filter value "}of any class.  /repo/epcpy/epc_schemes/base_scheme.py:106-117 -/
def hexAny (x : {k}) (cs : AnyCoding){filt} : Except Err Str := hexOf (x.binaryAny cs{fa})

/-- `{k}.base64` with a coding scheme {"" if n is None else "and a filter value "}of any class.  /repo/epcpy/epc_schemes/base_scheme.py:119-127 -/
def base64Any (x : {k}) (cs : AnyCoding){filt} : Except Err Str := base64Of (x.binaryAny cs{fa})

end {k}
'''
m += "\nend Epc\n"
open(f"{ROOT}/lean/Verif/Model/Foreign.lean", "w").write(m)

# ---------------------------------------------------------------- lemmas
form = open(f"{ROOT}/lean/Verif/Lemmas/TagForm.lean").read()


def under(k):
    """the pattern that takes `new_iff` apart"""
    return re.search(rf"obtain (⟨[^\n]*⟩) := {k}\.new_iff\.1 hu", form).group(1)


l = '''/-
Generated by tools/gen_foreign.py.  Coding schemes and filter values of other classes.
-/
import Verif.Model.Foreign
import Verif.Lemmas.TagForm
import Verif.Lemmas.ParseTag
import Verif.Lemmas.Frame
import Verif.Lemmas.Encode
import Verif.Lemmas.Span

set_option linter.unusedSimpArgs false
set_option linter.unusedVariables false

namespace Epc
open Spec Re

theorem AnyCoding.value_facts (cs : AnyCoding) : cs.value ∈ tagNames ∧ tagName cs.value = cs.cls.name := by
'''
l += "  rcases cs with " + " | ".join(["c"] * len(X)) + " <;> cases c <;> decide\n"
l += '''
theorem nameUri_inj {n n' b b' : Str} (hn : ':' ∉ n) (hn' : ':' ∉ n') (h : py "urn:epc:id:" ++ n ++ ':' :: b = py "urn:epc:id:" ++ n' ++ ':' :: b') :
    n = n' := by
  simp only [List.append_assoc] at h
  exact (append_sep_inj hn hn' (List.append_cancel_left h)).1

theorem foreign_tag {new : Str → Except Err α} {cs : AnyCoding} {n : Nat} {r : Str}
    (hnew : ∀ b, new (py "urn:epc:id:" ++ cs.cls.name ++ ':' :: b) = .error .convert) :
    Epc.fromTagUri new true (py "urn:epc:tag:" ++ cs.value ++ ':' :: (natStr n ++ '.' :: r)) = .error .convert := by
  have hv := cs.value_facts
  have := fromTagUri_filter (new := new) (n := cs.value) (f := natStr n) (b := r) (tagNames_facts hv.1) (num_natStr n)
  refine this.trans ?_
  split
  · rw [show (split '-' cs.value).headD [] = cs.cls.name from hv.2]
    exact hnew _
  · rfl

theorem foreign_tag' {new : Str → Except Err α} {cs : AnyCoding} {r : Str}
    (hnew : ∀ b, new (py "urn:epc:id:" ++ cs.cls.name ++ ':' :: b) = .error .convert) :
    Epc.fromTagUri new false (py "urn:epc:tag:" ++ cs.value ++ ':' :: r) = .error .convert := by
  have hv := cs.value_facts
  have := fromTagUri_nofilter (new := new) (n := cs.value) (b := r) (tagNames_facts hv.1).1
  refine this.trans ?_
  split
  · rw [show (split '-' cs.value).headD [] = cs.cls.name from hv.2]
    exact hnew _
  · rfl

theorem foreign_parse {cs : AnyCoding} {r : Str} {y : Scheme} (h : tagUriToTagEncodable (py "urn:epc:tag:" ++ cs.value ++ ':' :: r) = .ok y) :
    y.cls = cs.cls := by
  obtain ⟨c, hc⟩ := (tagUriToTagEncodable_iff _ _).1 h
  obtain ⟨h1, -, size, r', hs, e⟩ := Cls.fromTagUri_facts hc
  have hv := cs.value_facts
  have e' : cs.value ++ ':' :: r = (c.name ++ '-' :: size) ++ ':' :: r' := by
    have e1 : py "urn:epc:tag:" ++ (cs.value ++ ':' :: r) = py "urn:epc:tag:" ++ ((c.name ++ '-' :: size) ++ ':' :: r') := by
      simpa [tagUriPrefix] using e
    exact List.append_cancel_left e1
  have hn := Cls.name_facts c
  have e2 := (append_sep_inj (tagNames_facts hv.1).1 (by simp [hn.1, hs]) e').1
  rw [h1]
  apply Cls.name_inj
  have h2 := hv.2
  rw [e2] at h2
  rw [← h2]
  simp [tagName, split_append_sep hn.2]

theorem filterBits {w k : Nat} {f : Fin 64} (hk : 0 < k) (hw : k ≤ w) (h : (f : Nat) < 2 ^ w) (h' : w = k ∨ 2 ^ (w - 1) ≤ (f : Nat)) :
    bin k f = bitsOf w f := by
  rw [← bin_bitsOf (by omega) h]
  rcases h' with rfl | h'
  · rfl
  · rcases Nat.lt_or_ge w k with h1 | h1
    · omega
    · have hf := f.isLt
      have hw6 : w - 1 < 6 := by
        rcases Nat.lt_or_ge (w - 1) 6 with h2 | h2
        · exact h2
        · have := Nat.pow_le_pow_right (n := 2) (by decide) h2
          omega
      have key : ∀ k w : Fin 7, ∀ f : Fin 64, 0 < k.val ∧ k.val ≤ w.val ∧ (f : Nat) < 2 ^ w.val ∧ 2 ^ (w.val - 1) ≤ (f : Nat) → bin k f = bin w f := by
        decide +kernel
      exact key ⟨k, by omega⟩ ⟨w, by omega⟩ f ⟨hk, hw, h, h'⟩

'''
for k, (fn, n, _, _, check, rest, sample, sc) in X.items():
    filt = "" if n is None else " f"
    l += f'''namespace {k}

theorem new_other {{n b : Str}} (hn : ':' ∉ n) (hne : n ≠ py "{fn}") : new (py "urn:epc:id:" ++ n ++ ':' :: b) = .error .convert := by
  apply new_nomatch
  cases hm : Rx.{fn}Uri.fullmatch (py "urn:epc:id:" ++ n ++ ':' :: b) with
  | false => rfl
  | true =>
    have hl := (fullmatch_iff _ _).1 hm
    rw [Rx.{fn}Uri, lang_lit_seq] at hl
    obtain ⟨b', e, -⟩ := hl
    exact absurd (nameUri_inj (b' := b') hn (by decide : ':' ∉ py "{fn}") e) hne

theorem new_foreign {{cs : AnyCoding}} (hc : cs.cls ≠ .{fn}) (b : Str) : new (py "urn:epc:id:" ++ cs.cls.name ++ ':' :: b) = .error .convert :=
  new_other (Cls.name_facts _).1 (fun e => hc (Cls.name_inj e))

theorem binaryAny_other {{x : {k}}} {{cs : AnyCoding}} {"" if n is None else "{f : Fin 64} "}(hc : cs.cls ≠ .{fn}) : x.binaryAny cs{filt} = .error .key := by
  rcases cs with {" | ".join(["c"] * len(X))} <;> first | rfl | exact absurd rfl hc

theorem tagUriAny_other {{x : {k}}} {{cs : AnyCoding}} {"" if n is None else "{f : Fin 64} "}(hc : cs.cls ≠ .{fn}) :
    x.tagUriAny cs{filt} = .ok (py "urn:epc:tag:" ++ cs.value ++ ':' :: {"" if n is None else "(natStr f ++ '.' :: "}({rest}){"" if n is None else ")"}) := by
  rcases cs with {" | ".join(["c"] * len(X))} <;> first | exact absurd rfl hc | simp [tagUriAny, tagUriPrefix, filterStr, ok_bind, pure_ok]

end {k}

'''
    if fn != "giai":
        l = l[:-len(f"end {k}\n\n")] + f"""theorem uri_rest {{u : Str}} {{x : {k}}} (hu : new u = .ok x) : u = py "urn:epc:id:{fn}:" ++ ({rest}) := by
  obtain {under(k)} := {k}.new_iff.1 hu
  simp

end {k}

"""
    if n is not None:
        nb = body(k, fn).count("←") - 1
        names = [f"h{i}" for i in range(1, nb + 1)]
        steps = "\n".join(f"    obtain ⟨a{i}, h{i}, h⟩ := bind_ok_iff.1 h" for i in range(1, nb + 1))
        l = l[:-len(f"end {k}\n\n")] + f"""theorem binaryAny_zero {{x : {k}}} {{cs : Coding}} {{f : Fin 64}} {{b : Str}} (h : x.binaryAny (.{fn} cs) f = .ok b) :
    ∃ r, b = cs.header ++ (bin {BITS[n]} f ++ r) ∧ x.binary cs 0 = .ok (cs.header ++ (bin {BITS[n]} 0 ++ r)) := by
  cases cs
  all_goals
    simp only [binaryAny, filter_ok, ok_bind, reduceIte, reduceCtorEq, if_true, if_false] at h
{steps}
    cases h
    refine ⟨_, (by simp only [List.append_assoc]; rfl), ?_⟩
    simp [binary, filter_ok, ok_bind, pure_ok, {", ".join(names)}]

end {k}

"""
l += "end Epc\n"
open(f"{ROOT}/lean/Verif/Lemmas/Foreign.lean", "w").write(l)

# ---------------------------------------------------------------- claims
c = '''/-
C84: coding schemes of other classes.

`AnyCoding`: a member of the `BinaryCodingScheme` of some class, `cls` the class it belongs to; a filter value of any class is a number
below 64.  `tagUriAny`, `binaryAny`, `hexAny`, `base64Any` are `tag_uri`, `binary`, `hex`, `base64` with such arguments.
Generated by tools/gen_foreign.py.
-/
import Verif.Lemmas.Foreign

set_option linter.unusedVariables false

namespace Epc
open Spec

/-- Which coding schemes there are. -/
example : ∀ c : Cls, (∃ cs : AnyCoding, cs.cls = c) ↔ c.isTagEncodable = true := by
  intro c
  constructor
  · rintro ⟨cs, rfl⟩; cases cs <;> rfl
  · intro h
    cases c <;> first | exact Bool.noConfusion h | skip
'''
order = "adi cpi gdti giai gid grai gsrn gsrnp itip sgcn sgln sgtin sscc usdod".split()
byfn = {v[0]: (k, v) for k, v in X.items()}
for fn in order:
    c += f"    · exact ⟨.{fn} .{byfn[fn][1][7]}, rfl⟩\n"
for k, (fn, n, _, _, check, rest, sample, sc) in X.items():
    oth = ".gsrn .gsrn96" if fn != "gsrn" else ".sscc .sscc96"
    fb = "" if n is None else "(f : Fin 64) "
    fa = "" if n is None else " f"
    f0 = "" if n is None else " 0"
    fim = "" if n is None else "{f : Fin 64} "
    if fn == "giai":
        bt = "(natStr f ++ '.' :: (split ':' b).headD [])"
    elif n is None:
        bt = "b"
    else:
        bt = "(natStr f ++ '.' :: b)"
    c += f'''
theorem C84_{fn}_claim_false : ¬ ∀ (u : Str) (x : {k}) (cs : AnyCoding) {fb}, {k}.new u = .ok x → cs.cls ≠ .{fn} →
    ∀ t, x.tagUriAny cs{fa} ≠ .ok t ∧ x.binaryAny cs{fa} ≠ .ok t := by
  intro h
  obtain ⟨x, hx⟩ := ok_of_toBool (show ({k}.new (py "urn:epc:id:{fn}:{sample}")).toBool = true by decide +kernel)
  exact (h _ x ({oth}){f0} hx (by decide) _).1 ({k}.tagUriAny_other (by decide))

'''
    if fn == "giai":
        c += "/-- (Of the asset reference of a GIAI the tag URI has what comes before the first colon.) -/\n"
    c += f'''theorem C84_{fn}_partial {{u : Str}} {{x : {k}}} {{cs : AnyCoding}} {fim}(hu : {k}.new u = .ok x) (hc : cs.cls ≠ .{fn}) :
    x.binaryAny cs{fa} = .error .key ∧ x.hexAny cs{fa} = .error .key ∧ x.base64Any cs{fa} = .error .key ∧
    ∃ b t, u = py "urn:epc:id:{fn}:" ++ b ∧ t = py "urn:epc:tag:" ++ cs.value ++ ':' :: {bt} ∧ x.tagUriAny cs{fa} = .ok t ∧
      {k}.fromTagUri t = .error .convert ∧ ∀ y, tagUriToTagEncodable t = .ok y → y.cls = cs.cls := by
  refine ⟨{k}.binaryAny_other hc, ?_, ?_, ?_⟩
  · rw [{k}.hexAny, {k}.binaryAny_other hc]; rfl
  · rw [{k}.base64Any, {k}.binaryAny_other hc]; rfl
'''
    ft = f"foreign_tag{chr(39) if n is None else ''} ({k}.new_foreign hc)"
    if fn == "giai":
        c += f'''  · obtain ⟨C, S, ⟨hC, hS⟩, _, rfl, rfl⟩ := GIAI.new_iff.1 hu
    have hd : (split ':' (C ++ '.' :: S)).headD [] = C ++ '.' :: (split ':' S).headD [] := by
      have := split_append_of_notMem (c := ':') (a := C ++ ['.']) (by simp [hC.2.no_colon]) S
      rw [show C ++ '.' :: S = (C ++ ['.']) ++ S by simp, this]
      simp
    refine ⟨C ++ '.' :: S, _, rfl, rfl, ?_, {ft}, fun y hy => foreign_parse hy⟩
    rw [hd]
    exact GIAI.tagUriAny_other hc
'''
    else:
        c += f'''  · have ht := {k}.tagUriAny_other (x := x) {"" if n is None else "(f := f) "}hc
    exact ⟨_, _, {k}.uri_rest hu, rfl, ht, {ft}, fun y hy => foreign_parse hy⟩
'''
c += '''
/-- An SSCC written with the coding scheme of GSRN is read as the GSRN of the same number. -/
example : ((SSCC.new (py "urn:epc:id:sscc:0614141.1234567890")).toOption.map fun x => x.tagUriAny (.gsrn .gsrn96) 0) =
      some (.ok (py "urn:epc:tag:gsrn-96:0.0614141.1234567890")) ∧
    ((tagUriToTagEncodable (py "urn:epc:tag:gsrn-96:0.0614141.1234567890")).toOption.map Scheme.epcUri) =
      some (py "urn:epc:id:gsrn:0614141.1234567890") := by decide +kernel

/-- A GID written with the coding scheme of SSCC: its first number is taken for the filter value. -/
example : ((GID.new (py "urn:epc:id:gid:3.614141.12345678901")).toOption.map fun x => x.tagUriAny (.sscc .sscc96)) =
      some (.ok (py "urn:epc:tag:sscc-96:3.614141.12345678901")) ∧
    ((tagUriToTagEncodable (py "urn:epc:tag:sscc-96:3.614141.12345678901")).toOption.map Scheme.epcUri) =
      some (py "urn:epc:id:sscc:614141.12345678901") := by decide +kernel

end Epc
'''
open(f"{ROOT}/lean/Verif/Props/C84.lean", "w").write(c)

c = '''/-
C85: filter values of other classes.

A filter value of any class is a number below 64; `tagUriAny` and `binaryAny` are `tag_uri` and `binary` with such a filter value.
`bitsOf w n` (`Spec/Layout`): the number `n` in exactly `w` bits.
Generated by tools/gen_foreign.py.
-/
import Verif.Lemmas.Foreign

set_option linter.unusedVariables false

namespace Epc
open Spec

private theorem splice {h z r : Str} {k : Nat} (hh : h.length = 8) (hz : z.length = k) (g : Str) :
    h ++ (g ++ r) = (h ++ (z ++ r)).take 8 ++ g ++ (h ++ (z ++ r)).drop (8 + k) := by
  rw [List.take_append_of_le_length (by omega), List.take_of_length_le (by omega), ← List.append_assoc h z r, List.drop_append_of_le_length (by simp; omega),
    List.drop_of_length_le (by simp; omega)]
  simp
'''
for k, (fn, n, _, _, check, rest, sample, sc) in X.items():
    if n is None:
        continue
    w = BITS[n]
    if fn == "adi":
        c += '''
/-- The filter values of ADI are the largest. -/
theorem C85_adi (x : ADI) (cs : ADI.Coding) (f : Fin 64) :
    x.tagUriAny (.adi cs) f = x.tagUri cs f ∧ x.binaryAny (.adi cs) f = x.binary cs f := ⟨rfl, rfl⟩
'''
        continue
    c += f'''
theorem C85_{fn}_claim_false : ¬ ∀ (u : Str) (x : {k}) (cs : {k}.Coding) (f : Fin 64), {k}.new u = .ok x →
    ∀ b b0, x.binary cs 0 = .ok b0 → x.binaryAny (.{fn} cs) f = .ok b → b.length = b0.length := by
  intro h
  cases e : {k}.new (py "urn:epc:id:{fn}:{sample}") with
  | error _ =>
    have hx : ({k}.new (py "urn:epc:id:{fn}:{sample}")).toBool = true := by decide +kernel
    rw [e] at hx; exact Bool.noConfusion hx
  | ok x =>
    have hx : (({k}.new (py "urn:epc:id:{fn}:{sample}")).toOption.map fun x =>
        (((x.binary .{sc} 0).toOption.map List.length), ((x.binaryAny (.{fn} .{sc}) 63).toOption.map List.length))) = some (some %SIZE%, some %SIZE6%) := by
      decide +kernel
    rw [e] at hx
    have hx := Option.some.inj hx
    dsimp only at hx
    cases h0 : x.binary .{sc} 0 with
    | error _ => rw [h0] at hx; exact absurd (Prod.mk.inj hx).1 (by simp [Except.toOption])
    | ok b0 =>
      cases h1 : x.binaryAny (.{fn} .{sc}) 63 with
      | error _ => rw [h1] at hx; exact absurd (Prod.mk.inj hx).2 (by simp [Except.toOption])
      | ok b =>
        have := h _ x .{sc} 63 e b b0 h0 h1
        rw [h0, h1] at hx
        have hx1 : b0.length = %SIZE% := Option.some.inj (Prod.mk.inj hx).1
        have hx2 : b.length = %SIZE6% := Option.some.inj (Prod.mk.inj hx).2
        omega

'''.replace("%SIZE6%", str((110 if fn == "itip" else 96) + 6 - w)).replace("%SIZE%", str(110 if fn == "itip" else 96))
    if fn == "giai":
        hyp = " (hf : u = py \"urn:epc:id:giai:\" ++ x.companyPref ++ '.' :: x.assetRef)"
        c += "/-- (`hf`: no colon in the asset reference, compare C15.) -/\n"
    else:
        hyp = ""
    c += f'''theorem C85_{fn}_partial {{u : Str}} {{x : {k}}} (hu : {k}.new u = .ok x){hyp} (cs : {k}.Coding) (f : Fin 64) :
    (∀ h : f.val < {n}, x.tagUriAny (.{fn} cs) f = x.tagUri cs ⟨f, h⟩ ∧ x.binaryAny (.{fn} cs) f = x.binary cs ⟨f, h⟩) ∧
    (∀ t, x.tagUriAny (.{fn} cs) f = .ok t → {k}.fromTagUri t = .ok x) ∧
    (∀ b, x.binaryAny (.{fn} cs) f = .ok b → ∃ b0, x.binary cs 0 = .ok b0 ∧ 8 + {w} ≤ b0.length ∧
      ∀ w, {w} ≤ w → f.val < 2 ^ w → (w = {w} ∨ 2 ^ (w - 1) ≤ f.val) →
        b = b0.take 8 ++ bitsOf w f ++ b0.drop (8 + {w}) ∧ b.length = b0.length + (w - {w})) := by
  refine ⟨fun h => ⟨rfl, rfl⟩, ?_, ?_⟩
  · intro t ht
    have ht' : t = tagUriPrefix ++ cs.value ++ ':' :: (natStr f ++ '.' :: ({rest})) := by
'''
    if check:
        c += f'''      unfold {k}.tagUriAny at ht
      obtain ⟨bad, -, ht⟩ := bind_ok_iff.1 ht
      dsimp only at ht
      split at ht
      · cases ht
      · injection ht with ht
        simpa [filterStr, AnyCoding.value] using ht.symm
'''
    else:
        c += f'''      unfold {k}.tagUriAny at ht
      injection ht with ht
      simpa [filterStr, AnyCoding.value] using ht.symm
'''
    c += f'''    subst ht'
    apply {k}.fromTagUri_of_new (num_natStr f)
'''
    if fn == "giai":
        c += "    rw [← hu, hf]\n    simp\n"
    else:
        c += f'''    rw [← {k}.uri_rest hu]
    exact hu
'''
    c += f'''  · intro b hb
    obtain ⟨r, rfl, h0⟩ := {k}.binaryAny_zero hb
    have hh : (cs.header).length = 8 := by cases cs <;> rfl
    have hz : (bin {w} 0).length = {w} := by decide
    refine ⟨_, h0, by simp only [List.length_append]; omega, fun w hw hlt hor => ?_⟩
    have hg := filterBits (by decide) hw hlt hor
    have hl : (bitsOf w f.val).length = w := length_bitsOf _ _
    rw [hg]
    exact ⟨splice hh hz _, by simp only [List.length_append]; omega⟩
'''
c += '''
/-- A filter value of USDOD makes the binary of an SSCC one bit too long. -/
example : ((SSCC.new (py "urn:epc:id:sscc:0614141.1234567890")).toOption.map fun x => ((x.binaryAny (.sscc .sscc96) 15).toOption.map List.length)) =
    some (some 97) := by decide +kernel

end Epc
'''
open(f"{ROOT}/lean/Verif/Props/C85.lean", "w").write(c)
