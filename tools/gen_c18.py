#!/usr/bin/env python3
"""Generate lean/Verif/Lemmas/ParseTag.lean and lean/Verif/Props/C18.lean."""
import os
ROOT = os.path.dirname(os.path.dirname(os.path.abspath(__file__)))
S = [("SGTIN", ["sgtin-96", "sgtin-198"]), ("SSCC", ["sscc-96"]), ("SGLN", ["sgln-96", "sgln-195"]),
     ("GRAI", ["grai-96", "grai-170"]), ("GIAI", ["giai-96", "giai-202"]), ("GSRN", ["gsrn-96"]),
     ("GSRNP", ["gsrnp-96"]), ("GDTI", ["gdti-96", "gdti-174"]), ("CPI", ["cpi-96", "cpi-var"]),
     ("SGCN", ["sgcn-96"]), ("ITIP", ["itip-110", "itip-212"]), ("USDOD", ["usdod-96"]),
     ("ADI", ["adi-var"])]
T = [s.lower() for s, _ in S] + ["gid"]
def ctor(v): return v.replace("-", "").replace("var", "Var")
p = '''/-
C18: a tag URI of another scheme is rejected, and the general parser returns an object of the class named in the URI.

For every class the set of accepted tag URIs and the object made of each is given exactly.
Generated by tools/gen_c18.py.
-/
import Verif.Lemmas.ParseTag

namespace Epc
open Spec Re
'''
for C, l in S:
    nm = C.lower()
    sizes = [v.split("-")[1] for v in l]
    lst = ", ".join(f'py "{z}"' for z in sizes)
    fwd = f'''    obtain ⟨cs, f, b, hf, rfl, h2⟩ := {C}.fromTagUri_iff.1 h
    cases cs
''' + "".join(f'''    · exact ⟨py "{z}", by simp, f, b, (uNumeral_iff f).2 hf, by simp [tagUriPrefix, {C}.Coding.value], h2⟩
''' for z in sizes)
    if len(sizes) == 1:
        bwd = f'''  · rintro ⟨size, hs, f, b, hf, rfl, h⟩
    simp only [List.mem_singleton] at hs
    subst hs
    exact {C}.fromTagUri_iff.2 ⟨.{ctor(l[0])}, f, b, (uNumeral_iff f).1 hf, by simp [tagUriPrefix, {C}.Coding.value], h⟩
'''
    else:
        bwd = f'''  · rintro ⟨size, hs, f, b, hf, rfl, h⟩
    simp only [List.mem_cons, List.not_mem_nil, or_false] at hs
    rcases hs with rfl | rfl
    · exact {C}.fromTagUri_iff.2 ⟨.{ctor(l[0])}, f, b, (uNumeral_iff f).1 hf, by simp [tagUriPrefix, {C}.Coding.value], h⟩
    · exact {C}.fromTagUri_iff.2 ⟨.{ctor(l[1])}, f, b, (uNumeral_iff f).1 hf, by simp [tagUriPrefix, {C}.Coding.value], h⟩
'''
    p += f'''
/-- {C}: the accepted tag URIs are `urn:epc:tag:{nm}-SIZE:FILTER.BODY` with an accepted pure identity `urn:epc:id:{nm}:BODY`. -/
theorem C18_{nm} (t : Str) (x : {C}) : {C}.fromTagUri t = .ok x ↔
    ∃ size ∈ [{lst}], ∃ f body, UNumeral f ∧ t = py "urn:epc:tag:{nm}-" ++ size ++ ':' :: (f ++ '.' :: body) ∧
      {C}.new (py "urn:epc:id:{nm}:" ++ body) = .ok x := by
  constructor
  · intro h
{fwd}{bwd}'''
p += '''
/-- GID: the accepted tag URIs are `urn:epc:tag:gid-96:BODY`, optionally followed by a colon and anything (which is ignored). -/
theorem C18_gid (t : Str) (x : GID) : GID.fromTagUri t = .ok x ↔
    ∃ body rest, (rest = [] ∨ ∃ r, rest = ':' :: r) ∧ t = py "urn:epc:tag:gid-96:" ++ (body ++ rest) ∧
      GID.new (py "urn:epc:id:gid:" ++ body) = .ok x := by
  rw [GID.fromTagUri_iff]
  constructor
  · rintro ⟨b, r, hr, rfl, h⟩
    exact ⟨b, r, hr, by simp [tagUriPrefix, GID.Coding.value], h⟩
  · rintro ⟨b, r, hr, rfl, h⟩
    exact ⟨b, r, hr, by simp [tagUriPrefix, GID.Coding.value], h⟩

/-- `C.from_tag_uri(t)` returns an object only if `t` names the scheme C. -/
theorem C18_rejects_others (c : Cls) (t : Str) (y : Scheme) (h : c.fromTagUri t = .ok y) :
    ∃ rest, t = py "urn:epc:tag:" ++ c.name ++ '-' :: rest := by
  obtain ⟨-, -, size, r, -, rfl⟩ := Cls.fromTagUri_facts h
  exact ⟨size ++ ':' :: r, by simp [tagUriPrefix]⟩

/-- Two classes never accept the same tag URI. -/
theorem C18_unique (c c' : Cls) (t : Str) (y y' : Scheme) (h : c.fromTagUri t = .ok y) (h' : c'.fromTagUri t = .ok y') : c = c' := by
  obtain ⟨-, -, size, r, -, rfl⟩ := Cls.fromTagUri_facts h
  obtain ⟨-, -, size', r', -, e⟩ := Cls.fromTagUri_facts h'
  simp only [List.append_assoc] at e
  exact Cls.name_inj (append_sep_inj (Cls.name_facts c).2 (Cls.name_facts c').2 (List.append_cancel_left e)).1

/-- The general parser returns an object exactly when the `from_tag_uri` of some class does, and returns that object. -/
theorem C18_parser_iff (t : Str) (y : Scheme) :
    tagUriToTagEncodable t = .ok y ↔ ∃ c : Cls, c.fromTagUri t = .ok y :=
  tagUriToTagEncodable_iff t y

/-- The object returned by the general parser is an instance of the class named in the URI, and that class is tag encodable. -/
theorem C18_parser (t : Str) (y : Scheme) (h : tagUriToTagEncodable t = .ok y) :
    y.cls.isTagEncodable = true ∧ ∃ rest, t = py "urn:epc:tag:" ++ y.cls.name ++ '-' :: rest := by
  obtain ⟨c, hc⟩ := (C18_parser_iff t y).1 h
  obtain ⟨h1, h2, size, r, -, rfl⟩ := Cls.fromTagUri_facts hc
  rw [h1]
  exact ⟨h2, size ++ ':' :: r, by simp [tagUriPrefix]⟩

example : (tagUriToTagEncodable (py "urn:epc:tag:sgtin-198:3.9521141.012345.a:b.c")).map (·.cls) = .ok .sgtin ∧
    (SSCC.fromTagUri (py "urn:epc:tag:sgtin-96:3.9521141.012345.1")).isOk = false ∧
    (GID.fromTagUri (py "urn:epc:tag:gid-96:952056.2718.1414:x")).isOk = true := by decide +kernel

end Epc
'''
lem = '''/-
Generated by tools/gen_c18.py.  Dispatch of tag URIs to classes.
-/
import Verif.Lemmas.TagForm
import Verif.Model.Parsers

namespace Epc
open Spec Re

theorem map_ok {α β : Type} {e : Except Err α} {f : α → β} {y : β} (h : e.map f = .ok y) : ∃ x, e = .ok x ∧ f x = y := by
  cases e with
  | error e => cases h
  | ok x => exact ⟨x, rfl, by injection h⟩

theorem Cls.mem_all (c : Cls) : c ∈ Cls.all := by cases c <;> decide

theorem Cls.name_facts (c : Cls) : ':' ∉ c.name ∧ '-' ∉ c.name := by cases c <;> decide

theorem Cls.name_inj {c c' : Cls} (h : c.name = c'.name) : c = c' := by
  have : ∀ c ∈ Cls.all, ∀ c' ∈ Cls.all, c.name = c'.name → c = c' := by decide +kernel
  exact this c (mem_all c) c' (mem_all c') h

theorem clsByName_some {p : Cls → Bool} {id : Str} {c : Cls} : clsByName p id = some c ↔ p c = true ∧ c.name = id := by
  unfold clsByName
  constructor
  · intro h
    have := List.find?_some h
    simpa using this
  · rintro ⟨h1, rfl⟩
    cases hf : Cls.all.find? (fun c' => p c' && decide (c'.name = c.name)) with
    | none =>
      have := List.find?_eq_none.1 hf c (Cls.mem_all c)
      simp [h1] at this
    | some c' =>
      have := List.find?_some hf
      simp only [Bool.and_eq_true, decide_eq_true_eq] at this
      rw [Cls.name_inj this.2]

'''
for C, l in S:
    nm = C.lower()
    lem += f'''theorem {C}.fromTagUri_prefix {{t : Str}} {{x : {C}}} (h : {C}.fromTagUri t = .ok x) :
    ∃ size r, ':' ∉ size ∧ t = tagUriPrefix ++ py "{nm}" ++ '-' :: (size ++ ':' :: r) := by
  obtain ⟨cs, f, b, -, rfl, -⟩ := {C}.fromTagUri_iff.1 h
  exact ⟨cs.value.drop {len(nm)+1}, f ++ '.' :: b, by cases cs <;> decide, by cases cs <;> simp [{C}.Coding.value]⟩

'''
lem += '''theorem GID.fromTagUri_prefix {t : Str} {x : GID} (h : GID.fromTagUri t = .ok x) :
    ∃ size r, ':' ∉ size ∧ t = tagUriPrefix ++ py "gid" ++ '-' :: (size ++ ':' :: r) := by
  obtain ⟨b, r, -, rfl, -⟩ := GID.fromTagUri_iff.1 h
  exact ⟨py "96", b ++ r, by decide, by simp [GID.Coding.value]⟩

theorem Cls.fromTagUri_facts {c : Cls} {t : Str} {y : Scheme} (h : c.fromTagUri t = .ok y) :
    y.cls = c ∧ c.isTagEncodable = true ∧ ∃ size r, ':' ∉ size ∧ t = tagUriPrefix ++ c.name ++ '-' :: (size ++ ':' :: r) := by
  cases c <;> first | cases h | skip
'''
order = ["adi","cpi","gdti","giai","gid","grai","gsrn","gsrnp","itip","sgcn","sgln","sgtin","sscc","usdod"]
for nm in order:
    lem += f'''  · obtain ⟨x, hx, rfl⟩ := map_ok h; exact ⟨rfl, rfl, {nm.upper()}.fromTagUri_prefix hx⟩
'''
lem += '''
theorem tagUriToTagEncodable_iff (t : Str) (y : Scheme) :
    tagUriToTagEncodable t = .ok y ↔ ∃ c : Cls, c.fromTagUri t = .ok y := by
  constructor
  · intro h
    unfold tagUriToTagEncodable at h
    obtain ⟨part, -, h⟩ := bind_ok_iff.1 h
    obtain ⟨id, -, h⟩ := bind_ok_iff.1 h
    split at h
    · cases h
    · exact ⟨_, h⟩
  · rintro ⟨c, h⟩
    obtain ⟨h1, h2, size, r, hs, ht⟩ := Cls.fromTagUri_facts h
    unfold tagUriToTagEncodable
    have e1 : split ':' t = [py "urn", py "epc", py "tag", c.name ++ '-' :: size] ++ split ':' r := by
      have h3 : ':' ∉ c.name ++ '-' :: size := by
        simp only [List.mem_append, List.mem_cons, not_or]
        exact ⟨(Cls.name_facts c).1, by decide, hs⟩
      have : t = py "urn" ++ ':' :: (py "epc" ++ ':' :: (py "tag" ++ ':' :: ((c.name ++ '-' :: size) ++ ':' :: r))) := by
        rw [ht]; simp [tagUriPrefix]
      rw [this, split_append_sep (by decide), split_append_sep (by decide), split_append_sep (by decide), split_append_sep h3]
      rfl
    rw [getPart_ok (s := c.name ++ '-' :: size) (by rw [e1]; rfl), ok_bind, split_append_sep (Cls.name_facts c).2,
      getPart_ok (s := c.name) rfl, ok_bind, clsByName_some.2 ⟨h2, rfl⟩]
    exact h

end Epc
'''
open(os.path.join(ROOT, "lean/Verif/Lemmas/ParseTag.lean"), "w").write(lem)
open(os.path.join(ROOT, "lean/Verif/Props/C18.lean"), "w").write(p)
