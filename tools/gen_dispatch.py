#!/usr/bin/env python3
"""Write lean/Verif/Lemmas/Dispatch.lean: the pure identity URI of an accepted object determines its class."""
CL = [("adi","C, D, S",3),("bic","o, c, d",1),("cpi","",3),("gdti","",3),("giai","",2),("gid","",3),("ginc","",2),("grai","",3),("gsin","",2),("gsrn","",2),
      ("gsrnp","",2),("imovn","",0),("itip","",5),("lgtin","",3),("pgln","",2),("sgcn","",3),("sgln","",3),("sgtin","",3),("sscc","",2),("upui","",3),("usdod","",2)]
NV = {"bic":3,"imovn":1,"itip":5}
NV.update({n:k for n,_,k in CL if n not in NV})
out = ['''/-
Generated by tools/gen_dispatch.py.  The pure identity URI of an accepted object determines its class.
-/
import Verif.Lemmas.ParseTag
import Verif.Lemmas.NewMore

namespace Epc
open Spec Re

/-- The pattern of the pure identity URIs of a class. -/
def Cls.uriRegex : Cls → Re''']
for n,_,_ in CL:
    out.append(f"  | .{n} => Rx.{n}{'Class' if n=='lgtin' else 'Uri'}")
out.append('''
theorem epcUri_of_cls (c : Cls) {u : Str} (h : c.uriRegex.fullmatch u = true) : Rx.epcUri.fullmatch u = true := by
  rw [fullmatch_iff] at h ⊢
  rw [Rx.epcUri, lang_alts]
  refine ⟨_, ?_, h⟩
  cases c <;> simp [Cls.uriRegex]

/-- `id` or `class`. -/
def Cls.kind : Cls → Str
  | .lgtin => py "class"
  | _ => py "id"
''')
for n,_,_ in CL:
    N=n.upper()
    rx=f"Rx.{n}{'Class' if n=='lgtin' else 'Uri'}"
    vs=", ".join("_"for _ in range(NV[n]))
    out.append(f'''theorem {N}.new_match {{u : Str}} {{x : {N}}} (h : {N}.new u = .ok x) : {rx}.fullmatch u = true ∧ x.epcUri = u ∧
    ∃ r, u = py "urn:epc:{'class' if n=='lgtin' else 'id'}:{n}:" ++ r := by
  refine ⟨?_, ?_⟩
  · cases hm : {rx}.fullmatch u with
    | true => rfl
    | false => rw [{N}.new_nomatch hm] at h; cases h
  · obtain ⟨{vs}, _, {"_, " if n not in ("bic","imovn") else ""}rfl, rfl⟩ := {N}.new_iff.1 h
    exact ⟨rfl, _, rfl⟩
''')
out.append('''theorem Cls.new_facts {c : Cls} {u : Str} {x : Scheme} (h : c.new u = .ok x) :
    x.cls = c ∧ x.epcUri = u ∧ c.uriRegex.fullmatch u = true ∧ ∃ r, u = py "urn:epc:" ++ c.kind ++ ':' :: (c.name ++ ':' :: r) := by
  cases c <;> simp only [Cls.new] at h <;> obtain ⟨y, hy, rfl⟩ := map_ok_iff.1 h''')
for n,_,_ in CL:
    out.append(f'''  · obtain ⟨hm, hu, r, hr⟩ := {n.upper()}.new_match hy
    exact ⟨rfl, hu, hm, r, hr⟩''')
out.append('''
theorem Cls.kind_noColon (c : Cls) : ':' ∉ c.kind := by cases c <;> decide

theorem split_urn (k n r : Str) (hk : ':' ∉ k) (hn : ':' ∉ n) :
    split ':' (py "urn:epc:" ++ k ++ ':' :: (n ++ ':' :: r)) = [py "urn", py "epc", k, n] ++ split ':' r := by
  have : py "urn:epc:" ++ k ++ ':' :: (n ++ ':' :: r) = py "urn" ++ ':' :: (py "epc" ++ ':' :: (k ++ ':' :: (n ++ ':' :: r))) := by simp
  rw [this, split_append_sep (by decide), split_append_sep (by decide), split_append_sep hk, split_append_sep hn]
  rfl

theorem Cls.new_name {c : Cls} {u : Str} {x : Scheme} (h : c.new u = .ok x) : (split ':' u)[3]? = some c.name := by
  obtain ⟨-, -, -, r, rfl⟩ := c.new_facts h
  rw [split_urn _ _ _ c.kind_noColon (Cls.name_facts c).1]
  rfl

theorem Cls.new_unique {c c' : Cls} {u : Str} {x y : Scheme} (h : c.new u = .ok x) (h' : c'.new u = .ok y) : c = c' ∧ x = y := by
  have e := (Cls.new_name h).symm.trans (Cls.new_name h')
  obtain rfl := Cls.name_inj (Option.some.inj e)
  exact ⟨rfl, Except.ok.inj (h.symm.trans h')⟩

theorem clsByName_none {p : Cls → Bool} {id : Str} : clsByName p id = Option.none ↔ ∀ c : Cls, p c = true → c.name ≠ id := by
  constructor
  · intro h c hp hc
    rw [clsByName_some.2 ⟨hp, hc⟩] at h
    cases h
  · intro h
    cases hc : clsByName p id with
    | none => rfl
    | some c => exact absurd (clsByName_some.1 hc).2 (h c (clsByName_some.1 hc).1)

theorem scheme_of_part {u id : Str} (h : (split ':' u)[3]? = some id) :
    epcPureIdentityToScheme u = match clsByName (fun _ => true) id with | Option.none => .error .convert | some c => c.new u := by
  unfold epcPureIdentityToScheme
  rw [getPart_ok h, ok_bind]
  rfl

theorem scheme_of_new {c : Cls} {u : Str} {x : Scheme} (h : c.new u = .ok x) : epcPureIdentityToScheme u = .ok x := by
  rw [scheme_of_part (Cls.new_name h), clsByName_some.2 ⟨rfl, rfl⟩]
  exact h

theorem scheme_ok_iff {u : Str} {x : Scheme} : epcPureIdentityToScheme u = .ok x ↔ ∃ c : Cls, c.new u = .ok x := by
  constructor
  · intro h
    unfold epcPureIdentityToScheme at h
    obtain ⟨id, -, h⟩ := bind_ok_iff.1 h
    split at h
    · cases h
    · exact ⟨_, h⟩
  · rintro ⟨c, h⟩
    exact scheme_of_new h

end Epc
''')
open("/verif/lean/Verif/Lemmas/Dispatch.lean","w").write("\n".join(out))
