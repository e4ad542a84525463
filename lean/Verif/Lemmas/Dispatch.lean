/-
Generated by tools/gen_dispatch.py.  The pure identity URI of an accepted object determines its class.
-/
import Verif.Lemmas.ParseTag
import Verif.Lemmas.NewMore

namespace Epc
open Spec Re

/-- The pattern of the pure identity URIs of a class. -/
def Cls.uriRegex : Cls → Re
  | .adi => Rx.adiUri
  | .bic => Rx.bicUri
  | .cpi => Rx.cpiUri
  | .gdti => Rx.gdtiUri
  | .giai => Rx.giaiUri
  | .gid => Rx.gidUri
  | .ginc => Rx.gincUri
  | .grai => Rx.graiUri
  | .gsin => Rx.gsinUri
  | .gsrn => Rx.gsrnUri
  | .gsrnp => Rx.gsrnpUri
  | .imovn => Rx.imovnUri
  | .itip => Rx.itipUri
  | .lgtin => Rx.lgtinClass
  | .pgln => Rx.pglnUri
  | .sgcn => Rx.sgcnUri
  | .sgln => Rx.sglnUri
  | .sgtin => Rx.sgtinUri
  | .sscc => Rx.ssccUri
  | .upui => Rx.upuiUri
  | .usdod => Rx.usdodUri

theorem epcUri_of_cls (c : Cls) {u : Str} (h : c.uriRegex.fullmatch u = true) : Rx.epcUri.fullmatch u = true := by
  rw [fullmatch_iff] at h ⊢
  rw [Rx.epcUri, lang_alts]
  refine ⟨_, ?_, h⟩
  cases c <;> simp [Cls.uriRegex]

/-- `id` or `class`. -/
def Cls.kind : Cls → Str
  | .lgtin => py "class"
  | _ => py "id"

theorem ADI.new_match {u : Str} {x : ADI} (h : ADI.new u = .ok x) : Rx.adiUri.fullmatch u = true ∧ x.epcUri = u ∧
    ∃ r, u = py "urn:epc:id:adi:" ++ r := by
  refine ⟨?_, ?_⟩
  · cases hm : Rx.adiUri.fullmatch u with
    | true => rfl
    | false => rw [ADI.new_nomatch hm] at h; cases h
  · obtain ⟨_, _, _, _, _, rfl, rfl⟩ := ADI.new_iff.1 h
    exact ⟨rfl, _, rfl⟩

theorem BIC.new_match {u : Str} {x : BIC} (h : BIC.new u = .ok x) : Rx.bicUri.fullmatch u = true ∧ x.epcUri = u ∧
    ∃ r, u = py "urn:epc:id:bic:" ++ r := by
  refine ⟨?_, ?_⟩
  · cases hm : Rx.bicUri.fullmatch u with
    | true => rfl
    | false => rw [BIC.new_nomatch hm] at h; cases h
  · obtain ⟨_, _, _, _, rfl, rfl⟩ := BIC.new_iff.1 h
    exact ⟨rfl, _, rfl⟩

theorem CPI.new_match {u : Str} {x : CPI} (h : CPI.new u = .ok x) : Rx.cpiUri.fullmatch u = true ∧ x.epcUri = u ∧
    ∃ r, u = py "urn:epc:id:cpi:" ++ r := by
  refine ⟨?_, ?_⟩
  · cases hm : Rx.cpiUri.fullmatch u with
    | true => rfl
    | false => rw [CPI.new_nomatch hm] at h; cases h
  · obtain ⟨_, _, _, _, _, rfl, rfl⟩ := CPI.new_iff.1 h
    exact ⟨rfl, _, rfl⟩

theorem GDTI.new_match {u : Str} {x : GDTI} (h : GDTI.new u = .ok x) : Rx.gdtiUri.fullmatch u = true ∧ x.epcUri = u ∧
    ∃ r, u = py "urn:epc:id:gdti:" ++ r := by
  refine ⟨?_, ?_⟩
  · cases hm : Rx.gdtiUri.fullmatch u with
    | true => rfl
    | false => rw [GDTI.new_nomatch hm] at h; cases h
  · obtain ⟨_, _, _, _, _, rfl, rfl⟩ := GDTI.new_iff.1 h
    exact ⟨rfl, _, rfl⟩

theorem GIAI.new_match {u : Str} {x : GIAI} (h : GIAI.new u = .ok x) : Rx.giaiUri.fullmatch u = true ∧ x.epcUri = u ∧
    ∃ r, u = py "urn:epc:id:giai:" ++ r := by
  refine ⟨?_, ?_⟩
  · cases hm : Rx.giaiUri.fullmatch u with
    | true => rfl
    | false => rw [GIAI.new_nomatch hm] at h; cases h
  · obtain ⟨_, _, _, _, rfl, rfl⟩ := GIAI.new_iff.1 h
    exact ⟨rfl, _, rfl⟩

theorem GID.new_match {u : Str} {x : GID} (h : GID.new u = .ok x) : Rx.gidUri.fullmatch u = true ∧ x.epcUri = u ∧
    ∃ r, u = py "urn:epc:id:gid:" ++ r := by
  refine ⟨?_, ?_⟩
  · cases hm : Rx.gidUri.fullmatch u with
    | true => rfl
    | false => rw [GID.new_nomatch hm] at h; cases h
  · obtain ⟨_, _, _, _, _, rfl, rfl⟩ := GID.new_iff.1 h
    exact ⟨rfl, _, rfl⟩

theorem GINC.new_match {u : Str} {x : GINC} (h : GINC.new u = .ok x) : Rx.gincUri.fullmatch u = true ∧ x.epcUri = u ∧
    ∃ r, u = py "urn:epc:id:ginc:" ++ r := by
  refine ⟨?_, ?_⟩
  · cases hm : Rx.gincUri.fullmatch u with
    | true => rfl
    | false => rw [GINC.new_nomatch hm] at h; cases h
  · obtain ⟨_, _, _, _, rfl, rfl⟩ := GINC.new_iff.1 h
    exact ⟨rfl, _, rfl⟩

theorem GRAI.new_match {u : Str} {x : GRAI} (h : GRAI.new u = .ok x) : Rx.graiUri.fullmatch u = true ∧ x.epcUri = u ∧
    ∃ r, u = py "urn:epc:id:grai:" ++ r := by
  refine ⟨?_, ?_⟩
  · cases hm : Rx.graiUri.fullmatch u with
    | true => rfl
    | false => rw [GRAI.new_nomatch hm] at h; cases h
  · obtain ⟨_, _, _, _, _, rfl, rfl⟩ := GRAI.new_iff.1 h
    exact ⟨rfl, _, rfl⟩

theorem GSIN.new_match {u : Str} {x : GSIN} (h : GSIN.new u = .ok x) : Rx.gsinUri.fullmatch u = true ∧ x.epcUri = u ∧
    ∃ r, u = py "urn:epc:id:gsin:" ++ r := by
  refine ⟨?_, ?_⟩
  · cases hm : Rx.gsinUri.fullmatch u with
    | true => rfl
    | false => rw [GSIN.new_nomatch hm] at h; cases h
  · obtain ⟨_, _, _, _, rfl, rfl⟩ := GSIN.new_iff.1 h
    exact ⟨rfl, _, rfl⟩

theorem GSRN.new_match {u : Str} {x : GSRN} (h : GSRN.new u = .ok x) : Rx.gsrnUri.fullmatch u = true ∧ x.epcUri = u ∧
    ∃ r, u = py "urn:epc:id:gsrn:" ++ r := by
  refine ⟨?_, ?_⟩
  · cases hm : Rx.gsrnUri.fullmatch u with
    | true => rfl
    | false => rw [GSRN.new_nomatch hm] at h; cases h
  · obtain ⟨_, _, _, _, rfl, rfl⟩ := GSRN.new_iff.1 h
    exact ⟨rfl, _, rfl⟩

theorem GSRNP.new_match {u : Str} {x : GSRNP} (h : GSRNP.new u = .ok x) : Rx.gsrnpUri.fullmatch u = true ∧ x.epcUri = u ∧
    ∃ r, u = py "urn:epc:id:gsrnp:" ++ r := by
  refine ⟨?_, ?_⟩
  · cases hm : Rx.gsrnpUri.fullmatch u with
    | true => rfl
    | false => rw [GSRNP.new_nomatch hm] at h; cases h
  · obtain ⟨_, _, _, _, rfl, rfl⟩ := GSRNP.new_iff.1 h
    exact ⟨rfl, _, rfl⟩

theorem IMOVN.new_match {u : Str} {x : IMOVN} (h : IMOVN.new u = .ok x) : Rx.imovnUri.fullmatch u = true ∧ x.epcUri = u ∧
    ∃ r, u = py "urn:epc:id:imovn:" ++ r := by
  refine ⟨?_, ?_⟩
  · cases hm : Rx.imovnUri.fullmatch u with
    | true => rfl
    | false => rw [IMOVN.new_nomatch hm] at h; cases h
  · obtain ⟨_, _, rfl, rfl⟩ := IMOVN.new_iff.1 h
    exact ⟨rfl, _, rfl⟩

theorem ITIP.new_match {u : Str} {x : ITIP} (h : ITIP.new u = .ok x) : Rx.itipUri.fullmatch u = true ∧ x.epcUri = u ∧
    ∃ r, u = py "urn:epc:id:itip:" ++ r := by
  refine ⟨?_, ?_⟩
  · cases hm : Rx.itipUri.fullmatch u with
    | true => rfl
    | false => rw [ITIP.new_nomatch hm] at h; cases h
  · obtain ⟨_, _, _, _, _, _, _, rfl, rfl⟩ := ITIP.new_iff.1 h
    exact ⟨rfl, _, rfl⟩

theorem LGTIN.new_match {u : Str} {x : LGTIN} (h : LGTIN.new u = .ok x) : Rx.lgtinClass.fullmatch u = true ∧ x.epcUri = u ∧
    ∃ r, u = py "urn:epc:class:lgtin:" ++ r := by
  refine ⟨?_, ?_⟩
  · cases hm : Rx.lgtinClass.fullmatch u with
    | true => rfl
    | false => rw [LGTIN.new_nomatch hm] at h; cases h
  · obtain ⟨_, _, _, _, _, rfl, rfl⟩ := LGTIN.new_iff.1 h
    exact ⟨rfl, _, rfl⟩

theorem PGLN.new_match {u : Str} {x : PGLN} (h : PGLN.new u = .ok x) : Rx.pglnUri.fullmatch u = true ∧ x.epcUri = u ∧
    ∃ r, u = py "urn:epc:id:pgln:" ++ r := by
  refine ⟨?_, ?_⟩
  · cases hm : Rx.pglnUri.fullmatch u with
    | true => rfl
    | false => rw [PGLN.new_nomatch hm] at h; cases h
  · obtain ⟨_, _, _, _, rfl, rfl⟩ := PGLN.new_iff.1 h
    exact ⟨rfl, _, rfl⟩

theorem SGCN.new_match {u : Str} {x : SGCN} (h : SGCN.new u = .ok x) : Rx.sgcnUri.fullmatch u = true ∧ x.epcUri = u ∧
    ∃ r, u = py "urn:epc:id:sgcn:" ++ r := by
  refine ⟨?_, ?_⟩
  · cases hm : Rx.sgcnUri.fullmatch u with
    | true => rfl
    | false => rw [SGCN.new_nomatch hm] at h; cases h
  · obtain ⟨_, _, _, _, _, rfl, rfl⟩ := SGCN.new_iff.1 h
    exact ⟨rfl, _, rfl⟩

theorem SGLN.new_match {u : Str} {x : SGLN} (h : SGLN.new u = .ok x) : Rx.sglnUri.fullmatch u = true ∧ x.epcUri = u ∧
    ∃ r, u = py "urn:epc:id:sgln:" ++ r := by
  refine ⟨?_, ?_⟩
  · cases hm : Rx.sglnUri.fullmatch u with
    | true => rfl
    | false => rw [SGLN.new_nomatch hm] at h; cases h
  · obtain ⟨_, _, _, _, _, rfl, rfl⟩ := SGLN.new_iff.1 h
    exact ⟨rfl, _, rfl⟩

theorem SGTIN.new_match {u : Str} {x : SGTIN} (h : SGTIN.new u = .ok x) : Rx.sgtinUri.fullmatch u = true ∧ x.epcUri = u ∧
    ∃ r, u = py "urn:epc:id:sgtin:" ++ r := by
  refine ⟨?_, ?_⟩
  · cases hm : Rx.sgtinUri.fullmatch u with
    | true => rfl
    | false => rw [SGTIN.new_nomatch hm] at h; cases h
  · obtain ⟨_, _, _, _, _, rfl, rfl⟩ := SGTIN.new_iff.1 h
    exact ⟨rfl, _, rfl⟩

theorem SSCC.new_match {u : Str} {x : SSCC} (h : SSCC.new u = .ok x) : Rx.ssccUri.fullmatch u = true ∧ x.epcUri = u ∧
    ∃ r, u = py "urn:epc:id:sscc:" ++ r := by
  refine ⟨?_, ?_⟩
  · cases hm : Rx.ssccUri.fullmatch u with
    | true => rfl
    | false => rw [SSCC.new_nomatch hm] at h; cases h
  · obtain ⟨_, _, _, _, rfl, rfl⟩ := SSCC.new_iff.1 h
    exact ⟨rfl, _, rfl⟩

theorem UPUI.new_match {u : Str} {x : UPUI} (h : UPUI.new u = .ok x) : Rx.upuiUri.fullmatch u = true ∧ x.epcUri = u ∧
    ∃ r, u = py "urn:epc:id:upui:" ++ r := by
  refine ⟨?_, ?_⟩
  · cases hm : Rx.upuiUri.fullmatch u with
    | true => rfl
    | false => rw [UPUI.new_nomatch hm] at h; cases h
  · obtain ⟨_, _, _, _, _, rfl, rfl⟩ := UPUI.new_iff.1 h
    exact ⟨rfl, _, rfl⟩

theorem USDOD.new_match {u : Str} {x : USDOD} (h : USDOD.new u = .ok x) : Rx.usdodUri.fullmatch u = true ∧ x.epcUri = u ∧
    ∃ r, u = py "urn:epc:id:usdod:" ++ r := by
  refine ⟨?_, ?_⟩
  · cases hm : Rx.usdodUri.fullmatch u with
    | true => rfl
    | false => rw [USDOD.new_nomatch hm] at h; cases h
  · obtain ⟨_, _, _, _, rfl, rfl⟩ := USDOD.new_iff.1 h
    exact ⟨rfl, _, rfl⟩

theorem Cls.new_facts {c : Cls} {u : Str} {x : Scheme} (h : c.new u = .ok x) :
    x.cls = c ∧ x.epcUri = u ∧ c.uriRegex.fullmatch u = true ∧ ∃ r, u = py "urn:epc:" ++ c.kind ++ ':' :: (c.name ++ ':' :: r) := by
  cases c <;> simp only [Cls.new] at h <;> obtain ⟨y, hy, rfl⟩ := map_ok_iff.1 h
  · obtain ⟨hm, hu, r, hr⟩ := ADI.new_match hy
    exact ⟨rfl, hu, hm, r, hr⟩
  · obtain ⟨hm, hu, r, hr⟩ := BIC.new_match hy
    exact ⟨rfl, hu, hm, r, hr⟩
  · obtain ⟨hm, hu, r, hr⟩ := CPI.new_match hy
    exact ⟨rfl, hu, hm, r, hr⟩
  · obtain ⟨hm, hu, r, hr⟩ := GDTI.new_match hy
    exact ⟨rfl, hu, hm, r, hr⟩
  · obtain ⟨hm, hu, r, hr⟩ := GIAI.new_match hy
    exact ⟨rfl, hu, hm, r, hr⟩
  · obtain ⟨hm, hu, r, hr⟩ := GID.new_match hy
    exact ⟨rfl, hu, hm, r, hr⟩
  · obtain ⟨hm, hu, r, hr⟩ := GINC.new_match hy
    exact ⟨rfl, hu, hm, r, hr⟩
  · obtain ⟨hm, hu, r, hr⟩ := GRAI.new_match hy
    exact ⟨rfl, hu, hm, r, hr⟩
  · obtain ⟨hm, hu, r, hr⟩ := GSIN.new_match hy
    exact ⟨rfl, hu, hm, r, hr⟩
  · obtain ⟨hm, hu, r, hr⟩ := GSRN.new_match hy
    exact ⟨rfl, hu, hm, r, hr⟩
  · obtain ⟨hm, hu, r, hr⟩ := GSRNP.new_match hy
    exact ⟨rfl, hu, hm, r, hr⟩
  · obtain ⟨hm, hu, r, hr⟩ := IMOVN.new_match hy
    exact ⟨rfl, hu, hm, r, hr⟩
  · obtain ⟨hm, hu, r, hr⟩ := ITIP.new_match hy
    exact ⟨rfl, hu, hm, r, hr⟩
  · obtain ⟨hm, hu, r, hr⟩ := LGTIN.new_match hy
    exact ⟨rfl, hu, hm, r, hr⟩
  · obtain ⟨hm, hu, r, hr⟩ := PGLN.new_match hy
    exact ⟨rfl, hu, hm, r, hr⟩
  · obtain ⟨hm, hu, r, hr⟩ := SGCN.new_match hy
    exact ⟨rfl, hu, hm, r, hr⟩
  · obtain ⟨hm, hu, r, hr⟩ := SGLN.new_match hy
    exact ⟨rfl, hu, hm, r, hr⟩
  · obtain ⟨hm, hu, r, hr⟩ := SGTIN.new_match hy
    exact ⟨rfl, hu, hm, r, hr⟩
  · obtain ⟨hm, hu, r, hr⟩ := SSCC.new_match hy
    exact ⟨rfl, hu, hm, r, hr⟩
  · obtain ⟨hm, hu, r, hr⟩ := UPUI.new_match hy
    exact ⟨rfl, hu, hm, r, hr⟩
  · obtain ⟨hm, hu, r, hr⟩ := USDOD.new_match hy
    exact ⟨rfl, hu, hm, r, hr⟩

theorem Cls.kind_noColon (c : Cls) : ':' ∉ c.kind := by cases c <;> decide

theorem split_urn (k n r : Str) (hk : ':' ∉ k) (hn : ':' ∉ n) :
    split ':' (py "urn:epc:" ++ k ++ ':' :: (n ++ ':' :: r)) = [py "urn", py "epc", k, n] ++ split ':' r := by
  have : py "urn:epc:" ++ k ++ ':' :: (n ++ ':' :: r) = py "urn" ++ ':' :: (py "epc" ++ ':' :: (k ++ ':' :: (n ++ ':' :: r))) := by simp
  rw [this, split_append_sep (by decide), split_append_sep (by decide), split_append_sep hk, split_append_sep hn]
  rfl

theorem Cls.new_name {c : Cls} {u : Str} {x : Scheme} (h : c.new u = .ok x) : (split ':' u)[3]? = some c.name := by
  obtain ⟨-, -, -, r, rfl⟩ := c.new_facts h
  rw [split_urn _ _ _ c.kind_noColon (Cls.name_facts c).1]
  rfl

theorem Cls.new_unique {c c' : Cls} {u : Str} {x y : Scheme} (h : c.new u = .ok x) (h' : c'.new u = .ok y) : c = c' ∧ x = y := by
  have e := (Cls.new_name h).symm.trans (Cls.new_name h')
  obtain rfl := Cls.name_inj (Option.some.inj e)
  exact ⟨rfl, Except.ok.inj (h.symm.trans h')⟩

theorem clsByName_none {p : Cls → Bool} {id : Str} : clsByName p id = Option.none ↔ ∀ c : Cls, p c = true → c.name ≠ id := by
  constructor
  · intro h c hp hc
    rw [clsByName_some.2 ⟨hp, hc⟩] at h
    cases h
  · intro h
    cases hc : clsByName p id with
    | none => rfl
    | some c => exact absurd (clsByName_some.1 hc).2 (h c (clsByName_some.1 hc).1)

theorem scheme_of_part {u id : Str} (h : (split ':' u)[3]? = some id) :
    epcPureIdentityToScheme u = match clsByName (fun _ => true) id with | Option.none => .error .convert | some c => c.new u := by
  unfold epcPureIdentityToScheme
  rw [getPart_ok h, ok_bind]
  rfl

theorem scheme_of_new {c : Cls} {u : Str} {x : Scheme} (h : c.new u = .ok x) : epcPureIdentityToScheme u = .ok x := by
  rw [scheme_of_part (Cls.new_name h), clsByName_some.2 ⟨rfl, rfl⟩]
  exact h

theorem scheme_ok_iff {u : Str} {x : Scheme} : epcPureIdentityToScheme u = .ok x ↔ ∃ c : Cls, c.new u = .ok x := by
  constructor
  · intro h
    unfold epcPureIdentityToScheme at h
    obtain ⟨id, -, h⟩ := bind_ok_iff.1 h
    split at h
    · cases h
    · exact ⟨_, h⟩
  · rintro ⟨c, h⟩
    exact scheme_of_new h

end Epc
