/-
Which class claims a GS1 element string.
-/
import Verif.Lemmas.ElemParse
import Verif.Lemmas.ParseTag

namespace Epc
open Spec Re

/-- What the dispatch looks at: the first application identifier, and for `(01)` also the second one. -/
def elemSig (s : Str) : Str × Str :=
  let a := s.takeWhile (· != ')')
  (a, if a = py "(01" then (s.drop 18).takeWhile (· != ')') else [])

theorem elemSig_of {a t : Str} (ha : ')' ∉ a) (h1 : a ≠ py "(01") : elemSig (a ++ ')' :: t) = (a, []) := by
  have e : (a ++ ')' :: t).takeWhile (· != ')') = a := by
    rw [List.takeWhile_append_of_pos (by intro c hc; simp; rintro rfl; exact ha hc)]
    simp
  unfold elemSig
  dsimp only
  rw [e, if_neg h1]

theorem elemSig_01 {d b t : Str} (hd : d.length = 14) (hb : ')' ∉ b) : elemSig (py "(01)" ++ (d ++ (b ++ ')' :: t))) = (py "(01", b) := by
  have e : (py "(01)" ++ (d ++ (b ++ ')' :: t))).takeWhile (· != ')') = py "(01" := rfl
  have e2 : (py "(01)" ++ (d ++ (b ++ ')' :: t))).drop 18 = b ++ ')' :: t := by
    rw [← List.append_assoc]
    exact drop_append_eq (by simp [hd])
  have e3 : (b ++ ')' :: t).takeWhile (· != ')') = b := by
    rw [List.takeWhile_append_of_pos (by intro c hc; simp; rintro rfl; exact hb hc)]
    simp
  unfold elemSig
  dsimp only
  rw [e, if_pos rfl, e2, e3]

/-- The signature of the element strings of a class. -/
def clsSig : Cls → Option (Str × Str)
  | .cpi => some (py "(8010", [])
  | .gdti => some (py "(253", [])
  | .giai => some (py "(8004", [])
  | .ginc => some (py "(401", [])
  | .grai => some (py "(8003", [])
  | .gsin => some (py "(402", [])
  | .gsrn => some (py "(8018", [])
  | .gsrnp => some (py "(8017", [])
  | .itip => some (py "(8006", [])
  | .lgtin => some (py "(01", py "(10")
  | .pgln => some (py "(417", [])
  | .sgcn => some (py "(255", [])
  | .sgln => some (py "(414", [])
  | .sgtin => some (py "(01", py "(21")
  | .sscc => some (py "(00", [])
  | .upui => some (py "(01", py "(235")
  | _ => Option.none

theorem sig_of_match {c : Cls} {r : Re} {s : Str} (hr : c.elemRegex = some r) (h : r.fullmatch s = true) : clsSig c = some (elemSig s) := by
  cases c <;> simp only [Cls.elemRegex, Option.some.injEq, reduceCtorEq] at hr <;> subst hr
  · obtain ⟨_, _, _, _, _, _, rfl⟩ := (CPI.elem_lang _).1 h
    exact (congrArg some (elemSig_of (a := py "(8010") (by decide) (by decide))).symm
  · obtain ⟨_, _, _, _, rfl⟩ := (GDTI.elem_lang _).1 h
    exact (congrArg some (elemSig_of (a := py "(253") (by decide) (by decide))).symm
  · obtain ⟨_, _, _, _, rfl⟩ := (GIAI.elem_lang _).1 h
    exact (congrArg some (elemSig_of (a := py "(8004") (by decide) (by decide))).symm
  · obtain ⟨_, _, _, _, rfl⟩ := (GINC.elem_lang _).1 h
    exact (congrArg some (elemSig_of (a := py "(401") (by decide) (by decide))).symm
  · obtain ⟨_, _, _, _, rfl⟩ := (GRAI.elem_lang _).1 h
    exact (congrArg some (elemSig_of (a := py "(8003") (by decide) (by decide))).symm
  · obtain ⟨_, _, rfl⟩ := (GSIN.elem_lang _).1 h
    exact (congrArg some (elemSig_of (a := py "(402") (by decide) (by decide))).symm
  · obtain ⟨_, _, rfl⟩ := (GSRN.elem_lang _).1 h
    exact (congrArg some (elemSig_of (a := py "(8018") (by decide) (by decide))).symm
  · obtain ⟨_, _, rfl⟩ := (GSRNP.elem_lang _).1 h
    exact (congrArg some (elemSig_of (a := py "(8017") (by decide) (by decide))).symm
  · obtain ⟨_, _, _, _, rfl⟩ := (ITIP.elem_lang _).1 h
    exact (congrArg some (elemSig_of (a := py "(8006") (by decide) (by decide))).symm
  · obtain ⟨_, _, hd, _, rfl⟩ := (LGTIN.elem_lang _).1 h
    exact (congrArg some (elemSig_01 (b := py "(10") hd.2 (by decide))).symm
  · obtain ⟨_, _, rfl⟩ := (PGLN.elem_lang _).1 h
    exact (congrArg some (elemSig_of (a := py "(417") (by decide) (by decide))).symm
  · obtain ⟨_, _, _, _, rfl⟩ := (SGCN.elem_lang _).1 h
    exact (congrArg some (elemSig_of (a := py "(255") (by decide) (by decide))).symm
  · obtain ⟨_, _, _, _, rfl⟩ := (SGLN.elem_lang _).1 h
    exact (congrArg some (elemSig_of (a := py "(414") (by decide) (by decide))).symm
  · obtain ⟨_, _, hd, _, rfl⟩ := (SGTIN.elem_lang _).1 h
    exact (congrArg some (elemSig_01 (b := py "(21") hd.2 (by decide))).symm
  · obtain ⟨_, _, rfl⟩ := (SSCC.elem_lang _).1 h
    exact (congrArg some (elemSig_of (a := py "(00") (by decide) (by decide))).symm
  · obtain ⟨_, _, hd, _, rfl⟩ := (UPUI.elem_lang _).1 h
    exact (congrArg some (elemSig_01 (b := py "(235") hd.2 (by decide))).symm

theorem clsSig_inj {c c' : Cls} {a : Str × Str} (h : clsSig c = some a) (h' : clsSig c' = some a) : c = c' := by
  have key : ∀ c ∈ Cls.all, ∀ c' ∈ Cls.all, clsSig c ≠ Option.none → clsSig c = clsSig c' → c = c' := by decide
  exact key c (Cls.mem_all c) c' (Cls.mem_all c') (by rw [h]; exact fun e => by cases e) (by rw [h, h'])

theorem elem_unique {c c' : Cls} {r r' : Re} {s : Str} (hr : c.elemRegex = some r) (hr' : c'.elemRegex = some r')
    (h : r.fullmatch s = true) (h' : r'.fullmatch s = true) : c = c' :=
  clsSig_inj (sig_of_match hr h) (sig_of_match hr' h')

/-- Does a class claim the string? -/
def claims (s : Str) (c : Cls) : Bool := match c.elemRegex with | some r => r.fullmatch s | Option.none => false

theorem claims_iff {s : Str} {c : Cls} : claims s c = true ↔ ∃ r, c.elemRegex = some r ∧ r.fullmatch s = true := by
  unfold claims
  cases c.elemRegex <;> simp

theorem find_claims {s : Str} {l : List Cls} (hl : ∀ c, c ∈ l) {c : Cls} : l.find? (claims s) = some c ↔ claims s c = true := by
  constructor
  · intro h; exact List.find?_some h
  · intro h
    cases hf : l.find? (claims s) with
    | none =>
      have := List.find?_eq_none.1 hf c (hl c)
      exact absurd h this
    | some c' =>
      have h' := List.find?_some hf
      obtain ⟨r, hr, hm⟩ := claims_iff.1 h
      obtain ⟨r', hr', hm'⟩ := claims_iff.1 h'
      rw [elem_unique hr hr' hm hm']

theorem elemCls_eq (s : Str) : elemCls s = Cls.all.find? (claims s) := rfl

theorem elemCls_iff {s : Str} {c : Cls} : elemCls s = some c ↔ ∃ r, c.elemRegex = some r ∧ r.fullmatch s = true := by
  rw [elemCls_eq, find_claims Cls.mem_all, claims_iff]

theorem elemCls_none {s : Str} : elemCls s = Option.none ↔ ∀ (c : Cls) (r : Re), c.elemRegex = some r → r.fullmatch s = false := by
  rw [elemCls_eq, List.find?_eq_none]
  constructor
  · intro h c r hr
    have := h c (Cls.mem_all c)
    rw [claims_iff] at this
    exact Bool.eq_false_iff.2 (fun hm => this ⟨r, hr, hm⟩)
  · intro h c _ hc
    obtain ⟨r, hr, hm⟩ := claims_iff.1 hc
    rw [h c r hr] at hm
    cases hm

end Epc
