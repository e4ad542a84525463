/-
The attribute `_tag_uri` of a CPI has no influence on its methods.
-/
import Verif.Spec.History
import Verif.Lemmas.Signature
set_option linter.unusedSimpArgs false

namespace Epc.Src
open Spec Grammar

/-- A CPI after calls of `tag_uri`. -/
def usedCPI (x : Epc.CPI) (v : Val) : Val :=
  .obj .CPI [(.epc_uri, .str x.epcUri), (._base64, .none), (._binary, .none), (._hex, .none), (._tag_uri, v), (._company_pref, .str x.companyPref),
    (._cp_ref, .str x.cpRef), (._serial, .str x.serial)]

private theorem bindRest' {α β : Type} {x : M α} {f g : α → M β} (h : ∀ a, f a = g a) : (x >>= f) = (x >>= g) := by
  rw [funext h]

theorem used_tag_uri (n : Nat) (x : Epc.CPI) (v a b : Val) :
    callDef (level n) CPI.tag_uri [usedCPI x v, a, b] [] = callDef (level n) CPI.tag_uri [objCPI x, a, b] [] := by
  run [CPI.tag_uri, usedCPI, objCPI, tagAttrs]
  repeat (first | rfl | (refine bindRest' fun _ => ?_) | (refine same_if (fun _ => ?_) (fun _ => ?_)) | run [])

theorem used_binary (n : Nat) (x : Epc.CPI) (v a b : Val) :
    callDef (level n) CPI.binary [usedCPI x v, a, b] [] = callDef (level n) CPI.binary [objCPI x, a, b] [] := by
  run [CPI.binary, usedCPI, objCPI, tagAttrs]
  repeat (first | rfl | (refine bindRest' fun _ => ?_) | (refine same_if (fun _ => ?_) (fun _ => ?_)) | run [])

theorem used_element (n : Nat) (x : Epc.CPI) (v : Val) :
    callDef (level n) CPI.gs1_element_string [usedCPI x v] [] = callDef (level n) CPI.gs1_element_string [objCPI x] [] := by
  run [CPI.gs1_element_string, usedCPI, objCPI, tagAttrs]
  repeat (first | rfl | (refine bindRest' fun _ => ?_) | (refine same_if (fun _ => ?_) (fun _ => ?_)) | run [])

theorem used_eq (n : Nat) (x : Epc.CPI) (v a : Val) :
    callDef (level n) EPCScheme.__eq__ [usedCPI x v, a] [] = callDef (level n) EPCScheme.__eq__ [objCPI x, a] [] := by
  run [EPCScheme.__eq__, usedCPI, objCPI, tagAttrs]
  repeat (first | rfl | (refine bindRest' fun _ => ?_) | (refine same_if (fun _ => ?_) (fun _ => ?_)) | run [])

/-- The same for all ways of passing the arguments. -/
theorem used_args {n : Nat} {d : FunDef} {qs : List (Nm × Option Val)} {o o' : Val} (hv : d.vararg = none) (hw : d.kwarg = none)
    (hd : Declares (level n) d d.params ((.self, .none) :: qs)) (hq : (Nm.self :: qs.map (·.1)).Nodup)
    (h : ∀ vs, vs.length = qs.length → callDef (level n) d (o' :: vs) [] = callDef (level n) d (o :: vs) [])
    {pos : List Val} {kw : List (Nm × Val)} (hk : (kw.map (·.1)).Nodup) :
    callDef (level n) d (o' :: pos) kw = callDef (level n) d (o :: pos) kw := by
  obtain ⟨h1, h2⟩ := callDef_takes hv hw hd hq (pos := o :: pos) hk
  obtain ⟨h1', h2'⟩ := callDef_takes hv hw hd hq (pos := o' :: pos) hk
  by_cases hp : ∃ vs, Passes qs pos kw vs
  · obtain ⟨vs, hp⟩ := hp
    rw [h1 (o :: vs) (passes_cons.2 ⟨vs, rfl, hp⟩), h1' (o' :: vs) (passes_cons.2 ⟨vs, rfl, hp⟩), h vs hp.1]
  · have no : ∀ o, ¬ ∃ vs, Passes ((Nm.self, .none) :: qs) (o :: pos) kw vs := by
      rintro o ⟨vs, hvs⟩
      obtain ⟨ws, -, hw⟩ := passes_cons.1 hvs
      exact hp ⟨ws, hw⟩
    rw [h2 (no o), h2' (no o')]

theorem two_values {l : List Val} (h : l.length = 2) : ∃ a b, l = [a, b] := by
  rcases l with _ | ⟨a, _ | ⟨b, _ | ⟨c, l⟩⟩⟩
  · cases h
  · cases h
  · exact ⟨a, b, rfl⟩
  · simp at h

theorem one_value {l : List Val} (h : l.length = 1) : ∃ a, l = [a] := by
  rcases l with _ | ⟨a, _ | ⟨b, l⟩⟩
  · cases h
  · exact ⟨a, rfl⟩
  · simp at h

macro "declares" : tactic => `(tactic| repeat' first | exact trivial | exact rfl | apply And.intro)

theorem used_app_binary (n : Nat) (x : Epc.CPI) (v : Val) (pos : List Val) (kw : List (Nm × Val)) (hk : (kw.map (·.1)).Nodup) :
    (level (n + 1)).app (.bound CPI.binary (usedCPI x v)) pos kw = (level (n + 1)).app (.bound CPI.binary (objCPI x)) pos kw := by
  rw [app_bound, app_bound]
  refine used_args (qs := [(.binary_coding_scheme, .none), (.filter_value, .none)]) rfl rfl (by declares) (by decide) (fun vs h => ?_) hk
  obtain ⟨a, b, rfl⟩ := two_values h
  exact used_binary n x v a b

theorem used_app_tag_uri (n : Nat) (x : Epc.CPI) (v : Val) (pos : List Val) (kw : List (Nm × Val)) (hk : (kw.map (·.1)).Nodup) :
    (level (n + 1)).app (.bound CPI.tag_uri (usedCPI x v)) pos kw = (level (n + 1)).app (.bound CPI.tag_uri (objCPI x)) pos kw := by
  rw [app_bound, app_bound]
  refine used_args (qs := [(.binary_coding_scheme, .none), (.filter_value, .none)]) rfl rfl (by declares) (by decide) (fun vs h => ?_) hk
  obtain ⟨a, b, rfl⟩ := two_values h
  exact used_tag_uri n x v a b

theorem used_app_element (n : Nat) (x : Epc.CPI) (v : Val) (pos : List Val) (kw : List (Nm × Val)) (hk : (kw.map (·.1)).Nodup) :
    (level (n + 1)).app (.bound CPI.gs1_element_string (usedCPI x v)) pos kw = (level (n + 1)).app (.bound CPI.gs1_element_string (objCPI x)) pos kw := by
  rw [app_bound, app_bound]
  refine used_args (qs := []) rfl rfl (by declares) (by decide) (fun vs h => ?_) hk
  obtain rfl := List.length_eq_zero_iff.1 h
  exact used_element n x v

theorem used_app_eq (n : Nat) (x : Epc.CPI) (v : Val) (pos : List Val) (kw : List (Nm × Val)) (hk : (kw.map (·.1)).Nodup) :
    (level (n + 1)).app (.bound EPCScheme.__eq__ (usedCPI x v)) pos kw = (level (n + 1)).app (.bound EPCScheme.__eq__ (objCPI x)) pos kw := by
  rw [app_bound, app_bound]
  refine used_args (qs := [(.other, .none)]) rfl rfl (by declares) (by decide) (fun vs h => ?_) hk
  obtain ⟨a, rfl⟩ := one_value h
  exact used_eq n x v a

theorem used_app_hex (n : Nat) (x : Epc.CPI) (v : Val) (pos : List Val) (kw : List (Nm × Val)) (hk : (kw.map (·.1)).Nodup) :
    (level (n + 2)).app (.bound TagEncodable.hex (usedCPI x v)) pos kw = (level (n + 2)).app (.bound TagEncodable.hex (objCPI x)) pos kw := by
  cases hs : get .self kw with
  | some w => rw [(self_twice (n + 1) pos hs).1, (self_twice (n + 1) pos hs).1]
  | none =>
    have hb := used_app_binary n x v [] kw hk
    have hg : ∀ L, getAttr L (usedCPI x v) .binary = .ok (.bound CPI.binary (usedCPI x v)) := fun _ => rfl
    have hg' : ∀ L, getAttr L (objCPI x) .binary = .ok (.bound CPI.binary (objCPI x)) := fun _ => rfl
    rw [app_bound, app_bound]
    run [TagEncodable.hex, hg, hg', hs, hb]
    clear hg hg' hs hb
    repeat (first | rfl | (refine bindRest' fun _ => ?_) | run [])

theorem used_app_base64 (n : Nat) (x : Epc.CPI) (v : Val) (pos : List Val) (kw : List (Nm × Val)) (hk : (kw.map (·.1)).Nodup) :
    (level (n + 3)).app (.bound TagEncodable.base64 (usedCPI x v)) pos kw = (level (n + 3)).app (.bound TagEncodable.base64 (objCPI x)) pos kw := by
  cases hs : get .self kw with
  | some w => rw [(self_twice (n + 2) pos hs).2, (self_twice (n + 2) pos hs).2]
  | none =>
    have hb := used_app_hex n x v [] kw hk
    have hg : ∀ L, getAttr L (usedCPI x v) .hex = .ok (.bound TagEncodable.hex (usedCPI x v)) := fun _ => rfl
    have hg' : ∀ L, getAttr L (objCPI x) .hex = .ok (.bound TagEncodable.hex (objCPI x)) := fun _ => rfl
    rw [app_bound, app_bound]
    run [TagEncodable.base64, hg, hg', hs, hb]
    clear hg hg' hs hb
    repeat (first | rfl | (refine bindRest' fun _ => ?_) | run [])

end Epc.Src
