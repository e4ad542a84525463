/-
C100: objects do not change, executed from the source.
-/
import Verif.Lemmas.History
import Verif.Props.C97
set_option linter.unusedVariables false

namespace Epc.Src
open Spec Grammar

/-- Outside of constructors one statement of the source assigns to an attribute: `self._tag_uri = …` in `CPI.tag_uri`. -/
theorem C100_assignments :
    (∀ c : Cl, ∀ p ∈ methodsOf c, p.1 ≠ .__init__ → assignsAll p.2.body = if c = .CPI ∧ p.1 = .tag_uri then [(.self, ._tag_uri)] else []) ∧
    (∀ m : Mod, ∀ p ∈ functionsOf m, assignsAll p.2.body = []) := by
  refine ⟨fun c => ?_, fun m => ?_⟩
  · cases c <;> decide +kernel
  · cases m <;> decide +kernel

/-- The classes have the methods one would expect. -/
example : (methodsOf .CPI).map (·.1) = [.__init__, .gs1_element_string, .from_gs1_element_string, .tag_uri, .binary, .from_binary] ∧
    (functionsOf .common).length = 27 ∧ (functionsOf .parsers).length = 13 := by decide +kernel

/-- What calls can make of an object. -/
private theorem used_cases {c : Cls} {x : Scheme} {u : Str} {o' : Val} (hx : c.new u = .ok x) (h : Used (objScheme x) o') :
    o' = objScheme x ∨ ∃ y v, x = .cpi y ∧ o' = usedCPI y v := by
  cases c <;> (obtain ⟨y, hy, rfl⟩ := map_ok_iff.1 hx)
  all_goals
    rcases h with h | ⟨hc, v, h⟩
    · exact .inl h
    · first | (cases hc; done) | exact .inr ⟨y, v, rfl, h⟩

private theorem used_trans {x : Epc.CPI} {v : Val} {o' : Val} (h : Used (usedCPI x v) o') : ∃ w, o' = usedCPI x w := by
  rcases h with h | ⟨_, w, h⟩
  · exact ⟨v, h⟩
  · exact ⟨w, h⟩

private theorem used_invoke (x : Epc.CPI) (v : Val) (m : Nm) (hm : m ∈ objectMethods) (args : List Val) (kw : List (Nm × Val)) (hk : (kw.map (·.1)).Nodup) :
    invoke (usedCPI x v) m args kw = invoke (objCPI x) m args kw := by
  simp only [objectMethods, List.mem_cons, List.not_mem_nil, or_false] at hm
  rcases hm with rfl | rfl | rfl | rfl | rfl | rfl | rfl | rfl
  · exact used_app_tag_uri 23 x v args kw hk
  · exact used_app_binary 23 x v args kw hk
  · exact used_app_hex 22 x v args kw hk
  · exact used_app_base64 21 x v args kw hk
  · exact used_app_element 23 x v args kw hk
  · rfl
  · rfl
  · exact used_app_eq 23 x v args kw hk

/-- An object answers as it did when it was made, whatever methods were called in between. -/
theorem C100_object (c : Cls) (u : Str) (o o' : Val) (h : construct (clOf c) [.str u] = .ok o) (hu : Used o o') :
    read o' .epc_uri = .ok (.str u) ∧
    ∀ m ∈ objectMethods, ∀ args kw, (kw.map (·.1)).Nodup → invoke o' m args kw = invoke o m args kw := by
  have hr := (C97_uri c u o h).1
  obtain ⟨x, hx, rfl⟩ := constructed h
  rcases used_cases hx hu with rfl | ⟨y, v, rfl, rfl⟩
  · exact ⟨hr, fun _ _ _ _ _ => rfl⟩
  · exact ⟨hr, fun m hm args kw hk => used_invoke y v m hm args kw hk⟩

/-- It compares as it did. -/
theorem C100_compared (c d : Cls) (u w : Str) (o o' p : Val) (h : construct (clOf c) [.str u] = .ok o) (hu : Used o o')
    (hp : construct (clOf d) [.str w] = .ok p) : invoke p .__eq__ [o'] [] = invoke p .__eq__ [o] [] := by
  obtain ⟨x, hx, rfl⟩ := constructed h
  obtain ⟨z, hz, rfl⟩ := constructed hp
  rcases used_cases hx hu with rfl | ⟨y, v, rfl, rfl⟩
  · rfl
  · have hi : builtinCall .isinstance [usedCPI y v, .cls .EPCScheme] = .ok (.bool true) := rfl
    have hi' : builtinCall .isinstance [objScheme (.cpi y), .cls .EPCScheme] = .ok (.bool true) := rfl
    have hr : ∀ L, getAttr L (usedCPI y v) .epc_uri = .ok (.str y.epcUri) := fun _ => rfl
    have hr' : ∀ L, getAttr L (objScheme (.cpi y)) .epc_uri = .ok (.str y.epcUri) := fun _ => rfl
    refine (invoke_eq rfl (fun L => attr_eq L z) ?_).trans (invoke_eq rfl (fun L => attr_eq L z) rfl).symm
    rw [app_bound, app_bound]
    run [EPCScheme.__eq__, hi, hi', hr, hr', read_epc_uri]

/-- In every program each call has the outcome that it has as the first call on its object. -/
theorem C100_history (objects : Nat → Val) (events : List Event) (hr : Runs objects events)
    (ho : ∀ i, ∃ c u, construct (clOf c) [.str u] = .ok (objects i))
    (he : ∀ e ∈ events, e.method ∈ objectMethods ∧ (e.kw.map (·.1)).Nodup) :
    ∀ e ∈ events, e.result = invoke (objects e.object) e.method e.args e.kw := by
  -- the objects are those of the start, used
  have key : ∀ {objects' : Nat → Val} {events : List Event}, Runs objects' events →
      (∀ i, objects' i = objects i ∨ ∃ y v, objects i = objCPI y ∧ objects' i = usedCPI y v) →
      (∀ e ∈ events, e.method ∈ objectMethods ∧ (e.kw.map (·.1)).Nodup) →
      ∀ e ∈ events, e.result = invoke (objects e.object) e.method e.args e.kw := by
    intro objects' events hr
    induction hr with
    | done => intro _ _ e he; cases he
    | call o1 o2 e es result object others rest ih =>
      intro hs he d hd
      rcases List.mem_cons.1 hd with rfl | hd
      · rw [result]
        rcases hs d.object with h | ⟨y, v, h, h'⟩
        · rw [h]
        · rw [h, h']
          exact used_invoke y v _ (he d List.mem_cons_self).1 _ _ (he d List.mem_cons_self).2
      · refine ih (fun i => ?_) (fun f hf => he f (List.mem_cons_of_mem _ hf)) d hd
        by_cases hi : i = e.object
        · subst hi
          rcases hs e.object with h | ⟨y, v, h, h'⟩
          · rw [h] at object
            obtain ⟨c, u, hc⟩ := ho e.object
            obtain ⟨x, hx, hxo⟩ := constructed hc
            rw [hxo] at object ⊢
            rcases used_cases hx object with h | ⟨y, v, rfl, h⟩
            · exact .inl h
            · exact .inr ⟨y, v, rfl, h⟩
          · rw [h'] at object
            obtain ⟨w, hw⟩ := used_trans object
            exact .inr ⟨y, w, h, hw⟩
        · rw [others i hi]
          exact hs i
  exact key hr (fun i => .inl rfl) he

/-- The attribute is assigned indeed: after `tag_uri` a CPI is no longer what it was, and is as good. -/
example (u : Str) (o : Val) (h : construct .CPI [.str u] = .ok o) : ∃ o', o' ≠ o ∧ Used o o' ∧ ∀ kw ∈ options o, invoke o' .hex [] kw = invoke o .hex [] kw := by
  obtain ⟨x, hx, rfl⟩ := constructed (c := .cpi) h
  obtain ⟨y, hy, rfl⟩ := map_ok_iff.1 hx
  refine ⟨usedCPI y (.str (py "urn:epc:tag:cpi-96:3.0614141.123456.123456789")), fun e => ?_, .inr ⟨rfl, _, rfl⟩, fun kw hkw => ?_⟩
  · simp [usedCPI, objScheme, objCPI, tagAttrs] at e
  · refine (C100_object .cpi u _ _ h (.inr ⟨rfl, _, rfl⟩)).2 _ (by decide) _ _ ?_
    obtain ⟨s, _, hs⟩ := List.mem_flatMap.1 (show kw ∈ (codings .CPI).flatMap fun s => (members .CPIFilterValue).map fun f => [(.binary_coding_scheme, s), (.filter_value, f)] from hkw)
    obtain ⟨f, _, rfl⟩ := List.mem_map.1 hs
    simp

end Epc.Src
