/-
How the interpreter binds arguments of functions with `**kwargs`, and what the keys make of keyword arguments.
-/
import Verif.Spec.Forward
import Verif.Lemmas.Signature
import Verif.Refine.Numbers

namespace Epc.Src
open Spec Grammar

private theorem bindOk {α β : Type} {x : M α} {f : α → M β} {b : β} (h : (x >>= f) = .ok b) : ∃ a, x = .ok a ∧ f a = .ok b := by
  cases x with
  | error e => cases h
  | ok a => exact ⟨a, rfl, h⟩

private theorem okBind {α β : Type} (a : α) (f : α → M β) : ((.ok a : M α) >>= f) = f a := rfl

theorem get_filter {N : Nm → Bool} {x : Nm} (hx : N x = true) : ∀ kw : List (Nm × Val), get x (kw.filter (fun k => N k.1)) = get x kw
  | [] => rfl
  | (y, v) :: t => by
    rw [List.filter_cons]
    by_cases e : x = y
    · subst e
      rw [if_pos (by exact hx), get, get, if_pos rfl, if_pos rfl]
    · split
      · rw [get, get, if_neg e, if_neg e, get_filter hx t]
      · rw [get, if_neg e, get_filter hx t]

theorem del_filter {N : Nm → Bool} {x : Nm} : ∀ kw : List (Nm × Val), N x = true → del x (kw.filter (fun k => N k.1)) = (del x kw).filter (fun k => N k.1)
  | [], _ => rfl
  | (y, v) :: t, hx => by
    rw [List.filter_cons]
    by_cases e : x = y
    · subst e
      rw [if_pos (by exact hx), del, del, if_pos rfl, if_pos rfl]
    · split
      · rename_i hy
        rw [del, del, if_neg e, if_neg e, List.filter_cons, if_pos hy, del_filter t hx]
      · rename_i hy
        rw [del, if_neg e, List.filter_cons, if_neg hy, del_filter t hx]

theorem del_others {N : Nm → Bool} {x : Nm} : ∀ kw : List (Nm × Val), N x = true → (del x kw).filter (fun k => !N k.1) = kw.filter (fun k => !N k.1)
  | [], _ => rfl
  | (y, v) :: t, hx => by
    rw [del]
    by_cases e : x = y
    · subst e
      rw [if_pos rfl, List.filter_cons, if_neg (by simp [hx])]
    · rw [if_neg e, List.filter_cons, List.filter_cons, del_others t hx]

/-- Binding the parameters looks at the keyword arguments that name them only, and leaves the others. -/
theorem bind_filter {L : Level} {d : FunDef} {N : Nm → Bool} : ∀ {ps : List Param} {pos : List Val} {kw : List (Nm × Val)}, (∀ p ∈ ps, N p.name = true) →
    bindParams L d ps pos (kw.filter (fun k => N k.1)) = (bindParams L d ps pos kw).map (fun r => (r.1, r.2.1, r.2.2.filter (fun k => N k.1))) ∧
    ∀ r, bindParams L d ps pos kw = .ok r → r.2.2.filter (fun k => !N k.1) = kw.filter (fun k => !N k.1)
  | [], pos, kw, _ => by
    refine ⟨rfl, fun r h => ?_⟩
    rw [bindParams] at h
    cases h
    rfl
  | p :: ps, v :: pos, kw, hN => by
    have hp := hN p List.mem_cons_self
    obtain ⟨h1, h2⟩ := bind_filter (L := L) (d := d) (pos := pos) (kw := kw) (fun q hq => hN q (List.mem_cons_of_mem _ hq))
    rw [bindParams, bindParams, get_filter hp]
    split
    · exact ⟨rfl, fun r h => by cases h⟩
    · rw [h1]
      cases hb : bindParams L d ps pos kw with
      | error e => exact ⟨rfl, fun r h => by cases h⟩
      | ok r => exact ⟨rfl, fun r' h => by cases h; exact h2 r hb⟩
  | p :: ps, [], kw, hN => by
    have hp := hN p List.mem_cons_self
    rw [bindParams, bindParams, get_filter hp]
    cases hg : get p.name kw with
    | some v =>
      obtain ⟨h1, h2⟩ := bind_filter (L := L) (d := d) (pos := []) (kw := del p.name kw) (fun q hq => hN q (List.mem_cons_of_mem _ hq))
      simp only
      rw [del_filter kw hp, h1]
      cases hb : bindParams L d ps [] (del p.name kw) with
      | error e => exact ⟨rfl, fun r h => by cases h⟩
      | ok r => exact ⟨rfl, fun r' h => by cases h; exact (h2 r hb).trans (del_others kw hp)⟩
    | none =>
      obtain ⟨h1, h2⟩ := bind_filter (L := L) (d := d) (pos := []) (kw := kw) (fun q hq => hN q (List.mem_cons_of_mem _ hq))
      simp only
      cases p.default with
      | none => exact ⟨rfl, fun r h => by cases h⟩
      | some e =>
        simp only
        rw [h1]
        cases L.const d.mod (classScope d.owner) e with
        | error x => exact ⟨rfl, fun r h => by cases h⟩
        | ok w =>
          cases hb : bindParams L d ps [] kw with
          | error e => exact ⟨rfl, fun r h => by cases h⟩
          | ok r => exact ⟨rfl, fun r' h => by cases h; exact h2 r hb⟩

/-- No keyword argument that names a parameter is left. -/
theorem bind_rest {L : Level} {d : FunDef} : ∀ {ps : List Param} {pos : List Val} {kw : List (Nm × Val)} {r : Env × List Val × List (Nm × Val)},
    (kw.map (·.1)).Nodup → bindParams L d ps pos kw = .ok r → (∀ k ∈ r.2.2, k ∈ kw) ∧ ∀ k ∈ r.2.2, k.1 ∉ ps.map (·.name)
  | [], pos, kw, r, _, h => by
    rw [bindParams] at h
    cases h
    exact ⟨fun k hk => hk, fun k hk => by simp⟩
  | p :: ps, v :: pos, kw, r, hn, h => by
    rw [bindParams, get_lookup] at h
    split at h
    · cases h
    · rename_i hl
      obtain ⟨r', hr, e⟩ := bindOk h
      cases e
      obtain ⟨h1, h2⟩ := bind_rest hn hr
      refine ⟨h1, fun k hk => ?_⟩
      rw [List.map_cons, List.mem_cons, not_or]
      have : kw.lookup p.name = none := by cases hq : kw.lookup p.name <;> simp_all
      exact ⟨lookup_name.1 this k (h1 k hk), h2 k hk⟩
  | p :: ps, [], kw, r, hn, h => by
    rw [bindParams, get_lookup] at h
    cases hl : kw.lookup p.name with
    | some v =>
      rw [hl] at h
      obtain ⟨r', hr, e⟩ := bindOk h
      cases e
      obtain ⟨h1, h2⟩ := bind_rest (del_nodup hn) hr
      refine ⟨fun k hk => del_mem (h1 k hk), fun k hk => ?_⟩
      rw [List.map_cons, List.mem_cons, not_or]
      exact ⟨del_ne hn k (h1 k hk), h2 k hk⟩
    | none =>
      rw [hl] at h
      simp only at h
      split at h
      · obtain ⟨w, _, h⟩ := bindOk h
        obtain ⟨r', hr, e⟩ := bindOk h
        cases e
        obtain ⟨h1, h2⟩ := bind_rest hn hr
        refine ⟨h1, fun k hk => ?_⟩
        rw [List.map_cons, List.mem_cons, not_or]
        exact ⟨lookup_name.1 hl k (h1 k hk), h2 k hk⟩
      · cases h

theorem filter_split {N : Nm → Bool} : ∀ {r : List (Nm × Val)}, r.filter (fun k => N k.1) = [] → r.filter (fun k => !N k.1) = r := by
  intro r h
  refine List.filter_eq_self.2 fun k hk => ?_
  have := List.filter_eq_nil_iff.1 h k hk
  simpa using this

/-- A function with `**kwargs`. -/
theorem frame_more {L : Level} {d : FunDef} {x : Nm} {qs : List (Nm × Option Val)} (hv : d.vararg = none) (hw : d.kwarg = some x)
    (hd : Declares L d d.params qs) (hq : (qs.map (·.1)).Nodup) {pos : List Val} {kw : List (Nm × Val)} (hk' : (kw.map (·.1)).Nodup) :
    (∀ vs, Passes qs pos (named qs kw) vs → frame L d pos kw = .ok ((qs.map (·.1)).zip vs ++ [(x, .kwargs (others qs kw))])) ∧
    ((¬ ∃ vs, Passes qs pos (named qs kw) vs) → frame L d pos kw = .error tErr) := by
  have hN : ∀ p ∈ d.params, (qs.map (·.1)).contains p.name = true := fun p hp => by
    rw [List.contains_iff_mem, ← hd.names]
    exact List.mem_map.2 ⟨p, hp, rfl⟩
  have hkn : ((named qs kw).map (·.1)).Nodup := (List.filter_sublist.map _).nodup hk'
  obtain ⟨h1, h2⟩ := bind_filter (L := L) (d := d) (N := fun n => (qs.map (·.1)).contains n) (pos := pos) (kw := kw) hN
  refine ⟨fun vs h => ?_, fun h => ?_⟩
  · have hb := bind_passes hd hq hkn h
    rw [named, h1] at hb
    cases hp : bindParams L d d.params pos kw with
    | error e => rw [hp] at hb; cases hb
    | ok r =>
      obtain ⟨env, a, rest⟩ := r
      rw [hp] at hb
      injection hb with hb
      injection hb with e1 hb
      injection hb with e2 e3
      have hr := h2 _ hp
      simp only at e1 e2 e3 hr
      rw [filter_split e3] at hr
      rw [frame, hp, okBind, bindVar, hv, bindKw, hw, e1, e2, hr]
      show Except.ok (_ ++ [] ++ _) = _
      rw [List.append_nil]
      rfl
  · rw [frame]
    cases hb : bindParams L d d.params pos kw with
    | error e => rw [bind_type hd hb]; rfl
    | ok r =>
      obtain ⟨env, a, rest⟩ := r
      rw [okBind, bindVar, hv, bindKw, hw]
      cases a with
      | cons _ _ => rfl
      | nil =>
        exfalso
        rw [hb] at h1
        have hr : rest.filter (fun k => (qs.map (·.1)).contains k.1) = [] :=
          List.filter_eq_nil_iff.2 fun k hk => by
            rw [List.contains_iff_mem, ← hd.names]
            exact (bind_rest hk' hb).2 k hk
        refine h (passes_bind hd hq hkn (env := env) ?_)
        rw [named, h1]
        show Except.ok (env, [], rest.filter _) = _
        rw [hr]

theorem function_takesMore {f x : Nm} {d : FunDef} {qs : List (Nm × Option Val)} (ho : ∀ L, globalVal L .parsers f = .ok (.func d))
    (hv : d.vararg = none) (hw : d.kwarg = some x) (hd : Declares (level 23) d d.params qs)
    (hq : (qs.map (·.1)).Nodup) : TakesMore qs (function f) := by
  intro pos kw hk
  have key : ∀ pos kw, function f pos kw = callDef (level 23) d pos kw := fun pos kw => function_eq rfl ho rfl
  obtain ⟨h1, h2⟩ := frame_more hv hw hd hq (pos := pos) hk
  refine ⟨fun vs h => ?_, fun h => by rw [key, callDef, h2 h]; rfl⟩
  have hko : ((others qs kw).map (·.1)).Nodup := (List.filter_sublist.map _).nodup hk
  have e1 : named qs (others qs kw) = [] := by
    refine List.filter_eq_nil_iff.2 fun k hk => ?_
    have := (List.mem_filter.1 hk).2
    simpa using this
  have e2 : others qs (others qs kw) = others qs kw := by
    refine List.filter_eq_self.2 fun k hk => ?_
    exact (List.mem_filter.1 hk).2
  obtain ⟨h3, -⟩ := frame_more hv hw hd hq (pos := vs) hko
  rw [key, key, callDef, callDef, h1 vs h, h3 vs (by rw [e1]; exact passes_self h.1), e2]

/-! ### Keys -/

/-- The parameters of `gs1_key`, as the source declares them. -/
theorem key_declares (c : Cls) (hc : c.isGs1Keyed = true) (n : Nat) : Declares (level (n + 5)) (keyDef c) (keyDef c).params ((.self, .none) :: keySig c) := by
  cases c <;> first | (cases hc; done) | (repeat' first | exact trivial | exact rfl | apply And.intro)

theorem key_plain (c : Cls) (hc : c.isGs1Keyed = true) : (keyDef c).vararg = none ∧ (keyDef c).kwarg = none ∧ (Nm.self :: (keySig c).map (·.1)).Nodup := by
  cases c <;> first | (cases hc; done) | exact ⟨rfl, rfl, by decide⟩

/-- `gs1_key` raises TypeError for keyword arguments that it does not have. -/
theorem key_type {c : Cls} (hc : c.isGs1Keyed = true) {kw : List (Nm × Val)} (hn : (kw.map (·.1)).Nodup) {k : Nm × Val} (hk : k ∈ kw)
    (hs : k.1 ∉ (keySig c).map (·.1)) (n : Nat) (o : Val) : (level (n + 6)).app (.bound (keyDef c) o) [] kw = .error (.err .type) := by
  obtain ⟨h1, h2, h3⟩ := key_plain c hc
  rw [app_bound]
  refine (callDef_takes h1 h2 (key_declares c hc n) h3 (pos := [o]) hn).2 ?_
  rintro ⟨vs, -, -, -, h, -⟩
  exact hs (by simpa using h k hk)

theorem keySig_names (c : Cls) (x : Nm) : x ∈ (keySig c).map (·.1) ↔ x = .gtin_type ∧ (c = .sgtin ∨ c = .lgtin) := by
  cases c <;> simp [keySig]

/-- `gs1_key` with keyword arguments does not depend on the depth of the call. -/
theorem key_level {ps : List (Nm × Option Val)} {kw : List (Nm × Val)} (hk : Extra ps kw) (x : Scheme) (h : x.cls.isGs1Keyed = true) (n m : Nat) :
    (level (n + 10)).app (.bound (keyDef x.cls) (objScheme x)) [] kw = (level (m + 10)).app (.bound (keyDef x.cls) (objScheme x)) [] kw := by
  obtain ⟨hn, -, hv⟩ := hk
  by_cases hb : ∃ k ∈ kw, k.1 ∉ (keySig x.cls).map (·.1)
  · obtain ⟨k, hm, hs⟩ := hb
    exact (key_type h hn hm hs (n + 4) _).trans (key_type h hn hm hs (m + 4) _).symm
  have hb : ∀ k ∈ kw, k.1 = .gtin_type ∧ (x.cls = .sgtin ∨ x.cls = .lgtin) := fun k hm =>
    (keySig_names _ _).1 (Classical.byContradiction fun hs => hb ⟨k, hm, hs⟩)
  match kw, hn, hv, hb with
  | [], _, _, _ => rw [show ([] : List (Nm × Val)) = keyKw none from rfl, sem_key n x none h, sem_key m x none h]
  | [(g, v)], _, hv, hb =>
    obtain ⟨e, ht⟩ := hb _ List.mem_cons_self
    cases e
    obtain ⟨i, rfl⟩ := hv v List.mem_cons_self
    cases x <;> first | (rcases ht with ht | ht <;> cases ht; done) | skip
    · exact (int_LGTIN_gs1_key n _ i).trans (int_LGTIN_gs1_key m _ i).symm
    · exact (int_SGTIN_gs1_key n _ i).trans (int_SGTIN_gs1_key m _ i).symm
  | a :: b :: kw, hn, _, hb =>
    exfalso
    have ha := (hb a List.mem_cons_self).1
    have hc := (hb b (List.mem_cons_of_mem _ List.mem_cons_self)).1
    rw [List.map_cons, List.map_cons, ha, hc, List.nodup_cons] at hn
    exact hn.1 List.mem_cons_self

/-- What `get_gs1_key` does with the object it has chosen, for any keyword arguments. -/
theorem key_tail (n : Nat) (s : Str) (l : Val) (kw : List (Nm × Val)) (x : Scheme) :
    execBlock (level (n + 17)) .parsers [] (keyEnv s l kw (objScheme x)) keyTail =
      if x.cls.isGs1Keyed = true then ((level (n + 17)).app (.bound (keyDef x.cls) (objScheme x)) [] kw).map .ret else .error (.err .convert) := by
  have hi := isinstance_keyed x
  unfold keyTail keyEnv parsers.get_gs1_key
  simp only [List.drop_succ_cons, List.drop_zero]
  cases hk : x.cls.isGs1Keyed with
  | false =>
    rw [hk] at hi
    run [hi]
  | true =>
    rw [hk] at hi
    run [hi, attr_key _ x hk]

theorem extra_named {ps : List (Nm × Option Val)} {kw : List (Nm × Val)} (h : Extra ps kw) : named ps kw = [] ∧ others ps kw = kw := by
  refine ⟨List.filter_eq_nil_iff.2 fun k hk => ?_, List.filter_eq_self.2 fun k hk => ?_⟩
  · rw [List.contains_iff_mem]
    exact h.2.1 k hk
  · have := h.2.1 k hk
    rw [← List.contains_iff_mem] at this
    simpa using this

theorem optInt_len (k : Option Int) : optInt k = lenVal k := by cases k <;> rfl

theorem sourceSig_declares : Declares (level 23) parsers.get_gs1_key parsers.get_gs1_key.params sourceSig := by
  repeat' first | exact trivial | exact rfl | apply And.intro

theorem pureSig_declares : Declares (level 23) parsers.epc_pure_identity_to_gs1_key parsers.epc_pure_identity_to_gs1_key.params pureSig := by
  repeat' first | exact trivial | exact rfl | apply And.intro

theorem invoke_key {ps : List (Nm × Option Val)} {kw : List (Nm × Val)} (hk : Extra ps kw) (x : Scheme) (h : x.cls.isGs1Keyed = true) (n : Nat) :
    (level (n + 10)).app (.bound (keyDef x.cls) (objScheme x)) [] kw = invoke (objScheme x) .gs1_key [] kw := by
  rw [key_level hk x h n 14]
  exact (invoke_eq rfl (fun L => attr_key L x h) rfl).symm

/-- `get_gs1_key` hands its keyword arguments to `gs1_key`. -/
theorem source_forward (s : Str) (k : Option Int) {kw : List (Nm × Val)} (hk : Extra sourceSig kw) :
    function .get_gs1_key [.str s, optInt k] kw =
      match gs1KeySource s k with
      | none => .error (.err .convert)
      | some r => lift r >>= fun x => if x.cls.isGs1Keyed = true then invoke (objScheme x) .gs1_key [] kw else .error (.err .convert) := by
  have key : function .get_gs1_key [.str s, optInt k] kw = callDef (level 23) parsers.get_gs1_key [.str s, optInt k] kw := function_eq rfl (fun _ => rfl) rfl
  have hf := (frame_more (x := .kwargs) rfl rfl sourceSig_declares (by decide) (pos := [.str s, optInt k]) hk.1).1 [.str s, optInt k]
    (by rw [(extra_named hk).1]; exact passes_self rfl)
  rw [(extra_named hk).2] at hf
  rw [key, callDef, hf, okBind, key_body]
  have hm : parsers.get_gs1_key.mod = .parsers := rfl
  rw [hm, optInt_len]
  have hc := sem_key_chain 6 s k kw
  have ht := fun x => key_tail 6 s (lenVal k) kw x
  have hz : execBlock (level 23) .parsers [] (keyEnv s (lenVal k) kw .none) keyTail = .error (.err .convert) := by
    unfold keyTail keyEnv parsers.get_gs1_key
    simp only [List.drop_succ_cons, List.drop_zero]
    run [isinstance_none]
  rw [show (sourceSig.map (·.1)).zip [Val.str s, lenVal k] ++ [(Nm.kwargs, Val.kwargs kw)] =
    [(.source, .str s), (.company_prefix_length, lenVal k), (.kwargs, .kwargs kw)] from rfl]
  cases hg : gs1KeySource s k with
  | none =>
    rw [hg] at hc
    simp only [keyEnv] at hc hz
    run [block_chain, hc, hz]
  | some r =>
    rw [hg] at hc
    simp only [keyEnv] at hc ht
    run [block_chain, hc]
    cases r with
    | error e => rfl
    | ok x =>
      show (execBlock (level 23) .parsers [] _ keyTail >>= _) = _
      rw [ht x]
      show _ = if x.cls.isGs1Keyed = true then invoke (objScheme x) .gs1_key [] kw else .error (.err .convert)
      cases hx : x.cls.isGs1Keyed with
      | false => rfl
      | true =>
        rw [if_pos rfl, if_pos rfl, ← invoke_key hk x hx 13]
        cases (level (13 + 10)).app (.bound (keyDef x.cls) (objScheme x)) [] kw <;> rfl

/-- `epc_pure_identity_to_gs1_key` hands its keyword arguments to `gs1_key`. -/
theorem pure_forward (s : Str) {kw : List (Nm × Val)} (hk : Extra pureSig kw) :
    function .epc_pure_identity_to_gs1_key [.str s] kw = lift (epcPureIdentityToGs1Keyed s) >>= fun x => invoke (objScheme x) .gs1_key [] kw := by
  have key : function .epc_pure_identity_to_gs1_key [.str s] kw = callDef (level 23) parsers.epc_pure_identity_to_gs1_key [.str s] kw :=
    function_eq rfl (fun _ => rfl) rfl
  have hf := (frame_more (x := .kwargs) rfl rfl pureSig_declares (by decide) (pos := [.str s]) hk.1).1 [.str s]
    (by rw [(extra_named hk).1]; exact passes_self rfl)
  rw [(extra_named hk).2] at hf
  rw [key, callDef, hf, okBind]
  rw [show (pureSig.map (·.1)).zip [Val.str s] ++ [(Nm.kwargs, Val.kwargs kw)] = [(.epc_pure_identity_uri, .str s), (.kwargs, .kwargs kw)] from rfl]
  run [parsers.epc_pure_identity_to_gs1_key, sem_gs1_keyed]
  cases hx : epcPureIdentityToGs1Keyed s with
  | error e => rfl
  | ok x =>
    have h := keyed_ok hx
    run [attr_key _ x h]
    rw [← invoke_key hk x h 13]
    cases (level (13 + 10)).app (.bound (keyDef x.cls) (objScheme x)) [] kw <;> rfl

end Epc.Src
