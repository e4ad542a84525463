/-
The parts of `CPI.tag_uri`, and an invariant of every schedule of calls that share objects.
-/
import Verif.Spec.Shared
import Verif.Lemmas.History
import Verif.Lemmas.Source

namespace Epc.Src
open Spec Grammar

private theorem bindOk {α β : Type} {x : M α} {f : α → M β} {b : β} (h : (x >>= f) = .ok b) : ∃ a, x = .ok a ∧ f a = .ok b := by
  cases x with
  | error e => cases h
  | ok a => exact ⟨a, rfl, h⟩

theorem exec_append (L : Level) (m : Mod) (chain : List Cl) (ss ts : List Stmt) : ∀ env, execBlock L m chain env (ss ++ ts) =
    execBlock L m chain env ss >>= fun f =>
      match f with
      | .next env => execBlock L m chain env ts
      | f => .ok f := by
  induction ss with
  | nil => intro env; rw [List.nil_append, block_nil]; rfl
  | cons s ss ih =>
    intro env
    rw [List.cons_append, execBlock, execBlock]
    cases exec L m chain env s with
    | error e => rfl
    | ok f => cases f <;> first | exact ih _ | rfl

private theorem next_assign {L : Level} {m : Mod} {chain : List Cl} {env : Env} {t : Target} {e : Expr} {f : Flow}
    (h : exec L m chain env (.assign t e) = .ok f) : ∃ env', f = .next env' := by
  rw [exec] at h
  obtain ⟨v, -, h⟩ := bindOk h
  obtain ⟨env', -, h⟩ := bindOk h
  cases h
  exact ⟨_, rfl⟩

private theorem next_raise {L : Level} {m : Mod} {chain : List Cl} {env : Env} {c e : Expr} {f : Flow}
    (h : exec L m chain env (.ite c [.raise e] []) = .ok f) : ∃ env', f = .next env' := by
  rw [exec_ite] at h
  obtain ⟨v, -, h⟩ := bindOk h
  split at h
  · rw [block_one, exec] at h
    obtain ⟨x, -, h⟩ := bindOk h
    split at h <;> cases h
  · rw [block_nil] at h
    cases h
    exact ⟨_, rfl⟩

/-- The statements before the last one do not leave the function but by an exception. -/
theorem first_next (L : Level) (env : Env) (f : Flow) (h : execBlock L .cpi [] env CPI.tag_uri.body.dropLast = .ok f) : ∃ env', f = .next env' := by
  have hb : ∃ c e t e', CPI.tag_uri.body.dropLast = [.ite c [.raise e] [], .assign t e'] := ⟨_, _, _, _, rfl⟩
  obtain ⟨c, e, t, e', hb⟩ := hb
  rw [hb, block_cons] at h
  obtain ⟨g, hg, h⟩ := bindOk h
  obtain ⟨env', rfl⟩ := next_raise hg
  change execBlock L .cpi [] env' [.assign t e'] = _ at h
  rw [block_one] at h
  exact next_assign h

/-- What `tag_uri` returns is what it assigns. -/
theorem tag_uri_split (o : Val) (args : List Val) (kw : List (Nm × Val)) :
    (level 24).app (.bound CPI.tag_uri o) args kw = toAssign o args kw := by
  rw [app_bound, callDef, toAssign]
  cases frame (level 23) CPI.tag_uri (o :: args) kw with
  | error e => rfl
  | ok env =>
    show (execBlock (level 23) .cpi [] env (CPI.tag_uri.body.dropLast ++ [.ret (.attr (.name .self) ._tag_uri)]) >>= _) = _
    rw [exec_append]
    show _ = execBlock (level 23) .cpi [] env CPI.tag_uri.body.dropLast >>= _
    cases hf : execBlock (level 23) .cpi [] env CPI.tag_uri.body.dropLast with
    | error e => rfl
    | ok f =>
      obtain ⟨env', rfl⟩ := first_next _ _ _ hf
      show (execBlock (level 23) .cpi [] env' [.ret (.attr (.name .self) ._tag_uri)] >>= _) = eval (level 23) .cpi env' (.attr (.name .self) ._tag_uri)
      rw [block_one, exec]
      cases eval (level 23) .cpi env' (.attr (.name .self) ._tag_uri) <;> rfl

/-! ### Schedules -/

section

variable (objects : Nat → Val) (calls : Nat → SharedCall)

/-- Call `j` assigns to the object of call `i` between the assignment and the return of call `i`; `before`: the schedule up to the present. -/
def Between (before : List Nat) (i j : Nat) : Prop :=
  ∃ a b c, before = a ++ i :: b ++ j :: c ∧ a.count i = 1 ∧ i ∉ b ∧ i ∉ c ∧ (a ++ i :: b).count j = 1

/-- `v` is the value call `i` assigned, or that another call assigned since. -/
def Latest (before : List Nat) (i : Nat) (v : Val) : Prop :=
  alone objects calls i = .ok v ∨
  ∃ j, j ≠ i ∧ (calls j).object = (calls i).object ∧ tags objects calls j ∧ alone objects calls j = .ok v ∧ Between before i j

/-- Where a call is, after a schedule. -/
def Place (before : List Nat) (s : Shared) (i : Nat) : Prop :=
  match s.stage i with
  | .start => before.count i = 0
  | .assign v => before.count i = 1 ∧ tags objects calls i ∧ alone objects calls i = .ok v
  | .ret => before.count i = 2 ∧ (∃ a b, before = a ++ i :: b ∧ a.count i = 1 ∧ i ∉ b) ∧ tags objects calls i ∧
      (∃ v, alone objects calls i = .ok v) ∧ Latest objects calls before i (s.stored (calls i).object)
  | .done r => r = alone objects calls i ∨
      (tags objects calls i ∧ (∃ v, alone objects calls i = .ok v) ∧ ∃ v before' after, r = .ok v ∧ before = before' ++ i :: after ∧
        Latest objects calls before' i v)

variable {objects calls}

theorem place_init (i : Nat) : Place objects calls [] Shared.init i := by
  simp [Place, Shared.init]

theorem tags_alone (hx : ∀ k, ∃ x, objects k = objScheme x) {i : Nat} (h : tags objects calls i) :
    alone objects calls i = toAssign (objects (calls i).object) (calls i).args (calls i).kw := by
  obtain ⟨x, ho⟩ := hx (calls i).object
  unfold tags at h
  rw [alone, ho]
  rw [ho] at h
  have hm : (calls i).method = .tag_uri := by
    unfold assignsTag at h
    split at h
    · assumption
    · cases h
  rw [hm] at h ⊢
  rw [← tag_uri_split]
  cases x <;> first
    | (cases h; done)
    | exact invoke_eq rfl (fun _ => rfl) rfl

private theorem stage_other {s : Shared} {i j : Nat} (h : i ≠ j) : (s.step objects calls j).stage i = s.stage i := by
  unfold Shared.step
  dsimp only
  split
  · split
    · split <;> simp [h]
    · simp [h]
  · simp [h]
  · simp [h]
  · rfl

private theorem stored_other {s : Shared} {j : Nat} : (s.step objects calls j).stored = s.stored ∨
    ∃ v, s.stage j = .assign v ∧ (s.step objects calls j).stored = fun k => if k = (calls j).object then v else s.stored k := by
  unfold Shared.step
  dsimp only
  split
  · split
    · split <;> exact .inl rfl
    · exact .inl rfl
  · rename_i v hv
    exact .inr ⟨v, hv, rfl⟩
  · exact .inl rfl
  · exact .inl rfl

theorem place_other {before : List Nat} {s : Shared} {i j : Nat} (hij : i ≠ j) (hi : Place objects calls before s i)
    (hj : Place objects calls before s j) : Place objects calls (before ++ [j]) (s.step objects calls j) i := by
  have hc : (before ++ [j]).count i = before.count i := by
    rw [List.count_append, List.count_cons_of_ne (Ne.symm hij)]
    rfl
  unfold Place at hi ⊢
  rw [stage_other hij]
  split
  · rename_i h; rw [h] at hi; rw [hc]; exact hi
  · rename_i v h; rw [h] at hi; rw [hc]; exact hi
  · rename_i h
    rw [h] at hi
    obtain ⟨h1, ⟨a, b, hab, ha, hb⟩, h3, h4, h5⟩ := hi
    refine ⟨hc.trans h1, ⟨a, b ++ [j], by rw [hab]; simp, ha, ?_⟩, h3, h4, ?_⟩
    · simp only [List.mem_append, List.mem_singleton, not_or]
      exact ⟨hb, hij⟩
    · have keep : Latest objects calls (before ++ [j]) i (s.stored (calls i).object) := by
        rcases h5 with h5 | ⟨k, hk, ho, ht, hv, a, b, c, he, h6, h7, h8, h9⟩
        · exact .inl h5
        · refine .inr ⟨k, hk, ho, ht, hv, a, b, c ++ [j], by rw [he]; simp, h6, h7, ?_, h9⟩
          simp only [List.mem_append, List.mem_singleton, not_or]
          exact ⟨h8, hij⟩
      rcases stored_other (objects := objects) (calls := calls) (s := s) (j := j) with hs | ⟨v, hv, hs⟩
      · rw [hs]; exact keep
      · rw [hs]
        dsimp only
        split
        · rename_i hobj
          unfold Place at hj
          rw [hv] at hj
          obtain ⟨hj1, hj2, hj3⟩ := hj
          exact .inr ⟨j, Ne.symm hij, hobj.symm, hj2, hj3, a, b, [], by rw [hab], ha, hb, by simp, by rw [← hab]; exact hj1⟩
        · exact keep
  · rename_i r h
    rw [h] at hi
    rcases hi with hi | ⟨h1, h2, v, b', af, hr, hb, hl⟩
    · exact .inl hi
    · exact .inr ⟨h1, h2, v, b', af ++ [j], hr, by rw [hb]; simp, hl⟩

theorem place_self (hx : ∀ k, ∃ x, objects k = objScheme x) {before : List Nat} {s : Shared} {i : Nat} (hi : Place objects calls before s i) :
    Place objects calls (before ++ [i]) (s.step objects calls i) i := by
  have hc : (before ++ [i]).count i = before.count i + 1 := by
    rw [List.count_append, List.count_cons_self]
    rfl
  cases hs : s.stage i with
  | start =>
    unfold Place at hi
    rw [hs] at hi
    have h0 : before.count i = 0 := hi
    unfold Place Shared.step
    rw [hs]
    dsimp only
    by_cases ht : assignsTag (objects (calls i).object) (calls i).method = true
    · have ha := tags_alone hx (calls := calls) (i := i) ht
      rw [if_pos ht]
      cases hv : toAssign (objects (calls i).object) (calls i).args (calls i).kw with
      | ok v =>
        rw [hv] at ha
        dsimp only
        rw [if_pos rfl]
        exact ⟨by rw [hc, h0], ht, ha⟩
      | error e =>
        rw [hv] at ha
        dsimp only
        rw [if_pos rfl]
        exact .inl ha.symm
    · rw [if_neg ht]
      dsimp only
      rw [if_pos rfl]
      exact .inl rfl
  | assign v =>
    unfold Place at hi
    rw [hs] at hi
    obtain ⟨h1, h2, h3⟩ := hi
    unfold Place Shared.step
    rw [hs]
    dsimp only
    rw [if_pos rfl, if_pos rfl]
    exact ⟨by rw [hc, h1], ⟨before, [], rfl, h1, by simp⟩, h2, ⟨v, h3⟩, .inl h3⟩
  | ret =>
    unfold Place at hi
    rw [hs] at hi
    obtain ⟨h1, h2, h3, h4, h5⟩ := hi
    unfold Place Shared.step
    rw [hs]
    dsimp only
    rw [if_pos rfl]
    exact .inr ⟨h3, h4, _, before, [], rfl, rfl, h5⟩
  | done r =>
    have he : s.step objects calls i = s := by
      unfold Shared.step
      rw [hs]
    rw [he]
    unfold Place at hi ⊢
    rw [hs] at hi ⊢
    rcases hi with hi | ⟨h1, h2, v, b', af, hr, hb, hl⟩
    · exact .inl hi
    · exact .inr ⟨h1, h2, v, b', af ++ [i], hr, by rw [hb]; simp, hl⟩

/-- The invariant holds after every schedule. -/
theorem place_run (hx : ∀ k, ∃ x, objects k = objScheme x) (schedule : List Nat) (i : Nat) :
    Place objects calls schedule (Shared.run objects calls schedule) i := by
  have key : ∀ (rest before : List Nat) (s : Shared), (∀ i, Place objects calls before s i) →
      ∀ i, Place objects calls (before ++ rest) (rest.foldl (Shared.step objects calls) s) i := by
    intro rest
    induction rest with
    | nil => intro before s h i; rw [List.append_nil]; exact h i
    | cons j rest ih =>
      intro before s h
      rw [show before ++ j :: rest = (before ++ [j]) ++ rest by simp]
      refine ih _ _ fun i => ?_
      by_cases hij : i = j
      · subst hij; exact place_self hx (h i)
      · exact place_other hij (h i) (h j)
  exact key schedule [] _ place_init i

end

end Epc.Src
