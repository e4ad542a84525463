/-
Threads that share scheme objects: an invariant of every schedule.
-/
import Verif.Model.Threads

namespace Epc

/-- The outcome of a call on an object nobody else uses. -/
def right (objects : Nat → Scheme) (c : Call Method) : Outcome := ((objects c.1).answer c.2).map some

def IsTag (m : Method) : Prop := ∃ cs f, m = .cpi .tagUri cs f

/-- The outcome belongs to a `CPI.tag_uri` call that another client makes on the same object. -/
def Other (objects : Nat → Scheme) (clients : List (List (Call Method))) (i : Nat) (c : Call Method) (r : Outcome) : Prop :=
  ∃ j calls c', j ≠ i ∧ clients[j]? = some calls ∧ c' ∈ calls ∧ c'.1 = c.1 ∧ IsTag c'.2 ∧ r = right objects c' ∧ ∃ v, r = .ok (some v)

def Fair (objects : Nat → Scheme) (clients : List (List (Call Method))) (i : Nat) (c : Call Method) (r : Outcome) : Prop :=
  r = right objects c ∨ (IsTag c.2 ∧ (∃ v, right objects c = .ok (some v)) ∧ Other objects clients i c r)

/-- Where the body of a call may be. -/
inductive At (objects : Nat → Scheme) (clients : List (List (Call Method))) (stored : Nat → Option Str) (i : Nat) (c : Call Method) :
    Prog Scheme → Prop
  | enter : At objects clients stored i c c.2.body
  | leave (r : Outcome) (h : Fair objects clients i c r) : At objects clients stored i c (.done r)
  | store (v : Str) (ht : IsTag c.2) (hr : right objects c = .ok (some v)) :
      At objects clients stored i c (.store v (.load fun v => .done (.ok v)))
  | load (ht : IsTag c.2) (hr : ∃ v, right objects c = .ok (some v)) (h : Fair objects clients i c (.ok (stored c.1))) :
      At objects clients stored i c (.load fun v => .done (.ok v))

/-- The invariant of thread `i`. -/
structure Good (objects : Nat → Scheme) (clients : List (List (Call Method))) (stored : Nat → Option Str) (i : Nat)
    (t : Thread Scheme Method) : Prop where
  calls : clients[i]? = some (t.log.map Prod.fst ++ (t.current.map Prod.fst).toList ++ t.todo)
  log : ∀ e ∈ t.log, Fair objects clients i e.1 e.2
  current : ∀ c p, t.current = some (c, p) → At objects clients stored i c p

/-- The two kinds of bodies. -/
theorem body_cases (m : Method) : (∃ cs f, m = .cpi .tagUri cs f ∧ m.body = CPI.tagUriBody cs f) ∨
    m.body = .read fun x => .done ((x.answer m).map some) := by
  cases m with
  | cpi out cs f =>
    cases out with
    | tagUri => exact .inl ⟨cs, f, rfl, rfl⟩
    | _ => exact .inr rfl
  | _ => exact .inr rfl

/-- What the first action of a body leads to. -/
theorem enter_at (objects : Nat → Scheme) (clients : List (List (Call Method))) (stored : Nat → Option Str) (i : Nat) (c : Call Method) :
    ∃ k, c.2.body = .read k ∧ At objects clients stored i c (k (objects c.1)) := by
  rcases body_cases c.2 with ⟨cs, f, hm, hb⟩ | hb
  · refine ⟨_, hb, ?_⟩
    have hr : right objects c = ((objects c.1).answer (.cpi .tagUri cs f)).map some := by rw [right, hm]
    cases ho : objects c.1 with
    | cpi x =>
      dsimp only
      rw [ho] at hr
      have ha : (Scheme.cpi x).answer (.cpi .tagUri cs f) = x.tagUri cs f := rfl
      rw [ha, CPI.tagUri] at hr
      cases hs : x.badSerial cs with
      | error e =>
        rw [hs] at hr
        exact .leave _ (.inl hr.symm)
      | ok b =>
        rw [hs] at hr
        cases b with
        | true => exact .leave _ (.inl hr.symm)
        | false => exact .store _ ⟨cs, f, hm⟩ hr
    | _ =>
      dsimp only
      rw [ho] at hr
      exact .leave _ (.inl hr.symm)
  · exact ⟨_, hb, .leave _ (.inl rfl)⟩

theorem Fair.mono {objects : Nat → Scheme} {clients : List (List (Call Method))} {i : Nat} {c : Call Method} {r r' : Outcome}
    (_ : Fair objects clients i c r) (ht : IsTag c.2) (hr : ∃ v, right objects c = .ok (some v)) (ho : Other objects clients i c r') :
    Fair objects clients i c r' := .inr ⟨ht, hr, ho⟩

/-- The action of another thread keeps the invariant of a thread. -/
theorem good_other {objects : Nat → Scheme} {clients : List (List (Call Method))} {stored : Nat → Option Str} {i j : Nat}
    {t s : Thread Scheme Method} (ht : Good objects clients stored i t) (hs : Good objects clients stored j s) (hij : j ≠ i) :
    Good objects clients (World.act Method.body objects stored s).1 i t := by
  refine ⟨ht.calls, ht.log, ?_⟩
  intro c p hc
  have hat := ht.current c p hc
  have same : (World.act Method.body objects stored s).1 = stored ∨
      ∃ c' v k, s.current = some (c', .store v k) ∧
        (World.act Method.body objects stored s).1 = fun o => if o = c'.1 then some v else stored o := by
    unfold World.act
    split
    · split <;> exact .inl rfl
    · exact .inl rfl
    · exact .inl rfl
    · rename_i c' v k h
      exact .inr ⟨c', v, k, h, rfl⟩
    · exact .inl rfl
  rcases same with h | ⟨c', v, k, hcur, h⟩
  · rw [h]; exact hat
  · rw [h]
    cases hat with
    | enter => exact .enter
    | leave r h => exact .leave r h
    | store v ht hr => exact .store v ht hr
    | load hti hr hf =>
      refine .load hti hr ?_
      by_cases ho : c.1 = c'.1
      · simp only [ho, if_true]
        refine hf.mono hti hr ?_
        have hs' := hs.current _ _ hcur
        have key : IsTag c'.2 ∧ right objects c' = .ok (some v) := by
          generalize hp : Prog.store v k = p at hs'
          cases hs' with
          | enter =>
            obtain ⟨k', hk, _⟩ := enter_at objects clients stored j c'
            rw [hk] at hp; cases hp
          | leave r h => cases hp
          | store v' ht' hr' => cases hp; exact ⟨ht', hr'⟩
          | load _ _ _ => cases hp
        refine ⟨j, _, c', hij, hs.calls, ?_, ho.symm, key.1, key.2.symm, v, rfl⟩
        simp [hcur]
      · simp only [ho, if_false]; exact hf

/-- The action of a thread keeps its own invariant. -/
theorem good_self {objects : Nat → Scheme} {clients : List (List (Call Method))} {stored : Nat → Option Str} {i : Nat}
    {t : Thread Scheme Method} (ht : Good objects clients stored i t) :
    Good objects clients (World.act Method.body objects stored t).1 i (World.act Method.body objects stored t).2 := by
  obtain ⟨todo, current, log⟩ := t
  have hcalls := ht.calls
  have hlog := ht.log
  have hcur := ht.current
  dsimp only at hcalls hlog hcur
  match current, todo with
  | none, [] => exact ht
  | none, c :: cs =>
    refine ⟨?_, hlog, ?_⟩
    · simpa [World.act] using hcalls
    · intro c' p h
      simp only [World.act, Option.some.injEq, Prod.mk.injEq] at h
      obtain ⟨rfl, rfl⟩ := h
      exact .enter
  | some (c, .done r), todo =>
    refine ⟨?_, ?_, ?_⟩
    · simpa [World.act] using hcalls
    · intro e he
      simp only [World.act, List.mem_append, List.mem_singleton] at he
      rcases he with he | rfl
      · exact hlog e he
      · have h := hcur c _ rfl
        generalize hp : Prog.done r = p at h
        cases h with
        | enter =>
          obtain ⟨k', hk, _⟩ := enter_at objects clients stored i c
          rw [hk] at hp; cases hp
        | leave r' h' => cases hp; exact h'
        | store _ _ _ => cases hp
        | load _ _ _ => cases hp
    · intro c' p h; simp [World.act] at h
  | some (c, .read k), todo =>
    refine ⟨?_, hlog, ?_⟩
    · simpa [World.act] using hcalls
    · intro c' p h
      simp only [World.act, Option.some.injEq, Prod.mk.injEq] at h
      obtain ⟨rfl, rfl⟩ := h
      show At objects clients stored i c (k (objects c.1))
      have h := hcur c _ rfl
      generalize hp : Prog.read k = p at h
      cases h with
      | enter =>
        obtain ⟨k', hk, hat⟩ := enter_at objects clients stored i c
        rw [hk] at hp; cases hp; exact hat
      | leave r' h' => cases hp
      | store _ _ _ => cases hp
      | load _ _ _ => cases hp
  | some (c, .store v k), todo =>
    refine ⟨?_, hlog, ?_⟩
    · simpa [World.act] using hcalls
    · intro c' p h
      simp only [World.act, Option.some.injEq, Prod.mk.injEq] at h
      obtain ⟨rfl, rfl⟩ := h
      have h := hcur c _ rfl
      generalize hp : Prog.store v k = p at h
      cases h with
      | enter =>
        obtain ⟨k', hk, hat⟩ := enter_at objects clients stored i c
        rw [hk] at hp; cases hp
      | leave r' h' => cases hp
      | store v' ht' hr' =>
        cases hp
        refine .load ht' ⟨_, hr'⟩ (.inl ?_)
        simp [World.act, hr']
      | load _ _ _ => cases hp
  | some (c, .load k), todo =>
    refine ⟨?_, hlog, ?_⟩
    · simpa [World.act] using hcalls
    · intro c' p h
      simp only [World.act, Option.some.injEq, Prod.mk.injEq] at h
      obtain ⟨rfl, rfl⟩ := h
      have h := hcur c _ rfl
      generalize hp : Prog.load k = p at h
      cases h with
      | enter =>
        obtain ⟨k', hk, hat⟩ := enter_at objects clients stored i c
        rw [hk] at hp; cases hp
      | leave r' h' => cases hp
      | store v' ht' hr' => cases hp
      | load ht' hr' hf => cases hp; exact .leave _ hf

/-- The objects never change, no thread appears or disappears. -/
theorem step_objects (w : World Scheme Method) (i : Nat) : (w.step Method.body i).objects = w.objects := by
  unfold World.step; split <;> rfl

theorem good_step {clients : List (List (Call Method))} {w : World Scheme Method} (i : Nat)
    (h : ∀ j t, w.threads[j]? = some t → Good w.objects clients w.stored j t) :
    ∀ j t, (w.step Method.body i).threads[j]? = some t →
      Good (w.step Method.body i).objects clients (w.step Method.body i).stored j t := by
  intro j t hj
  rw [step_objects]
  unfold World.step at hj ⊢
  split at hj
  · exact h j t hj
  · rename_i s h0
    have hs := h i s h0
    dsimp only at hj ⊢
    rw [List.getElem?_set] at hj
    split at hj
    · rename_i hij
      subst hij
      split at hj
      · cases hj; exact good_self hs
      · cases hj
    · rename_i hij
      exact good_other (h j t hj) hs hij

theorem run_good {clients : List (List (Call Method))} : ∀ (sched : List Nat) (w : World Scheme Method),
    (∀ j t, w.threads[j]? = some t → Good w.objects clients w.stored j t) →
    ∀ j t, (w.run Method.body sched).threads[j]? = some t →
      Good (w.run Method.body sched).objects clients (w.run Method.body sched).stored j t
  | [], _, h => h
  | i :: sched, w, h => run_good sched (w.step Method.body i) (good_step i h)

theorem run_objects : ∀ (sched : List Nat) (w : World Scheme Method), (w.run Method.body sched).objects = w.objects
  | [], _ => rfl
  | i :: sched, w => (run_objects sched (w.step Method.body i)).trans (step_objects w i)

theorem start_good (objects : Nat → Scheme) (clients : List (List (Call Method))) :
    ∀ j t, (World.start objects clients).threads[j]? = some t →
      Good (World.start objects clients).objects clients (World.start objects clients).stored j t := by
  intro j t hj
  simp only [World.start, List.getElem?_map, Option.map_eq_some_iff] at hj
  obtain ⟨calls, hc, rfl⟩ := hj
  exact ⟨by simpa using hc, by simp, by simp⟩

/-- The invariant holds after every schedule. -/
theorem schedule_good (objects : Nat → Scheme) (clients : List (List (Call Method))) (sched : List Nat) {j : Nat} {t : Thread Scheme Method}
    (hj : ((World.start objects clients).run Method.body sched).threads[j]? = some t) :
    ∃ stored, Good objects clients stored j t := by
  have h := run_good sched _ (start_good objects clients) j t hj
  rw [run_objects] at h
  exact ⟨_, h⟩

/-- A body that ends after at most `n` actions. -/
inductive Prog.Within {σ : Type} : Nat → Prog σ → Prop
  | done (n : Nat) (r : Outcome) : Within (n + 1) (.done r)
  | read (n : Nat) (k : σ → Prog σ) (h : ∀ x, Within n (k x)) : Within (n + 1) (.read k)
  | store (n : Nat) (v : Str) (k : Prog σ) (h : Within n k) : Within (n + 1) (.store v k)
  | load (n : Nat) (k : Option Str → Prog σ) (h : ∀ v, Within n (k v)) : Within (n + 1) (.load k)

theorem body_within (m : Method) : m.body.Within 4 := by
  rcases body_cases m with ⟨cs, f, _, hb⟩ | hb
  · rw [hb]
    refine .read _ _ fun x => ?_
    split
    · split
      · exact .done _ _
      · exact .done _ _
      · exact .store _ _ _ (.load _ _ fun v => .done _ _)
    · exact .done _ _
  · rw [hb]
    exact .read _ _ fun x => .done _ _

/-- A thread that has finished after at most `n` more actions of its own. -/
def Thread.Within (n : Nat) (t : Thread Scheme Method) : Prop :=
  (t.current = none ∧ 5 * t.todo.length ≤ n) ∨ ∃ c p m, t.current = some (c, p) ∧ p.Within m ∧ 5 * t.todo.length + m ≤ n

theorem within_act {objects : Nat → Scheme} {stored : Nat → Option Str} {n : Nat} {t : Thread Scheme Method} (h : t.Within n) :
    (World.act Method.body objects stored t).2.Within (n - 1) := by
  obtain ⟨todo, current, log⟩ := t
  rcases h with ⟨h0, h1⟩ | ⟨c, p, m, h0, hp, h1⟩
  · dsimp only at h0 h1
    subst h0
    cases todo with
    | nil => exact .inl ⟨rfl, Nat.zero_le _⟩
    | cons c cs =>
      refine .inr ⟨c, _, 4, rfl, body_within c.2, ?_⟩
      simp only [List.length_cons] at h1
      simp only [World.act]
      omega
  · dsimp only at h0 h1
    subst h0
    cases hp with
    | done m r => exact .inl ⟨rfl, by simp only [World.act]; omega⟩
    | read m k h => exact .inr ⟨c, _, m, rfl, h _, by simp only [World.act]; omega⟩
    | store m v k h => exact .inr ⟨c, _, m, rfl, h, by simp only [World.act]; omega⟩
    | load m k h => exact .inr ⟨c, _, m, rfl, h _, by simp only [World.act]; omega⟩

theorem run_within {i : Nat} : ∀ (sched : List Nat) (n : Nat) (w : World Scheme Method) (t : Thread Scheme Method),
    w.threads[i]? = some t → t.Within n →
    ∃ t', (w.run Method.body sched).threads[i]? = some t' ∧ t'.Within (n - sched.count i)
  | [], n, w, t, ht, hn => ⟨t, ht, by simpa using hn⟩
  | j :: sched, n, w, t, ht, hn => by
    by_cases hj : j = i
    · subst hj
      have h1 : (w.step Method.body j).threads[j]? = some (World.act Method.body w.objects w.stored t).2 := by
        obtain ⟨hlt, hget⟩ := List.getElem?_eq_some_iff.1 ht
        unfold World.step
        rw [ht]
        simp [hlt]
      obtain ⟨t', ht', hw⟩ := run_within sched (n - 1) _ _ h1 (within_act hn)
      refine ⟨t', ht', ?_⟩
      rw [List.count_cons_self]
      have : n - (sched.count j + 1) = n - 1 - sched.count j := by omega
      rw [this]; exact hw
    · have h1 : (w.step Method.body j).threads[i]? = some t := by
        unfold World.step
        split
        · exact ht
        · dsimp only
          rw [List.getElem?_set_ne hj]
          exact ht
      obtain ⟨t', ht', hw⟩ := run_within sched n _ _ h1 hn
      refine ⟨t', ht', ?_⟩
      rw [List.count_cons_of_ne hj]
      exact hw

/-- A client whose thread has made five actions per call has finished all its calls. -/
theorem run_finished (objects : Nat → Scheme) (clients : List (List (Call Method))) (sched : List Nat) {i : Nat} {calls : List (Call Method)}
    (hi : clients[i]? = some calls) (hn : 5 * calls.length ≤ sched.count i) :
    ∃ t, ((World.start objects clients).run Method.body sched).threads[i]? = some t ∧ t.todo = [] ∧ t.current = none ∧
      t.log.map Prod.fst = calls := by
  have h0 : (World.start objects clients).threads[i]? = some ⟨calls, none, []⟩ := by
    simp [World.start, hi]
  obtain ⟨t, ht, hw⟩ := run_within sched (5 * calls.length) _ _ h0 (.inl ⟨rfl, Nat.le_refl _⟩)
  obtain ⟨_, hg⟩ := schedule_good objects clients sched ht
  have hz : 5 * calls.length - sched.count i = 0 := by omega
  rw [hz] at hw
  have hfin : t.todo = [] ∧ t.current = none := by
    rcases hw with ⟨h1, h2⟩ | ⟨c, p, m, h1, h2, h3⟩
    · exact ⟨List.eq_nil_of_length_eq_zero (by omega), h1⟩
    · have : m = 0 := by omega
      subst this
      cases h2
  refine ⟨t, ht, hfin.1, hfin.2, ?_⟩
  have := hg.calls
  rw [hi, hfin.1, hfin.2] at this
  simpa using this.symm

/-- Every client always has a thread. -/
theorem run_thread (objects : Nat → Scheme) (clients : List (List (Call Method))) (sched : List Nat) {i : Nat} {calls : List (Call Method)}
    (hi : clients[i]? = some calls) :
    ∃ t, ((World.start objects clients).run Method.body sched).threads[i]? = some t := by
  have h0 : (World.start objects clients).threads[i]? = some ⟨calls, none, []⟩ := by
    simp [World.start, hi]
  obtain ⟨t, ht, _⟩ := run_within sched (5 * calls.length) _ _ h0 (.inl ⟨rfl, Nat.le_refl _⟩)
  exact ⟨t, ht⟩

/-- A log with the right outcomes is determined by its calls. -/
theorem log_eq {objects : Nat → Scheme} {log : List (Call Method × Outcome)} (h : ∀ e ∈ log, e.2 = right objects e.1) :
    log = (log.map Prod.fst).map fun c => (c, right objects c) := by
  induction log with
  | nil => rfl
  | cons e log ih =>
    simp only [List.map_cons, List.cons.injEq]
    refine ⟨?_, ?_⟩
    · rw [← h e (by simp)]
    · simpa using ih fun e he => h e (by simp [he])

end Epc
