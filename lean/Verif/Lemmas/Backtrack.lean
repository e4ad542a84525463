/-
The backtracking engine of Py/Backtrack: it decides the language of a pattern, and the number of its steps
is bounded by the exhaustive search, for which compositional bounds are proved.
-/
import Verif.Py.Backtrack

namespace Epc.Re

theorem _root_.List.flatMap_congr_left' {α β : Type} {l : List α} {f g : α → List β} (h : ∀ t ∈ l, f t = g t) :
    l.flatMap f = l.flatMap g := by
  induction l with
  | nil => rfl
  | cons t l ih =>
    simp only [List.flatMap_cons]
    rw [h t (by simp), ih (fun t ht => h t (List.mem_cons_of_mem _ ht))]

/-! ### Exhaustive search -/

/-- The rests of the text after the ways to match `f` repeatedly. -/
def starWays (f : Str → List Str) : Nat → Str → List Str
  | 0, s => [s]
  | n + 1, s => (f s).flatMap (starWays f n) ++ [s]

/-- The rests of the text after the ways to match a prefix, in the order tried. -/
def ways : Re → Str → List Str
  | .none, _ => []
  | .eps, s => [s]
  | .cls _, [] => []
  | .cls p, c :: s => if p c then [s] else []
  | .seq a b, s => (ways a s).flatMap (ways b)
  | .alt a b, s => ways a s ++ ways b s
  | .star a, s => starWays (ways a) s.length s

def starWork (f : Str → List Str) (w : Str → Nat) : Nat → Str → Nat
  | 0, s => 1 + w s
  | n + 1, s => 1 + w s + ((f s).map (starWork f w n)).sum

/-- The steps it takes to find all ways. -/
def work : Re → Str → Nat
  | .none, _ => 1
  | .eps, _ => 1
  | .cls _, _ => 1
  | .seq a b, s => 1 + work a s + ((ways a s).map (work b)).sum
  | .alt a b, s => 1 + work a s + work b s
  | .star a, s => starWork (ways a) (work a) s.length s

/-- No repetition of something that can be empty. -/
def Proper : Re → Prop
  | .none => True
  | .eps => True
  | .cls _ => True
  | .seq a b => Proper a ∧ Proper b
  | .alt a b => Proper a ∧ Proper b
  | .star a => Proper a ∧ nullable a = false

theorem ways_le (r : Re) (s t : Str) (h : t ∈ ways r s) : t.length ≤ s.length := by
  induction r generalizing s t with
  | none => simp [ways] at h
  | eps => simp [ways] at h; subst h; omega
  | cls p =>
    cases s with
    | nil => simp [ways] at h
    | cons c s =>
      simp only [ways] at h
      split at h
      · simp at h; subst h; simp
      · simp at h
  | seq a b iha ihb =>
    simp only [ways, List.mem_flatMap] at h
    obtain ⟨u, h1, h2⟩ := h
    have := iha _ _ h1
    have := ihb _ _ h2
    omega
  | alt a b iha ihb =>
    simp only [ways, List.mem_append] at h
    rcases h with h | h
    · exact iha _ _ h
    · exact ihb _ _ h
  | star a iha =>
    simp only [ways] at h
    have : ∀ n s, t ∈ starWays (ways a) n s → t.length ≤ s.length := by
      intro n
      induction n with
      | zero => intro s h; simp [starWays] at h; subst h; omega
      | succ n ih =>
        intro s h
        simp only [starWays, List.mem_append, List.mem_flatMap, List.mem_singleton] at h
        rcases h with ⟨u, h1, h2⟩ | h
        · have := ih _ h2
          have := iha _ _ h1
          omega
        · subst h; omega
    exact this _ s h

theorem ways_lt (r : Re) (hn : nullable r = false) (s t : Str) (h : t ∈ ways r s) : t.length < s.length := by
  induction r generalizing s t with
  | none => simp [ways] at h
  | eps => simp [nullable] at hn
  | cls p =>
    cases s with
    | nil => simp [ways] at h
    | cons c s =>
      simp only [ways] at h
      split at h
      · simp at h; subst h; simp
      · simp at h
  | seq a b iha ihb =>
    simp only [ways, List.mem_flatMap] at h
    obtain ⟨u, h1, h2⟩ := h
    have l1 := ways_le _ _ _ h1
    have l2 := ways_le _ _ _ h2
    simp only [nullable, Bool.and_eq_false_iff] at hn
    rcases hn with hn | hn
    · have := iha hn _ _ h1; omega
    · have := ihb hn _ _ h2; omega
  | alt a b iha ihb =>
    simp only [ways, List.mem_append] at h
    simp only [nullable, Bool.or_eq_false_iff] at hn
    rcases h with h | h
    · exact iha hn.1 _ _ h
    · exact ihb hn.2 _ _ h
  | star a iha => simp [nullable] at hn

/-- For a body that consumes, fuel beyond the length changes nothing. -/
theorem starWays_fuel {f : Str → List Str} (hf : ∀ s t, t ∈ f s → t.length < s.length) :
    ∀ n m s, s.length ≤ n → s.length ≤ m → starWays f n s = starWays f m s := by
  have f0 : f [] = [] := by
    cases h' : f [] with
    | nil => rfl
    | cons u l => have := hf [] u (by rw [h']; simp); simp at this
  intro n
  induction n with
  | zero =>
    intro m s h _
    rw [List.length_eq_zero_iff.1 (by omega : s.length = 0)]
    cases m <;> simp [starWays, f0]
  | succ n ih =>
    intro m s h1 h2
    cases m with
    | zero =>
      rw [List.length_eq_zero_iff.1 (by omega : s.length = 0)]
      simp [starWays, f0]
    | succ m =>
      simp only [starWays]
      congr 1
      rw [List.flatMap_congr_left' (fun t ht => ih m t (by have := hf s t ht; omega) (by have := hf s t ht; omega))]

theorem starWork_fuel {f : Str → List Str} {w : Str → Nat} (hf : ∀ s t, t ∈ f s → t.length < s.length) :
    ∀ n m s, s.length ≤ n → s.length ≤ m → starWork f w n s = starWork f w m s := by
  have f0 : f [] = [] := by
    cases h' : f [] with
    | nil => rfl
    | cons u l => have := hf [] u (by rw [h']; simp); simp at this
  intro n
  induction n with
  | zero =>
    intro m s h _
    rw [List.length_eq_zero_iff.1 (by omega : s.length = 0)]
    cases m <;> simp [starWork, f0]
  | succ n ih =>
    intro m s h1 h2
    cases m with
    | zero =>
      rw [List.length_eq_zero_iff.1 (by omega : s.length = 0)]
      simp [starWork, f0]
    | succ m =>
      simp only [starWork]
      congr 2
      exact List.map_congr_left (fun t ht => ih m t (by have := hf s t ht; omega) (by have := hf s t ht; omega))

theorem ways_star {a : Re} (hn : nullable a = false) (s : Str) :
    ways (.star a) s = (ways a s).flatMap (ways (.star a)) ++ [s] := by
  have hf := fun s t => ways_lt a hn s t
  simp only [ways]
  rw [starWays_fuel hf s.length (s.length + 1) s (by omega) (by omega), starWays]
  congr 1
  rw [List.flatMap_congr_left' (fun t ht => starWays_fuel hf s.length t.length t (by have := hf s t ht; omega) (by omega))]

theorem work_star {a : Re} (hn : nullable a = false) (s : Str) :
    work (.star a) s = 1 + work a s + ((ways a s).map (work (.star a))).sum := by
  have hf := fun s t => ways_lt a hn s t
  simp only [work]
  rw [starWork_fuel hf s.length (s.length + 1) s (by omega) (by omega), starWork]
  congr 2
  exact List.map_congr_left (fun t ht => starWork_fuel hf s.length t.length t (by have := hf s t ht; omega) (by omega))

/-! ### The ways are the language -/

theorem mem_ways (r : Re) (hp : Proper r) (s t : Str) : t ∈ ways r s ↔ ∃ x, s = x ++ t ∧ Lang r x := by
  induction r generalizing s t with
  | none => simp [ways, Lang]
  | eps =>
    simp only [ways, Lang, List.mem_singleton]
    constructor
    · rintro rfl; exact ⟨[], rfl, rfl⟩
    · rintro ⟨_, h, rfl⟩; exact h.symm
  | cls p =>
    cases s with
    | nil =>
      simp only [ways, Lang]
      constructor
      · intro h; cases h
      · rintro ⟨x, h, c, _, rfl⟩; cases h
    | cons c s =>
      simp only [ways, Lang]
      constructor
      · intro h
        split at h
        · rename_i hc
          simp only [List.mem_singleton] at h
          exact ⟨[c], by rw [h]; rfl, c, hc, rfl⟩
        · cases h
      · rintro ⟨x, h, d, hd, rfl⟩
        injection h with h1 h2
        rw [h1, if_pos hd]
        rw [h2]; exact List.mem_singleton.2 rfl
  | seq a b iha ihb =>
    simp only [ways, Lang, List.mem_flatMap]
    constructor
    · rintro ⟨u, h1, h2⟩
      obtain ⟨x, rfl, hx⟩ := (iha hp.1 s u).1 h1
      obtain ⟨y, rfl, hy⟩ := (ihb hp.2 u t).1 h2
      exact ⟨x ++ y, by rw [List.append_assoc], x, y, rfl, hx, hy⟩
    · rintro ⟨_, h, x, y, rfl, hx, hy⟩
      exact ⟨y ++ t, (iha hp.1 _ _).2 ⟨x, by rw [h, List.append_assoc], hx⟩, (ihb hp.2 _ _).2 ⟨y, rfl, hy⟩⟩
  | alt a b iha ihb =>
    simp only [ways, Lang, List.mem_append, iha hp.1, ihb hp.2]
    constructor
    · rintro (⟨x, h, hx⟩ | ⟨x, h, hx⟩)
      · exact ⟨x, h, .inl hx⟩
      · exact ⟨x, h, .inr hx⟩
    · rintro ⟨x, h, hx | hx⟩
      · exact .inl ⟨x, h, hx⟩
      · exact .inr ⟨x, h, hx⟩
  | star a iha =>
    simp only [Lang]
    constructor
    · have : ∀ n s, s.length ≤ n → t ∈ ways (.star a) s → ∃ x, s = x ++ t ∧ Star (Lang a) x := by
        intro n
        induction n with
        | zero =>
          intro s hs h
          rw [ways_star hp.2] at h
          simp only [List.mem_append, List.mem_flatMap, List.mem_singleton] at h
          rcases h with ⟨u, h1, _⟩ | h
          · have := ways_lt a hp.2 _ _ h1; omega
          · exact ⟨[], by rw [h]; rfl, .nil⟩
        | succ n ih =>
          intro s hs h
          rw [ways_star hp.2] at h
          simp only [List.mem_append, List.mem_flatMap, List.mem_singleton] at h
          rcases h with ⟨u, h1, h2⟩ | h
          · have := ways_lt a hp.2 _ _ h1
            obtain ⟨x, rfl, hx⟩ := (iha hp.1 s u).1 h1
            obtain ⟨y, rfl, hy⟩ := ih u (by omega) h2
            exact ⟨x ++ y, by rw [List.append_assoc], .cons hx hy⟩
          · exact ⟨[], by rw [h]; rfl, .nil⟩
      exact this s.length s (Nat.le_refl _)
    · rintro ⟨x, rfl, hx⟩
      induction hx with
      | nil => rw [ways_star hp.2]; simp
      | @cons x y hx _ ih =>
        rw [ways_star hp.2]
        simp only [List.mem_append, List.mem_flatMap, List.mem_singleton]
        exact .inl ⟨y ++ t, (iha hp.1 _ _).2 ⟨x, by rw [List.append_assoc], hx⟩, ih⟩

/-! ### Runs of the engine -/

/-- From the stack `k :: st`, the engine finds a match (`b = true`) or drops the task (`b = false`), in at
most `n` steps. -/
def Done (full : Bool) (k : Task) (b : Bool) (n : Nat) : Prop :=
  ∀ st, ∃ m, m ≤ n ∧ 1 ≤ m ∧ ∀ e, btRun full (m + e) (k :: st) = if b then some true else btRun full e st

/-- Cost of trying the tasks of a list up to the first that succeeds. -/
def upTo (b : Str → Bool) (C : Str → Nat) : List Str → Nat
  | [] => 0
  | t :: l => C t + if b t then 0 else upTo b C l

theorem btRun_succ (full : Bool) (n : Nat) (st : List Task) :
    btRun full (n + 1) st = match btStep full st with
      | .inl b => some b
      | .inr st' => btRun full n st' := rfl

theorem Done.mono {full k b n n'} (h : Done full k b n) (hn : n ≤ n') : Done full k b n' := by
  intro st
  obtain ⟨m, h1, h2, h3⟩ := h st
  exact ⟨m, by omega, h2, h3⟩

/-- A step that replaces the task on top. -/
theorem Done.step {full k k' b n} (hs : ∀ st, btStep full (k :: st) = .inr (k' :: st)) (h : Done full k' b n) :
    Done full k b (1 + n) := by
  intro st
  obtain ⟨m, h1, h2, h3⟩ := h st
  refine ⟨m + 1, by omega, by omega, fun e => ?_⟩
  rw [show m + 1 + e = (m + e) + 1 by omega, btRun_succ, hs st]
  exact h3 e

/-- A step that drops the task on top. -/
theorem Done.drop {full k} (hs : ∀ st, btStep full (k :: st) = .inr st) : Done full k false 1 := by
  intro st
  refine ⟨1, by omega, by omega, fun e => ?_⟩
  rw [show 1 + e = e + 1 by omega, btRun_succ, hs st]
  rfl

/-- A step that splits the task on top. -/
theorem Done.fork {full k k1 k2 b1 b2 n1 n2} (hs : ∀ st, btStep full (k :: st) = .inr (k1 :: k2 :: st))
    (h1 : Done full k1 b1 n1) (h2 : Done full k2 b2 n2) :
    Done full k (b1 || b2) (1 + n1 + if b1 then 0 else n2) := by
  intro st
  obtain ⟨m1, l1, p1, e1⟩ := h1 (k2 :: st)
  cases b1 with
  | true =>
    refine ⟨m1 + 1, by simp; omega, by omega, fun e => ?_⟩
    rw [show m1 + 1 + e = (m1 + e) + 1 by omega, btRun_succ, hs st]
    exact e1 e
  | false =>
    obtain ⟨m2, l2, p2, e2⟩ := h2 st
    refine ⟨m1 + m2 + 1, by simp; omega, by omega, fun e => ?_⟩
    rw [show m1 + m2 + 1 + e = (m1 + (m2 + e)) + 1 by omega, btRun_succ, hs st]
    have := e1 (m2 + e)
    simp only [Bool.false_eq_true, if_false] at this
    show btRun full (m1 + (m2 + e)) (k1 :: k2 :: st) = _
    rw [this, e2]
    rfl

theorem upTo_append (b : Str → Bool) (C : Str → Nat) (l1 l2 : List Str) :
    upTo b C (l1 ++ l2) = upTo b C l1 + if l1.any b then 0 else upTo b C l2 := by
  induction l1 with
  | nil => simp [upTo]
  | cons t l ih =>
    simp only [List.cons_append, upTo, ih, List.any_cons]
    by_cases hb : b t = true
    · simp only [hb, if_true, Bool.true_or]
    · rw [Bool.not_eq_true] at hb
      simp only [hb, Bool.false_eq_true, if_false, Bool.false_or]; omega

/-- The cost of a sequence of tasks that each cost `w t` and then the tasks of `f t`. -/
theorem upTo_flatMap (f : Str → List Str) (w : Str → Nat) (b : Str → Bool) (C : Str → Nat) (l : List Str) :
    upTo (fun t => (f t).any b) (fun t => w t + upTo b C (f t)) l ≤ (l.map w).sum + upTo b C (l.flatMap f) := by
  induction l with
  | nil => simp [upTo]
  | cons t l ih =>
    simp only [upTo, List.map_cons, List.sum_cons, List.flatMap_cons, upTo_append]
    by_cases hb : (f t).any b = true
    · simp only [hb, if_true]; omega
    · rw [Bool.not_eq_true] at hb
      simp only [hb, Bool.false_eq_true, if_false]; omega

theorem upTo_congr {b b' : Str → Bool} {C C' : Str → Nat} {l : List Str}
    (h : ∀ t ∈ l, b t = b' t ∧ C t = C' t) : upTo b C l = upTo b' C' l := by
  induction l with
  | nil => rfl
  | cons t l ih =>
    simp only [upTo, h t (by simp), ih (fun t ht => h t (List.mem_cons_of_mem _ ht))]

/-- The engine tries the ways of the first pattern with what is left to do, up to the first success. -/
theorem Done.pattern (full : Bool) (r : Re) (hp : Proper r) (k : List Re) (b : Str → Bool) (C : Str → Nat) (s : Str)
    (h : ∀ t ∈ ways r s, Done full (k, t) (b t) (C t)) :
    Done full (r :: k, s) ((ways r s).any b) (work r s + upTo b C (ways r s)) := by
  induction r generalizing k b C s with
  | none => exact Done.drop (fun st => rfl)
  | eps =>
    have h1 := h s (by simp [ways])
    have := Done.step (k := (Re.eps :: k, s)) (fun st => rfl) h1
    simpa [ways, work, upTo] using this
  | cls p =>
    cases s with
    | nil => exact Done.drop (fun st => rfl)
    | cons c s =>
      cases hc : p c with
      | false =>
        simp only [ways, hc]
        exact Done.drop (fun st => by simp [btStep, hc])
      | true =>
        simp only [ways, hc, if_true] at h ⊢
        have := Done.step (k := (Re.cls p :: k, c :: s)) (fun st => by simp [btStep, hc]) (h s (by simp))
        simpa [work, upTo] using this
  | seq a b' iha ihb =>
    have hb : ∀ t ∈ ways a s, Done full (b' :: k, t) ((ways b' t).any b) (work b' t + upTo b C (ways b' t)) :=
      fun t ht => ihb hp.2 k b C t (fun u hu => h u (by simp only [ways, List.mem_flatMap]; exact ⟨t, ht, hu⟩))
    have ha := iha hp.1 (b' :: k) _ _ s hb
    have := Done.step (k := (Re.seq a b' :: k, s)) (fun st => rfl) ha
    have e : (ways a s).any (fun t => (ways b' t).any b) = (ways (.seq a b') s).any b := by
      simp only [ways, List.any_flatMap]
    rw [e] at this
    refine this.mono ?_
    have := upTo_flatMap (ways b') (work b') b C (ways a s)
    simp only [work, ways]
    omega
  | alt a b' iha ihb =>
    have ha := iha hp.1 k b C s (fun t ht => h t (by simp only [ways, List.mem_append]; exact .inl ht))
    have hb := ihb hp.2 k b C s (fun t ht => h t (by simp only [ways, List.mem_append]; exact .inr ht))
    have := Done.fork (k := (Re.alt a b' :: k, s)) (fun st => rfl) ha hb
    simp only [ways, List.any_append, work, upTo_append]
    refine this.mono ?_
    cases (ways a s).any b
    · simp only [Bool.false_eq_true, if_false]; omega
    · simp only [if_true]; omega
  | star a iha =>
    have key : ∀ n s, s.length ≤ n → (∀ t ∈ ways (.star a) s, Done full (k, t) (b t) (C t)) →
        Done full (.star a :: k, s) ((ways (.star a) s).any b)
          (work (.star a) s + upTo b C (ways (.star a) s)) := by
      intro n
      induction n with
      | zero =>
        intro s hs h
        have e : ways a s = [] := by
          cases h' : ways a s with
          | nil => rfl
          | cons u l => have := ways_lt a hp.2 s u (by rw [h']; simp); omega
        have hb : ∀ t ∈ ways a s, Done full (.star a :: k, t) false 0 := by intro t ht; rw [e] at ht; cases ht
        have ha := iha hp.1 (.star a :: k) (fun _ => false) (fun _ => 0) s hb
        have hk := h s (by rw [ways_star hp.2]; simp)
        have := Done.fork (k := (Re.star a :: k, s)) (fun st => rfl) ha hk
        rw [ways_star hp.2, work_star hp.2]
        simp only [e, List.any_nil, Bool.false_or, upTo] at this
        simpa [e, upTo, Nat.add_assoc] using this
      | succ n ih =>
        intro s hs h
        have hb : ∀ t ∈ ways a s, Done full (.star a :: k, t) ((ways (.star a) t).any b)
            (work (.star a) t + upTo b C (ways (.star a) t)) :=
          fun t ht => ih t (by have := ways_lt a hp.2 s t ht; omega) (fun u hu => h u (by
            rw [ways_star hp.2, List.mem_append, List.mem_flatMap]; exact .inl ⟨t, ht, hu⟩))
        have ha := iha hp.1 (.star a :: k) _ _ s hb
        have hk := h s (by rw [ways_star hp.2]; simp)
        have := Done.fork (k := (Re.star a :: k, s)) (fun st => rfl) ha hk
        rw [ways_star hp.2, work_star hp.2]
        have e : (ways a s).any (fun t => (ways (.star a) t).any b) = ((ways a s).flatMap (ways (.star a))).any b := by
          simp only [List.any_flatMap]
        rw [e] at this
        simp only [List.any_append, upTo_append, List.any_cons, List.any_nil, Bool.or_false]
        refine this.mono ?_
        have := upTo_flatMap (ways (.star a)) (work (.star a)) b C (ways a s)
        cases ((ways a s).flatMap (ways (.star a))).any b
        · simp only [Bool.false_eq_true, if_false, upTo]; omega
        · simp only [if_true]; omega
    exact key s.length s (Nat.le_refl _) h

theorem Done.end (full : Bool) (s : Str) : Done full ([], s) (!full || s.isEmpty) 1 := by
  intro st
  refine ⟨1, by omega, by omega, fun e => ?_⟩
  rw [show 1 + e = e + 1 by omega, btRun_succ]
  cases full <;> cases s <;> rfl

theorem upTo_le (b : Str → Bool) (C : Nat) (l : List Str) : upTo b (fun _ => C) l ≤ l.length * C := by
  induction l with
  | nil => simp [upTo]
  | cons t l ih =>
    simp only [upTo, List.length_cons, Nat.add_mul, Nat.one_mul]
    split <;> omega

/-- Verdict of a run that has at least the budget of the exhaustive search. -/
theorem backtrack_eq (full : Bool) (r : Re) (s : Str) (n : Nat) {b : Bool} {m : Nat}
    (h : Done full ([r], s) b m) (hn : m + 1 ≤ n) : backtrack full r s n = some b := by
  obtain ⟨m', h1, h2, h3⟩ := h []
  have := h3 (n - m')
  rw [show m' + (n - m') = n by omega] at this
  unfold backtrack
  rw [this]
  cases b
  · rw [show n - m' = (n - m' - 1) + 1 by omega]; rfl
  · rfl

theorem backtrack_full (r : Re) (hp : Proper r) (s : Str) (n : Nat)
    (hn : work r s + (ways r s).length + 1 ≤ n) : backtrack true r s n = some (r.fullmatch s) := by
  have := Done.pattern true r hp [] (fun t => !true || t.isEmpty) (fun _ => 1) s (fun t _ => Done.end true t)
  have hu := upTo_le (fun t => !true || t.isEmpty) 1 (ways r s)
  rw [backtrack_eq true r s n this (by omega)]
  congr 1
  rw [Bool.eq_iff_iff, Re.fullmatch_iff, List.any_eq_true]
  constructor
  · rintro ⟨t, ht, he⟩
    have : t = [] := by simpa using he
    subst this
    obtain ⟨x, hx, hl⟩ := (mem_ways r hp s []).1 ht
    rw [hx, List.append_nil]; exact hl
  · intro hl
    exact ⟨[], (mem_ways r hp s []).2 ⟨s, by simp, hl⟩, rfl⟩

/-! ### Bounds -/

/-- At most `w · (|s|+1)^e` ways, at most `c · (|s|+1)` steps to find them. -/
def Bd (e w c : Nat) (r : Re) : Prop :=
  Proper r ∧ ∀ s, (ways r s).length ≤ w * (s.length + 1) ^ e ∧ work r s ≤ c * (s.length + 1)

theorem sum_le {α : Type} (f : α → Nat) (m : Nat) (l : List α) (h : ∀ t ∈ l, f t ≤ m) : (l.map f).sum ≤ l.length * m := by
  induction l with
  | nil => simp
  | cons t l ih =>
    have := ih (fun t ht => h t (List.mem_cons_of_mem _ ht))
    have := h t (by simp)
    simp only [List.map_cons, List.sum_cons, List.length_cons, Nat.add_mul, Nat.one_mul]
    omega

theorem pow_mono (e : Nat) {a b : Nat} (h : a ≤ b) : (a + 1) ^ e ≤ (b + 1) ^ e := Nat.pow_le_pow_left (by omega) e

theorem Bd.eps : Bd 0 1 1 .eps := ⟨trivial, fun s => ⟨by simp [ways], by simp [work]⟩⟩

theorem Bd.cls (p : Char → Bool) : Bd 0 1 1 (.cls p) := by
  refine ⟨trivial, fun s => ⟨?_, by simp [work]⟩⟩
  cases s with
  | nil => simp [ways]
  | cons c s => simp only [ways]; split <;> simp

theorem Bd.chr (c : Char) : Bd 0 1 1 (Re.chr c) := Bd.cls _

theorem Bd.seq {e w1 c1 w2 c2 : Nat} {a b : Re} (ha : Bd 0 w1 c1 a) (hb : Bd e w2 c2 b) :
    Bd e (w1 * w2) (1 + c1 + w1 * c2) (.seq a b) := by
  refine ⟨⟨ha.1, hb.1⟩, fun s => ⟨?_, ?_⟩⟩
  · simp only [ways, List.length_flatMap]
    have h1 := (ha.2 s).1
    simp only [Nat.pow_zero, Nat.mul_one] at h1
    refine Nat.le_trans (sum_le _ (w2 * (s.length + 1) ^ e) _ (fun t ht => ?_)) ?_
    · exact Nat.le_trans (hb.2 t).1 (Nat.mul_le_mul_left _ (pow_mono e (ways_le a s t ht)))
    · rw [Nat.mul_assoc]; exact Nat.mul_le_mul_right _ h1
  · simp only [work]
    have h1 := (ha.2 s).1
    simp only [Nat.pow_zero, Nat.mul_one] at h1
    have h2 := (ha.2 s).2
    have h3 := sum_le (work b) (c2 * (s.length + 1)) (ways a s) (fun t ht =>
      Nat.le_trans (hb.2 t).2 (Nat.mul_le_mul_left _ (by have := ways_le a s t ht; omega)))
    have h4 : (ways a s).length * (c2 * (s.length + 1)) ≤ w1 * (c2 * (s.length + 1)) := Nat.mul_le_mul_right _ h1
    rw [Nat.add_mul, Nat.add_mul, Nat.mul_assoc]
    omega

theorem Bd.alt {e w1 c1 w2 c2 : Nat} {a b : Re} (ha : Bd e w1 c1 a) (hb : Bd e w2 c2 b) :
    Bd e (w1 + w2) (1 + c1 + c2) (.alt a b) := by
  refine ⟨⟨ha.1, hb.1⟩, fun s => ⟨?_, ?_⟩⟩
  · simp only [ways, List.length_append, Nat.add_mul]
    have := (ha.2 s).1
    have := (hb.2 s).1
    omega
  · simp only [work, Nat.add_mul]
    have := (ha.2 s).2
    have := (hb.2 s).2
    omega

theorem Bd.up {w c : Nat} {a : Re} (ha : Bd 0 w c a) : Bd 1 w c a := by
  refine ⟨ha.1, fun s => ⟨Nat.le_trans (ha.2 s).1 ?_, (ha.2 s).2⟩⟩
  exact Nat.mul_le_mul_left _ (by simp)

/-- A single item of a repetition: matches in at most one way, which consumes something, in a bounded number
of steps. -/
def Item (d : Nat) (a : Re) : Prop :=
  Proper a ∧ nullable a = false ∧ ∀ s, (ways a s).length ≤ 1 ∧ work a s ≤ d

theorem Item.bd {d : Nat} {a : Re} (h : Item d a) : Bd 0 1 d a :=
  ⟨h.1, fun s => ⟨by simpa using (h.2.2 s).1, Nat.le_trans (h.2.2 s).2 (Nat.le_mul_of_pos_right _ (by omega))⟩⟩

theorem Item.cls (p : Char → Bool) : Item 1 (.cls p) := by
  refine ⟨trivial, rfl, fun s => ⟨?_, by simp [work]⟩⟩
  cases s with
  | nil => simp [ways]
  | cons c s => simp only [ways]; split <;> simp

theorem Item.star {d : Nat} {a : Re} (h : Item d a) : Bd 1 1 (1 + d) (.star a) := by
  refine ⟨⟨h.1, h.2.1⟩, ?_⟩
  have : ∀ n s, s.length ≤ n → (ways (.star a) s).length ≤ s.length + 1 ∧
      work (.star a) s ≤ (1 + d) * (s.length + 1) := by
    intro n
    induction n with
    | zero =>
      intro s hs
      have e : ways a s = [] := by
        cases h' : ways a s with
        | nil => rfl
        | cons u l => have := ways_lt a h.2.1 s u (by rw [h']; simp); omega
      have h2 := (h.2.2 s).2
      rw [ways_star h.2.1, work_star h.2.1, e]
      have : s.length = 0 := by omega
      simp only [List.flatMap_nil, List.nil_append, List.length_singleton, List.map_nil, List.sum_nil, this]
      omega
    | succ n ih =>
      intro s hs
      rw [ways_star h.2.1, work_star h.2.1]
      have h1 := (h.2.2 s).1
      have h2 := (h.2.2 s).2
      cases h' : ways a s with
      | nil =>
        simp only [List.flatMap_nil, List.nil_append, List.length_singleton, List.map_nil, List.sum_nil, Nat.mul_add]
        omega
      | cons t l =>
        rw [h'] at h1
        simp only [List.length_cons] at h1
        obtain rfl : l = [] := List.length_eq_zero_iff.1 (by omega)
        have hlt := ways_lt a h.2.1 s t (by rw [h']; simp)
        have hi := ih t (by omega)
        have hm : (1 + d) * (t.length + 1) ≤ (1 + d) * s.length := Nat.mul_le_mul_left _ (by omega)
        simp only [List.flatMap_cons, List.flatMap_nil, List.append_nil, List.length_append, List.length_singleton,
          List.map_cons, List.map_nil, List.sum_cons, List.sum_nil, Nat.mul_add] at hi hm ⊢
        omega
  intro s
  have := this s.length s (Nat.le_refl _)
  simpa using this

theorem Item.plus {d : Nat} {a : Re} (h : Item d a) : Bd 1 1 (1 + d + (1 + d)) (Re.plus a) := by
  have := Bd.seq h.bd h.star
  simpa [Re.plus] using this

/-- The text starts with `c`. -/
def heads (c : Char) (s : Str) : Bool := match s with | [] => false | d :: _ => d == c

/-- Before the character `c`: at most `w` of the ways lead to a rest that starts with `c`. -/
def Before (c : Char) (w v d : Nat) (a : Re) : Prop :=
  Proper a ∧ ∀ s, ((ways a s).filter (heads c)).length ≤ w ∧ (ways a s).length ≤ v * (s.length + 1) ∧
    work a s ≤ d * (s.length + 1)

theorem Bd.before {w d : Nat} {a : Re} (c : Char) (h : Bd 0 w d a) : Before c w w d a := by
  refine ⟨h.1, fun s => ⟨?_, ?_, (h.2 s).2⟩⟩
  · have := (h.2 s).1
    simp only [Nat.pow_zero, Nat.mul_one] at this
    exact Nat.le_trans (List.length_filter_le ..) this
  · exact (h.up.2 s).1 |> fun h => by simpa using h

/-- The character `c` after something that can be followed by it in at most `w` ways. -/
theorem Before.seq {c : Char} {e w v d w2 c2 : Nat} {a b : Re} (ha : Before c w v d a) (hb : Bd e w2 c2 b) :
    Bd e (w * w2) (1 + d + v * 2 + w * c2) (.seq a (.seq (Re.chr c) b)) := by
  have hw : ∀ t, ways (.seq (Re.chr c) b) t = if heads c t then ways b t.tail else [] := by
    intro t
    cases t with
    | nil => simp [ways, Re.chr, heads]
    | cons x t =>
      by_cases hx : x = c
      · simp [ways, Re.chr, heads, hx]
      · simp [ways, Re.chr, heads, hx]
  have hk : ∀ t, work (.seq (Re.chr c) b) t = 2 + if heads c t then work b t.tail else 0 := by
    intro t
    cases t with
    | nil => simp [work, ways, Re.chr, heads]
    | cons x t =>
      by_cases hx : x = c
      · simp [work, ways, Re.chr, heads, hx]
      · simp [work, ways, Re.chr, heads, hx]
  refine ⟨⟨ha.1, trivial, hb.1⟩, fun s => ?_⟩
  have key : ∀ l : List Str, (∀ t ∈ l, t.length ≤ s.length) →
      (l.flatMap (ways (.seq (Re.chr c) b))).length ≤ (l.filter (heads c)).length * (w2 * (s.length + 1) ^ e) ∧
      (l.map (work (.seq (Re.chr c) b))).sum ≤ l.length * 2 + (l.filter (heads c)).length * (c2 * (s.length + 1)) := by
    intro l hl
    induction l with
    | nil => simp
    | cons t l ih =>
      have ih := ih (fun t ht => hl t (List.mem_cons_of_mem _ ht))
      have ht := hl t (by simp)
      have h1 : (ways b t.tail).length ≤ w2 * (s.length + 1) ^ e :=
        Nat.le_trans (hb.2 _).1 (Nat.mul_le_mul_left _ (pow_mono e (by simp only [List.length_tail]; omega)))
      have h2 : work b t.tail ≤ c2 * (s.length + 1) :=
        Nat.le_trans (hb.2 _).2 (Nat.mul_le_mul_left _ (by simp only [List.length_tail]; omega))
      rw [List.flatMap_cons, List.map_cons, List.sum_cons, List.length_append, List.filter_cons, hw t, hk t]
      by_cases hh : heads c t = true
      · simp only [if_pos hh, List.length_cons, Nat.add_mul, Nat.one_mul]
        omega
      · simp only [if_neg hh, List.length_cons, List.length_nil]
        omega
  have k := key (ways a s) (fun t ht => ways_le a s t ht)
  obtain ⟨h1, h2, h3⟩ := ha.2 s
  constructor
  · rw [show ways (.seq a (.seq (Re.chr c) b)) s = (ways a s).flatMap (ways (.seq (Re.chr c) b)) from rfl]
    refine Nat.le_trans k.1 ?_
    rw [Nat.mul_assoc]
    exact Nat.mul_le_mul_right _ h1
  · rw [show work (.seq a (.seq (Re.chr c) b)) s =
      1 + work a s + ((ways a s).map (work (.seq (Re.chr c) b))).sum from rfl]
    have h4 : ((ways a s).filter (heads c)).length * (c2 * (s.length + 1)) ≤ w * (c2 * (s.length + 1)) :=
      Nat.mul_le_mul_right _ h1
    have h5 : (ways a s).length * 2 ≤ v * 2 * (s.length + 1) := by
      rw [Nat.mul_assoc, Nat.mul_comm 2, ← Nat.mul_assoc]; exact Nat.mul_le_mul_right _ h2
    rw [Nat.add_mul, Nat.add_mul, Nat.add_mul, Nat.mul_assoc w]
    omega

/-- A repetition of items, none of which starts with `c`. -/
theorem Item.starBefore {d : Nat} {a : Re} (c : Char) (h : Item d a) (hc : ∀ s, ways a (c :: s) = []) :
    Before c 1 1 (1 + d) (.star a) := by
  refine ⟨⟨h.1, h.2.1⟩, fun s => ⟨?_, ?_, (h.star.2 s).2⟩⟩
  · have : ∀ n s, s.length ≤ n → ((ways (.star a) s).filter (heads c)).length ≤ 1 := by
      intro n
      induction n with
      | zero =>
        intro s hs
        have e : ways a s = [] := by
          cases h' : ways a s with
          | nil => rfl
          | cons u l => have := ways_lt a h.2.1 s u (by rw [h']; simp); omega
        rw [ways_star h.2.1, e]
        exact List.length_filter_le ..
      | succ n ih =>
        intro s hs
        rw [ways_star h.2.1]
        cases h' : ways a s with
        | nil => exact List.length_filter_le ..
        | cons t l =>
          have h1 := (h.2.2 s).1
          rw [h'] at h1
          simp only [List.length_cons] at h1
          obtain rfl : l = [] := List.length_eq_zero_iff.1 (by omega)
          have hlt := ways_lt a h.2.1 s t (by rw [h']; simp)
          have hi := ih t (by omega)
          have hh : heads c s = false := by
            cases s with
            | nil => rfl
            | cons x s =>
              by_cases hx : x = c
              · rw [hx, hc s] at h'; cases h'
              · simp [heads, hx]
          simp only [List.flatMap_cons, List.flatMap_nil, List.append_nil, List.filter_append, List.filter_cons, hh,
            List.filter_nil]
          simpa using hi
    exact this s.length s (Nat.le_refl _)
  · have := (h.star.2 s).1
    simpa using this

theorem Bd.seqBefore {c : Char} {w1 c1 w v d : Nat} {a b : Re} (ha : Bd 0 w1 c1 a) (hb : Before c w v d b) :
    Before c (w1 * w) (w1 * v) (1 + c1 + w1 * d) (.seq a b) := by
  refine ⟨⟨ha.1, hb.1⟩, fun s => ?_⟩
  have h1 := (ha.2 s).1
  simp only [Nat.pow_zero, Nat.mul_one] at h1
  refine ⟨?_, ?_, ?_⟩
  · simp only [ways, List.filter_flatMap, List.length_flatMap]
    exact Nat.le_trans (sum_le _ w _ (fun t _ => (hb.2 t).1)) (Nat.mul_le_mul_right _ h1)
  · simp only [ways, List.length_flatMap]
    refine Nat.le_trans (sum_le _ (v * (s.length + 1)) _ (fun t ht => ?_)) ?_
    · exact Nat.le_trans (hb.2 t).2.1 (Nat.mul_le_mul_left _ (by have := ways_le a s t ht; omega))
    · rw [Nat.mul_assoc]; exact Nat.mul_le_mul_right _ h1
  · simp only [work]
    have h2 := (ha.2 s).2
    have h3 := sum_le (work b) (d * (s.length + 1)) (ways a s) (fun t ht =>
      Nat.le_trans (hb.2 t).2.2 (Nat.mul_le_mul_left _ (by have := ways_le a s t ht; omega)))
    have h4 : (ways a s).length * (d * (s.length + 1)) ≤ w1 * (d * (s.length + 1)) := Nat.mul_le_mul_right _ h1
    rw [Nat.add_mul, Nat.add_mul, Nat.mul_assoc]
    omega

theorem Before.alt {c : Char} {w1 v1 d1 w2 v2 d2 : Nat} {a b : Re} (ha : Before c w1 v1 d1 a) (hb : Before c w2 v2 d2 b) :
    Before c (w1 + w2) (v1 + v2) (1 + d1 + d2) (.alt a b) := by
  refine ⟨⟨ha.1, hb.1⟩, fun s => ?_⟩
  obtain ⟨h1, h2, h3⟩ := ha.2 s
  obtain ⟨h4, h5, h6⟩ := hb.2 s
  simp only [ways, work, List.filter_append, List.length_append, Nat.add_mul]
  omega

/-! ### Compound patterns -/

theorem Bd.lit : ∀ u : Str, Bd 0 1 (2 * u.length + 1) (Re.lit u)
  | [] => Bd.eps
  | [c] => by
    have := Bd.chr c
    exact ⟨this.1, fun s => ⟨(this.2 s).1, Nat.le_trans (this.2 s).2 (Nat.mul_le_mul_right _ (by omega))⟩⟩
  | c :: d :: u => by
    have h := Bd.seq (Bd.chr c) (Bd.lit (d :: u))
    refine ⟨h.1, fun s => ⟨(h.2 s).1, Nat.le_trans (h.2 s).2 (Nat.mul_le_mul_right _ ?_)⟩⟩
    simp only [List.length_cons]
    omega

theorem Bd.rep (p : Char → Bool) : ∀ n, Bd 0 1 (2 * n + 1) (Re.rep (.cls p) n)
  | 0 => Bd.eps
  | n + 1 => by
    have h := Bd.seq (Bd.cls p) (Bd.rep p n)
    exact ⟨h.1, fun s => ⟨(h.2 s).1, Nat.le_trans (h.2 s).2 (Nat.mul_le_mul_right _ (by omega))⟩⟩

theorem Bd.upto (p : Char → Bool) : ∀ n, Bd 0 (n + 1) (4 * n + 1) (Re.upto (.cls p) n)
  | 0 => Bd.eps
  | n + 1 => by
    have h := Bd.alt Bd.eps (Bd.seq (Bd.cls p) (Bd.upto p n))
    refine ⟨h.1, fun s => ⟨Nat.le_trans (h.2 s).1 ?_, Nat.le_trans (h.2 s).2 (Nat.mul_le_mul_right _ (by omega))⟩⟩
    exact Nat.mul_le_mul_right _ (by omega)

theorem Bd.range (p : Char → Bool) (m n : Nat) :
    Bd 0 (n - m + 1) (1 + (2 * m + 1) + (4 * (n - m) + 1)) (Re.range (.cls p) m n) := by
  have h := Bd.seq (Bd.rep p m) (Bd.upto p (n - m))
  simpa [Re.range] using h

theorem Bd.run {r : Re} {e w c K : Nat} (h : Bd e w c r) (he : e ≤ 1) (hK : w + c + 1 ≤ K) (s : Str) :
    backtrack true r s (K * (s.length + 1)) = some (r.fullmatch s) := by
  refine backtrack_full r h.1 s _ ?_
  obtain ⟨h1, h2⟩ := h.2 s
  have h3 : (s.length + 1) ^ e ≤ s.length + 1 := by
    rcases (by omega : e = 0 ∨ e = 1) with rfl | rfl <;> simp
  have h4 : w * (s.length + 1) ^ e ≤ w * (s.length + 1) := Nat.mul_le_mul_left _ h3
  have h5 : (w + c + 1) * (s.length + 1) ≤ K * (s.length + 1) := Nat.mul_le_mul_right _ hK
  rw [Nat.add_mul, Nat.add_mul] at h5
  omega

theorem Item.plusBefore {d : Nat} {a : Re} (c : Char) (h : Item d a) (hc : ∀ s, ways a (c :: s) = []) :
    Before c (1 * 1) (1 * 1) (1 + d + 1 * (1 + d)) (Re.plus a) := h.bd.seqBefore (h.starBefore c hc)

/-! ### Prefix matching, which stops at the first success -/

theorem upTo_le2 (b : Str → Bool) (C : Str → Nat) (m1 m2 : Nat) (l : List Str)
    (h1 : ∀ t ∈ l, b t = false → C t ≤ m1) (h2 : ∀ t ∈ l, b t = true → C t ≤ m2) :
    upTo b C l ≤ l.length * m1 + m2 := by
  induction l with
  | nil => simp [upTo]
  | cons t l ih =>
    have ih := ih (fun t ht => h1 t (List.mem_cons_of_mem _ ht)) (fun t ht => h2 t (List.mem_cons_of_mem _ ht))
    simp only [upTo, List.length_cons, Nat.add_mul, Nat.one_mul]
    by_cases hb : b t = true
    · have := h2 t (by simp) hb
      simp only [hb, if_true]; omega
    · rw [Bool.not_eq_true] at hb
      have := h1 t (by simp) hb
      simp only [hb, Bool.false_eq_true, if_false]; omega

theorem any_ways_prefix (r : Re) (hp : Proper r) (s : Str) : (ways r s).any (fun _ => true) = r.matchPrefix s := by
  rw [Bool.eq_iff_iff, Re.matchPrefix_iff, List.any_eq_true]
  constructor
  · rintro ⟨t, ht, -⟩
    obtain ⟨x, hx, hl⟩ := (mem_ways r hp s t).1 ht
    exact ⟨x, t, hx, hl⟩
  · rintro ⟨x, t, hx, hl⟩
    exact ⟨t, (mem_ways r hp s t).2 ⟨x, hx, hl⟩, rfl⟩

/-- A pattern at the end of a prefix match. -/
theorem Done.prefix (r : Re) (hp : Proper r) (s : Str) :
    Done false ([r], s) (r.matchPrefix s) (work r s + 1) := by
  have := Done.pattern false r hp [] (fun t => !false || t.isEmpty) (fun _ => 1) s (fun t _ => Done.end false t)
  have e : (fun t : Str => !false || t.isEmpty) = (fun _ => true) := by funext t; simp
  rw [e] at this
  rw [any_ways_prefix r hp s] at this
  refine this.mono ?_
  have := upTo_le2 (fun _ => true) (fun _ => 1) 0 1 (ways r s) (fun _ _ h => by cases h) (fun _ _ _ => by omega)
  omega

theorem Bd.runPrefix {r : Re} {e w c K : Nat} (h : Bd e w c r) (hK : c + 2 ≤ K) (s : Str) :
    backtrack false r s (K * (s.length + 1)) = some (r.matchPrefix s) := by
  refine backtrack_eq false r s _ (Done.prefix r h.1 s) ?_
  have h2 := (h.2 s).2
  have h5 : (c + 2) * (s.length + 1) ≤ K * (s.length + 1) := Nat.mul_le_mul_right _ hK
  rw [Nat.add_mul] at h5
  omega

theorem matchPrefix_star_cons (a : Re) (s : Str) : (Re.star a).matchPrefix s = true :=
  (Re.matchPrefix_iff _ s).2 ⟨[], s, rfl, .nil⟩

/-! ### Patterns without repetition: bounds that do not depend on the text -/

/-- At most `w` ways and at most `c` steps to find them, whatever the text. -/
def Fin (w c : Nat) (r : Re) : Prop := Proper r ∧ ∀ s, (ways r s).length ≤ w ∧ work r s ≤ c

theorem Fin.mono {w c w' c' : Nat} {r : Re} (h : Fin w c r) (hw : w ≤ w') (hc : c ≤ c') : Fin w' c' r :=
  ⟨h.1, fun s => ⟨Nat.le_trans (h.2 s).1 hw, Nat.le_trans (h.2 s).2 hc⟩⟩

theorem Fin.eps : Fin 1 1 .eps := ⟨trivial, fun s => ⟨by simp [ways], by simp [work]⟩⟩

theorem Fin.cls (p : Char → Bool) : Fin 1 1 (.cls p) := by
  refine ⟨trivial, fun s => ⟨?_, by simp [work]⟩⟩
  cases s with
  | nil => simp [ways]
  | cons c s => simp only [ways]; split <;> simp

theorem Fin.seq {w1 c1 w2 c2 : Nat} {a b : Re} (ha : Fin w1 c1 a) (hb : Fin w2 c2 b) :
    Fin (w1 * w2) (1 + c1 + w1 * c2) (.seq a b) := by
  refine ⟨⟨ha.1, hb.1⟩, fun s => ?_⟩
  obtain ⟨h1, h2⟩ := ha.2 s
  constructor
  · simp only [ways, List.length_flatMap]
    exact Nat.le_trans (sum_le _ w2 _ (fun t _ => (hb.2 t).1)) (Nat.mul_le_mul_right _ h1)
  · simp only [work]
    have h3 := sum_le (work b) c2 (ways a s) (fun t _ => (hb.2 t).2)
    have h4 : (ways a s).length * c2 ≤ w1 * c2 := Nat.mul_le_mul_right _ h1
    omega

theorem Fin.alt {w1 c1 w2 c2 : Nat} {a b : Re} (ha : Fin w1 c1 a) (hb : Fin w2 c2 b) :
    Fin (w1 + w2) (1 + c1 + c2) (.alt a b) := by
  refine ⟨⟨ha.1, hb.1⟩, fun s => ?_⟩
  obtain ⟨h1, h2⟩ := ha.2 s
  obtain ⟨h3, h4⟩ := hb.2 s
  simp only [ways, work, List.length_append]
  omega

theorem Fin.lit : ∀ u : Str, Fin 1 (2 * u.length + 1) (Re.lit u)
  | [] => Fin.eps
  | [c] => (Fin.cls _).mono (by omega) (by simp)
  | c :: d :: u => (Fin.seq (Fin.cls _) (Fin.lit (d :: u))).mono (by omega) (by simp only [List.length_cons]; omega)

theorem Fin.rep (p : Char → Bool) : ∀ n, Fin 1 (2 * n + 1) (Re.rep (.cls p) n)
  | 0 => Fin.eps
  | n + 1 => (Fin.seq (Fin.cls p) (Fin.rep p n)).mono (by omega) (by omega)

theorem Fin.upto (p : Char → Bool) : ∀ n, Fin (n + 1) (4 * n + 1) (Re.upto (.cls p) n)
  | 0 => Fin.eps
  | n + 1 => (Fin.alt Fin.eps (Fin.seq (Fin.cls p) (Fin.upto p n))).mono (by omega) (by omega)

theorem Fin.range (p : Char → Bool) (m n : Nat) :
    Fin (n - m + 1) (1 + (2 * m + 1) + (4 * (n - m) + 1)) (Re.range (.cls p) m n) :=
  (Fin.seq (Fin.rep p m) (Fin.upto p (n - m))).mono (by omega) (by omega)

theorem Fin.run {r : Re} {w c K : Nat} (h : Fin w c r) (hK : w + c + 1 ≤ K) (s : Str) :
    backtrack true r s K = some (r.fullmatch s) :=
  backtrack_full r h.1 s _ (by have := h.2 s; omega)

theorem Fin.bd {w c : Nat} {r : Re} (h : Fin w c r) : Bd 0 w c r :=
  ⟨h.1, fun s => ⟨by simpa using (h.2 s).1, Nat.le_trans (h.2 s).2 (Nat.le_mul_of_pos_right _ (by omega))⟩⟩

/-! ### Search for a block, anything before and after it -/

/-- `.*(block)+.*` as a prefix match: it fails fast where the block does not occur, and the first occurrence
settles the matter. -/
theorem Done.search {p q : Char → Bool} {d : Nat} {z : Re} (hz : Item d z) (s : Str) :
    ∃ m, m ≤ (3 + 2 + (d + 6) + 2 * d + 10) * (s.length + 1) ∧
      Done false ([Re.seqs [.star (.cls p), Re.plus z, .star (.cls q)]], s)
        ((Re.seqs [.star (.cls p), Re.plus z, .star (.cls q)]).matchPrefix s) m := by
  have ip := Item.cls p
  have iq := Item.cls q
  have hpr : Proper (Re.seqs [.star (.cls p), Re.plus z, .star (.cls q)]) :=
    ⟨⟨trivial, rfl⟩, ⟨hz.1, hz.1, hz.2.1⟩, ⟨trivial, rfl⟩⟩
  let N := s.length + 1
  -- what is left after the first part
  let b : Str → Bool := fun t => (ways (Re.plus z) t).any (fun _ => true)
  let C : Str → Nat := fun t => 1 + (work (Re.plus z) t + upTo (fun _ => true) (fun _ => 2 * N + 1) (ways (Re.plus z) t))
  have h2 : ∀ t ∈ ways (.star (.cls p)) s, Done false ([.seq (Re.plus z) (.star (.cls q))], t) (b t) (C t) := by
    intro t ht
    have hl := ways_le _ _ _ ht
    refine Done.step (fun st => rfl) ?_
    refine Done.pattern false (Re.plus z) ⟨hz.1, hz.1, hz.2.1⟩ [.star (.cls q)] (fun _ => true) (fun _ => 2 * N + 1) t ?_
    intro u hu
    have hl2 := ways_le _ _ _ hu
    have h := Done.prefix (.star (.cls q)) ⟨trivial, rfl⟩ u
    rw [matchPrefix_star_cons] at h
    refine h.mono ?_
    have h5 := (iq.star.2 u).2
    have h6 : (1 + 1) * (u.length + 1) ≤ 2 * N := Nat.mul_le_mul_left _ (by omega)
    omega
  have h3 := Done.pattern false (.star (.cls p)) ⟨trivial, rfl⟩ [.seq (Re.plus z) (.star (.cls q))] b C s h2
  have h4 := Done.step (k := ([Re.seqs [.star (.cls p), Re.plus z, .star (.cls q)]], s)) (fun st => rfl) h3
  have e : (ways (.star (.cls p)) s).any b = (Re.seqs [.star (.cls p), Re.plus z, .star (.cls q)]).matchPrefix s := by
    rw [← any_ways_prefix _ hpr]
    rw [Bool.eq_iff_iff, List.any_eq_true, List.any_eq_true]
    constructor
    · rintro ⟨t, ht, hb⟩
      obtain ⟨u, hu, -⟩ := List.any_eq_true.1 hb
      refine ⟨u, ?_, rfl⟩
      simp only [Re.seqs, ways.eq_def (.seq _ _), List.mem_flatMap]
      exact ⟨t, ht, u, hu, by rw [ways_star rfl]; simp⟩
    · rintro ⟨v, hv, -⟩
      simp only [Re.seqs, ways.eq_def (.seq _ _), List.mem_flatMap] at hv
      obtain ⟨t, ht, u, hu, -⟩ := hv
      exact ⟨t, ht, List.any_eq_true.2 ⟨u, hu, rfl⟩⟩
  rw [e] at h4
  refine ⟨_, ?_, h4⟩
  have w1 := (ip.star.2 s).1
  have w2 := (ip.star.2 s).2
  have hu := upTo_le2 b C (d + 3) ((2 * d + 6) * N) (ways (.star (.cls p)) s)
    (fun t ht hb => by
      have he : ways (Re.plus z) t = [] := by
        cases h' : ways (Re.plus z) t with
        | nil => rfl
        | cons u l => simp only [b, h'] at hb; simp at hb
      have hz0 : ways z t = [] := by
        cases h' : ways z t with
        | nil => rfl
        | cons u l =>
          have : u ∈ ways (Re.plus z) t := by
            simp only [Re.plus, ways.eq_def (.seq _ _), List.mem_flatMap]
            exact ⟨u, by rw [h']; simp, by rw [ways_star hz.2.1]; simp⟩
          rw [he] at this; cases this
      have hd := (hz.2.2 t).2
      show 1 + (work (Re.plus z) t + upTo _ _ (ways (Re.plus z) t)) ≤ _
      rw [he]
      simp only [upTo, Re.plus, work.eq_def (.seq _ _), hz0, List.map_nil, List.sum_nil]
      omega)
    (fun t ht hb => by
      have hl := ways_le _ _ _ ht
      have h5 := (hz.plus.2 t).2
      have h6 : (1 + d + (1 + d)) * (t.length + 1) ≤ (1 + d + (1 + d)) * N := Nat.mul_le_mul_left _ (by omega)
      have h7 := upTo_le2 (fun _ => true) (fun _ => 2 * N + 1) 0 (2 * N + 1) (ways (Re.plus z) t)
        (fun _ _ h => by cases h) (fun _ _ _ => Nat.le_refl _)
      have hN : 1 ≤ N := by omega
      show 1 + (work (Re.plus z) t + upTo _ _ (ways (Re.plus z) t)) ≤ _
      rw [show 1 + d + (1 + d) = 2 * d + 2 by omega] at h5 h6
      rw [show 2 * d + 6 = (2 * d + 2) + 4 by omega, Nat.add_mul (2 * d + 2)]
      omega)
  have h8 : (ways (.star (.cls p)) s).length * (d + 3) ≤ N * (d + 3) := Nat.mul_le_mul_right _ (by simpa using w1)
  show 1 + (work (.star (.cls p)) s + upTo b C (ways (.star (.cls p)) s)) ≤ (3 + 2 + (d + 6) + 2 * d + 10) * N
  have h9 : work (.star (.cls p)) s ≤ (1 + 1) * N := w2
  have hN : 1 ≤ N := by omega
  rw [Nat.mul_comm N] at h8
  simp only [Nat.add_mul] at h8 h9 hu ⊢
  omega

/-! ### A pattern that does blow up -/

theorem btRun_mono {full : Bool} {n e : Nat} {st : List Task} {b : Bool} (h : btRun full n st = some b) :
    btRun full (n + e) st = some b := by
  induction n generalizing st with
  | zero => cases h
  | succ n ih =>
    rw [show n + 1 + e = (n + e) + 1 by omega, btRun_succ]
    rw [btRun_succ] at h
    cases h' : btStep full st with
    | inl b' => rw [h'] at h; exact h
    | inr st' => rw [h'] at h; exact ih h

/-- `(a|a)*` on `a…ab`. -/
theorem blowup (n : Nat) (st : List Task) :
    ∃ m, 2 ^ n ≤ m ∧ ∀ e, btRun true (m + e) (([.star (.alt (Re.chr 'a') (Re.chr 'a'))],
      List.replicate n 'a' ++ ['b']) :: st) = btRun true e st := by
  induction n generalizing st with
  | zero => exact ⟨5, by omega, fun e => by rw [show 5 + e = e + 5 by omega]; rfl⟩
  | succ n ih =>
    obtain ⟨m2, l2, h2⟩ := ih (([], List.replicate (n + 1) 'a' ++ ['b']) :: st)
    obtain ⟨m1, l1, h1⟩ := ih (([Re.chr 'a', .star (.alt (Re.chr 'a') (Re.chr 'a'))],
      List.replicate (n + 1) 'a' ++ ['b']) :: ([], List.replicate (n + 1) 'a' ++ ['b']) :: st)
    refine ⟨3 + m1 + (1 + m2 + 1), by rw [Nat.pow_succ]; omega, fun e => ?_⟩
    rw [show 3 + m1 + (1 + m2 + 1) + e = (m1 + ((m2 + (e + 1)) + 1)) + 3 by omega]
    show btRun true (m1 + ((m2 + (e + 1)) + 1)) (([.star (.alt (Re.chr 'a') (Re.chr 'a'))],
      List.replicate n 'a' ++ ['b']) :: _) = _
    rw [h1]
    show btRun true (m2 + (e + 1)) (([.star (.alt (Re.chr 'a') (Re.chr 'a'))],
      List.replicate n 'a' ++ ['b']) :: _) = _
    rw [h2]
    rfl

end Epc.Re
