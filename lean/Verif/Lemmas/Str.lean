/-
Facts about splitting, joining, padding and slicing strings.
-/
import Verif.Py.Basic

namespace Epc

/-! ### `split` and `joinWith` -/

theorem split_ne_nil (c : Char) (s : Str) : split c s ≠ [] := by
  induction s with
  | nil => simp [split]
  | cons x xs ih =>
    unfold split
    split
    · simp
    · split <;> simp

theorem split_cons_sep (c : Char) (s : Str) : split c (c :: s) = [] :: split c s := by
  simp [split]

theorem split_cons_ne {c x : Char} (h : x ≠ c) (s : Str) :
    split c (x :: s) = (x :: (split c s).headD []) :: (split c s).tail := by
  have hn := split_ne_nil c s
  rw [split, if_neg h]
  cases hs : split c s with
  | nil => exact absurd hs hn
  | cons a t => simp

theorem split_append_of_notMem {c : Char} {a : Str} (h : c ∉ a) (b : Str) :
    split c (a ++ b) = (a ++ (split c b).headD []) :: (split c b).tail := by
  induction a with
  | nil =>
    have := split_ne_nil c b
    cases hs : split c b with
    | nil => exact absurd hs this
    | cons x t => simp [hs]
  | cons x a ih =>
    simp only [List.mem_cons, not_or] at h
    rw [List.cons_append, split_cons_ne (Ne.symm h.1), ih h.2]
    simp

theorem split_notMem {c : Char} {a : Str} (h : c ∉ a) : split c a = [a] := by
  have := split_append_of_notMem h []
  simpa [split] using this

theorem split_append_sep {c : Char} {a : Str} (h : c ∉ a) (b : Str) :
    split c (a ++ c :: b) = a :: split c b := by
  rw [split_append_of_notMem h, split_cons_sep]; simp

theorem joinWith_cons (c : Char) (a : Str) {l : List Str} (h : l ≠ []) :
    joinWith c (a :: l) = a ++ c :: joinWith c l := by
  cases l with
  | nil => exact absurd rfl h
  | cons b t => rfl

theorem joinWith_split (c : Char) (s : Str) : joinWith c (split c s) = s := by
  induction s with
  | nil => rfl
  | cons x xs ih =>
    by_cases h : x = c
    · subst h
      rw [split_cons_sep, joinWith_cons _ _ (split_ne_nil _ _), ih]; rfl
    · rw [split_cons_ne h]
      cases hs : split c xs with
      | nil => exact absurd hs (split_ne_nil c xs)
      | cons a t =>
        rw [hs] at ih
        cases t with
        | nil => simp [joinWith] at ih ⊢; exact ih
        | cons b t => simp [joinWith] at ih ⊢; exact ih

theorem split_append_gen (c : Char) (a b : Str) : split c (a ++ c :: b) = split c a ++ split c b := by
  induction a with
  | nil => simp [split_cons_sep, split]
  | cons x a ih =>
    by_cases h : x = c
    · subst h; simp [split_cons_sep, ih]
    · rw [List.cons_append, split_cons_ne h, split_cons_ne h, ih]
      cases hs : split c a with
      | nil => exact absurd hs (split_ne_nil c a)
      | cons y t => simp

theorem mem_split {c : Char} {s t : Str} (h : t ∈ split c s) : c ∉ t := by
  induction s generalizing t with
  | nil => simp [split] at h; subst h; simp
  | cons x xs ih =>
    by_cases hx : x = c
    · subst hx
      rw [split_cons_sep] at h
      rcases List.mem_cons.1 h with rfl | h
      · simp
      · exact ih h
    · rw [split_cons_ne hx] at h
      cases hs : split c xs with
      | nil => exact absurd hs (split_ne_nil c xs)
      | cons y l =>
        rw [hs] at h ih
        simp only [List.headD_cons, List.tail_cons, List.mem_cons] at h
        rcases h with rfl | h
        · have := ih (List.mem_cons_self ..)
          simp only [List.mem_cons, not_or]
          exact ⟨Ne.symm hx, this⟩
        · exact ih (List.mem_cons_of_mem _ h)

/-- Splitting is injective in the sense that matters: two factorisations at the first separator agree. -/
theorem append_sep_inj {c : Char} {a a' b b' : Str} (h : c ∉ a) (h' : c ∉ a')
    (e : a ++ c :: b = a' ++ c :: b') : a = a' ∧ b = b' := by
  induction a generalizing a' with
  | nil =>
    cases a' with
    | nil => simpa using e
    | cons x a' =>
      simp only [List.nil_append, List.cons_append, List.cons.injEq] at e
      exact absurd e.1 (by intro hh; subst hh; simp at h')
  | cons x a ih =>
    cases a' with
    | nil =>
      simp only [List.nil_append, List.cons_append, List.cons.injEq] at e
      exact absurd e.1 (by intro hh; subst hh; simp at h)
    | cons y a' =>
      simp only [List.cons_append, List.cons.injEq] at e
      obtain ⟨rfl, e⟩ := e
      simp only [List.mem_cons, not_or] at h h'
      obtain ⟨rfl, rfl⟩ := ih h.2 h'.2 e
      exact ⟨rfl, rfl⟩

/-! ### Padding -/

theorem length_padLeft (c : Char) (w : Nat) (s : Str) : (padLeft c w s).length = max w s.length := by
  simp [padLeft]; omega

theorem length_padRight (c : Char) (w : Nat) (s : Str) : (padRight c w s).length = max w s.length := by
  simp [padRight]; omega

theorem padLeft_of_le {c : Char} {w : Nat} {s : Str} (h : w ≤ s.length) : padLeft c w s = s := by
  simp [padLeft, Nat.sub_eq_zero_of_le h]

theorem mem_padLeft {c x : Char} {w : Nat} {s : Str} (h : x ∈ padLeft c w s) : x = c ∨ x ∈ s := by
  simp only [padLeft, List.mem_append, List.mem_replicate] at h
  rcases h with h | h
  · exact .inl h.2
  · exact .inr h

/-! ### Slices -/

theorem slice_append {a b c : Str} {lo hi : Nat} (hl : a.length = lo) (hh : a.length + b.length = hi) :
    slice (a ++ (b ++ c)) lo hi = b := by
  subst hl; subst hh
  simp only [slice]
  rw [← List.append_assoc, ← List.length_append, List.take_left, List.drop_left]

theorem drop_append_eq {a b : Str} {n : Nat} (h : a.length = n) : (a ++ b).drop n = b := by
  subst h; simp

theorem take_append_eq {a b : Str} {n : Nat} (h : a.length = n) : (a ++ b).take n = a := by
  subst h; simp

end Epc
