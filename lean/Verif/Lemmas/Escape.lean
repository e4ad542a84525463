/-
The successive `str.replace` passes of `replace_uri_escapes`, `revert_uri_escapes` and of the CPI/ADI escapes
as one-pass character maps.
-/
import Verif.Lemmas.Bridge

namespace Epc
open Spec

/-- Replacing a single character. -/
theorem replaceAll_char (c : Char) (rep s : Str) :
    replaceAll [c] rep s = s.flatMap (fun x => if x = c then rep else [x]) := by
  unfold replaceAll
  induction s with
  | nil => rfl
  | cons x s ih =>
    rw [replaceGo]
    by_cases h : x = c
    · subst h
      simp [List.isPrefixOf, ih]
    · have h' : ¬ c = x := fun e => h e.symm
      simp [List.isPrefixOf, ih, h, h']

/-- Replacing a percent escape in a text made of single characters and percent escapes. -/
theorem replaceAll_escape {p q : Char} {rep : Str} {e e' : Char → Str} {s : Str}
    (H : ∀ x ∈ s, (e x = ['%', p, q] ∧ e' x = rep) ∨ (e' x = e x ∧ ∃ y, y ≠ '%' ∧ e x = [y]) ∨
      (e' x = e x ∧ ∃ a b, e x = ['%', a, b] ∧ ¬ (a = p ∧ b = q) ∧ a ≠ '%' ∧ b ≠ '%')) :
    replaceAll ['%', p, q] rep (s.flatMap e) = s.flatMap e' := by
  unfold replaceAll
  induction s with
  | nil => rfl
  | cons x s ih =>
    have ih := ih (fun y hy => H y (List.mem_cons_of_mem _ hy))
    rw [List.flatMap_cons, List.flatMap_cons]
    rcases H x (by simp) with ⟨h1, h2⟩ | ⟨h1, y, hy, h2⟩ | ⟨h1, a, b, h2, hab, ha, hb⟩
    · rw [h1, h2]
      simp [replaceGo, List.isPrefixOf, ih]
    · rw [h1, h2]
      have hy' : ¬ '%' = y := fun e => hy e.symm
      simp [replaceGo, List.isPrefixOf, ih, hy']
    · rw [h1, h2]
      have ha' : ¬ '%' = a := fun e => ha e.symm
      have hb' : ¬ '%' = b := fun e => hb e.symm
      have hab' : ¬ (p = a ∧ q = b) := fun e => hab ⟨e.1.symm, e.2.symm⟩
      rw [List.cons_append, List.cons_append, List.cons_append, List.nil_append]
      rw [replaceGo, if_neg (by simp [List.isPrefixOf]; intro e1 e2; exact absurd ⟨e1, e2⟩ hab')]
      rw [replaceGo, if_neg (by simp [List.isPrefixOf, ha'])]
      rw [replaceGo, if_neg (by simp [List.isPrefixOf, hb'])]
      rw [ih]; rfl

/-- `revert_uri_escapes` is the one-pass escaping. -/
theorem revertUriEscapes_eq (s : Str) : revertUriEscapes s = escape s := by
  unfold revertUriEscapes escape
  simp only [replaceAll_char, List.flatMap_assoc]
  congr 1
  funext x
  by_cases h1 : x = '%'
  · subst h1; decide
  by_cases h2 : x = '"'
  · subst h2; decide
  by_cases h3 : x = '&'
  · subst h3; decide
  by_cases h4 : x = '/'
  · subst h4; decide
  by_cases h5 : x = '<'
  · subst h5; decide
  by_cases h6 : x = '>'
  · subst h6; decide
  by_cases h7 : x = '?'
  · subst h7; decide
  simp [escChar, h1, h2, h3, h4, h5, h6, h7]

/-- The escape table with the given characters left alone. -/
def escExcept (l : Str) (c : Char) : Str := if c ∈ l then [c] else escChar c

theorem escChar_cases (c : Char) :
    (c = '"' ∨ c = '%' ∨ c = '&' ∨ c = '/' ∨ c = '<' ∨ c = '>' ∨ c = '?') ∨ (escChar c = [c] ∧ c ≠ '%') := by
  by_cases h1 : c = '%'
  · exact .inl (by simp [h1])
  by_cases h2 : c = '"'
  · exact .inl (by simp [h2])
  by_cases h3 : c = '&'
  · exact .inl (by simp [h3])
  by_cases h4 : c = '/'
  · exact .inl (by simp [h4])
  by_cases h5 : c = '<'
  · exact .inl (by simp [h5])
  by_cases h6 : c = '>'
  · exact .inl (by simp [h6])
  by_cases h7 : c = '?'
  · exact .inl (by simp [h7])
  exact .inr ⟨by simp [escChar, h1, h2, h3, h4, h5, h6, h7], h1⟩

theorem escStep (p q k : Char) (l : Str) (hk : escExcept l k = ['%', p, q])
    (h : ∀ x ∈ py "\"%&/<>?", x ≠ k → (escExcept (k :: l) x = escExcept l x ∧ ∃ y, y ≠ '%' ∧ escExcept l x = [y]) ∨
      (escExcept (k :: l) x = escExcept l x ∧
        ∃ a b, escExcept l x = ['%', a, b] ∧ ¬ (a = p ∧ b = q) ∧ a ≠ '%' ∧ b ≠ '%')) (s : Str) :
    replaceAll ['%', p, q] [k] (s.flatMap (escExcept l)) = s.flatMap (escExcept (k :: l)) := by
  apply replaceAll_escape
  intro x _
  by_cases hx : x = k
  · subst hx
    left; exact ⟨hk, by simp [escExcept]⟩
  · right
    rcases escChar_cases x with h1 | ⟨h1, h2⟩
    · exact h x (by simpa using h1) hx
    · left
      constructor
      · simp [escExcept, h1]
      · exact ⟨x, h2, by simp [escExcept, h1]⟩

/-- Unescaping undoes escaping, for every text. -/
theorem replaceUriEscapes_escape (s : Str) : replaceUriEscapes (escape s) = s := by
  unfold replaceUriEscapes
  simp only []
  have e0 : escape s = s.flatMap (escExcept []) := by
    unfold escape; congr 1
  have fin : s.flatMap (escExcept (py "%?></&\"")) = s := by
    have : escExcept (py "%?></&\"") = fun x => [x] := by
      funext x
      rcases escChar_cases x with h1 | ⟨h1, h2⟩
      · rcases h1 with h | h | h | h | h | h | h <;> subst h <;> rfl
      · simp [escExcept, h1]
    rw [this]; simp
  rw [e0]
  have step : ∀ (p q k : Char) (l : Str), escExcept l k = ['%', p, q] →
      (∀ x ∈ py "\"%&/<>?", x ≠ k → escExcept (k :: l) x = escExcept l x ∧
        (((escExcept l x).length = 1 ∧ escExcept l x ≠ ['%']) ∨
          ((escExcept l x).length = 3 ∧ (escExcept l x).head? = some '%' ∧ (escExcept l x).tail ≠ [p, q] ∧
            '%' ∉ (escExcept l x).tail))) → ∀ s : Str,
      replaceAll ['%', p, q] [k] (s.flatMap (escExcept l)) = s.flatMap (escExcept (k :: l)) := by
    intro p q k l hk h s
    apply escStep p q k l hk
    intro x hx hxk
    obtain ⟨h1, h2⟩ := h x hx hxk
    rcases h2 with ⟨h2, h3⟩ | ⟨h2, h3, h4, h5⟩
    · left
      refine ⟨h1, ?_⟩
      match he : escExcept l x, h2, h3 with
      | [y], _, h3 => exact ⟨y, by simpa using h3, rfl⟩
    · right
      refine ⟨h1, ?_⟩
      match he : escExcept l x, h2, h3, h4, h5 with
      | [z, a, b], _, h3, h4, h5 =>
        simp at h3; subst h3
        simp only [List.tail_cons, List.mem_cons, List.not_mem_nil, or_false, not_or] at h4 h5
        refine ⟨a, b, rfl, ?_, Ne.symm h5.1, Ne.symm h5.2⟩
        rintro ⟨rfl, rfl⟩; exact h4 rfl
  rw [step '2' '2' '"' [] (by decide) (by decide)]
  rw [step '2' '6' '&' _ (by decide) (by decide)]
  rw [step '2' 'F' '/' _ (by decide) (by decide)]
  rw [step '3' 'C' '<' _ (by decide) (by decide)]
  rw [step '3' 'E' '>' _ (by decide) (by decide)]
  rw [step '3' 'F' '?' _ (by decide) (by decide)]
  rw [step '2' '5' '%' _ (by decide) (by decide)]
  exact fin

end Epc
