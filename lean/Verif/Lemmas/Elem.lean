/-
GS1 element strings: the languages of the element-string patterns, splitting at `(…)` groups, and slices with integer bounds.
-/
import Verif.Lemmas.NewMore
import Verif.Lemmas.Escape
import Verif.Spec.Elem

set_option linter.unusedSimpArgs false

namespace Epc
open Spec Re

/-! ### Slices with integer bounds -/

theorem clampIdx_le (n : Nat) (i : Int) : i < 0 ∨ clampIdx n i ≤ n := by
  unfold clampIdx; split <;> omega

theorem clampIdx_le' (n : Nat) (i : Int) : clampIdx n i ≤ n := by
  unfold clampIdx; split <;> omega

theorem sliceI_append {a b c : Str} {lo hi : Int} (hl : clampIdx (a ++ (b ++ c)).length lo = a.length)
    (hh : clampIdx (a ++ (b ++ c)).length hi = a.length + b.length) : sliceI (a ++ (b ++ c)) lo hi = b := by
  unfold sliceI
  rw [hl, hh]
  exact slice_append rfl rfl

theorem length_slice {d : Str} {i j : Nat} (h : j ≤ d.length) : (slice d i j).length = j - i := by
  simp only [slice, List.length_drop, List.length_take]; omega

theorem slice_join (d : Str) {i j k : Nat} (h1 : i ≤ j) (h2 : j ≤ k) : slice d i j ++ slice d j k = slice d i k := by
  unfold slice
  have e : d.take k = d.take j ++ (d.take k).drop j := by
    conv => lhs; rw [← List.take_append_drop j (d.take k)]
    rw [List.take_take, Nat.min_eq_left h2]
  by_cases hj : j ≤ d.length
  · conv => rhs; rw [e]
    rw [List.drop_append_of_le_length (by rw [List.length_take]; omega)]
  · rw [List.take_of_length_le (by omega : d.length ≤ j), List.take_of_length_le (by omega : d.length ≤ k),
      List.drop_of_length_le (by omega : d.length ≤ j), List.append_nil]

/-- If a cut at an arbitrary place leaves the right number of characters, nothing is lost or doubled. -/
theorem slice_join_of_length {d : Str} {i j k : Nat} (hk : k ≤ d.length) (hj : j ≤ d.length) (hik : i ≤ k)
    (h : (slice d i j).length + (slice d j k).length = k - i) : slice d i j ++ slice d j k = slice d i k := by
  rw [length_slice hj, length_slice hk] at h
  exact slice_join d (by omega) (by omega)

theorem slice_to_length (d : Str) (i : Nat) : slice d i d.length = d.drop i := by
  unfold slice; rw [List.take_length]

/-! ### Splitting at parenthesised groups -/

theorem fixedMatch_replicate {k : Nat} {r : List (Char → Bool)} {s : Str} :
    fixedMatch (List.replicate k anyChar ++ r) s = true ↔
      ∃ m t, s = m ++ t ∧ m.length = k ∧ '\n' ∉ m ∧ fixedMatch r t = true := by
  induction k generalizing s with
  | zero =>
    constructor
    · intro h; exact ⟨[], s, rfl, rfl, by simp, h⟩
    · rintro ⟨m, t, rfl, hm, _, h⟩
      cases m with
      | nil => exact h
      | cons a b => simp at hm
  | succ k ih =>
    rw [List.replicate_succ, List.cons_append]
    cases s with
    | nil =>
      constructor
      · intro h; simp [fixedMatch] at h
      · rintro ⟨m, t, e, hm, _⟩
        cases m with
        | nil => simp at hm
        | cons a b => simp at e
    | cons c s =>
      simp only [fixedMatch, Bool.and_eq_true, ih, anyChar, bne_iff_ne, ne_eq]
      constructor
      · rintro ⟨hc, m, t, rfl, hm, hn, h⟩
        refine ⟨c :: m, t, rfl, by simp [hm], ?_, h⟩
        intro hx
        rcases List.mem_cons.1 hx with e | e
        · exact hc e.symm
        · exact hn e
      · rintro ⟨m, t, e, hm, hn, h⟩
        cases m with
        | nil => simp at hm
        | cons a b =>
          simp only [List.cons_append, List.cons.injEq] at e
          refine ⟨?_, b, t, e.2, by simpa using hm, fun hx => hn (List.mem_cons_of_mem _ hx), h⟩
          rintro rfl
          exact hn (by rw [e.1]; exact List.mem_cons_self)

theorem parenLen_iff {k n : Nat} {s : Str} : parenLen k s = some n ↔
    n = k + 2 ∧ ∃ m t, s = '(' :: (m ++ ')' :: t) ∧ m.length = k ∧ '\n' ∉ m := by
  unfold parenLen fixedLen
  have key : fixedMatch ((· == '(') :: (List.replicate k anyChar ++ [(· == ')')])) s = true ↔
      ∃ m t, s = '(' :: (m ++ ')' :: t) ∧ m.length = k ∧ '\n' ∉ m := by
    cases s with
    | nil => simp [fixedMatch]
    | cons c s =>
      simp only [fixedMatch, Bool.and_eq_true, beq_iff_eq, fixedMatch_replicate]
      constructor
      · rintro ⟨rfl, m, t, rfl, hm, hn, h⟩
        cases t with
        | nil => simp [fixedMatch] at h
        | cons d t =>
          simp only [fixedMatch, Bool.and_eq_true, beq_iff_eq, and_true] at h
          exact ⟨m, t, by rw [h], hm, hn⟩
      · rintro ⟨m, t, e, hm, hn⟩
        injection e with e1 e2
        exact ⟨e1, m, ')' :: t, e2, hm, hn, by simp [fixedMatch]⟩
  by_cases h : fixedMatch ((· == '(') :: (List.replicate k anyChar ++ [(· == ')')])) s = true
  · rw [if_pos h]
    simp only [List.length_cons, List.length_append, List.length_replicate, List.length_nil, Option.some.injEq]
    exact ⟨fun e => ⟨by omega, key.1 h⟩, fun e => by omega⟩
  · rw [if_neg h]
    constructor
    · intro e; cases e
    · rintro ⟨_, e⟩; exact absurd (key.2 e) h

theorem splitNoCapGo_skip {m : Str → Option Nat} {a b : Str} {j : Nat} (h : a.length = j) :
    splitNoCapGo m j (a ++ b) = splitNoCapGo m 0 b := by
  induction a generalizing j with
  | nil => subst h; rfl
  | cons x a ih =>
    subst h
    show splitNoCapGo m a.length (a ++ b) = _
    exact ih rfl

theorem splitNoCapGo_ne_nil (m : Str → Option Nat) (j : Nat) (s : Str) : splitNoCapGo m j s ≠ [] := by
  induction s generalizing j with
  | nil => cases j <;> simp [splitNoCapGo]
  | cons x s ih =>
    cases j with
    | succ j => exact ih j
    | zero =>
      rw [splitNoCapGo]
      split
      · simp
      · split <;> simp

theorem splitNoCap_group {k : Nat} {m t : Str} (hm : m.length = k) (hn : '\n' ∉ m) :
    splitNoCap (parenLen k) ('(' :: (m ++ ')' :: t)) = [] :: splitNoCap (parenLen k) t := by
  have h : parenLen k ('(' :: (m ++ ')' :: t)) = some (k + 2) := parenLen_iff.2 ⟨rfl, m, t, rfl, hm, hn⟩
  unfold splitNoCap
  rw [splitNoCapGo, h]
  show [] :: splitNoCapGo _ (k + 1) (m ++ ')' :: t) = _
  rw [show m ++ ')' :: t = (m ++ [')']) ++ t by simp, splitNoCapGo_skip (by simp [hm])]

theorem splitNoCap_cons {k : Nat} {x : Char} {s : Str} (h : parenLen k (x :: s) = Option.none) :
    splitNoCap (parenLen k) (x :: s) =
      (x :: (splitNoCap (parenLen k) s).headD []) :: (splitNoCap (parenLen k) s).tail := by
  unfold splitNoCap
  rw [splitNoCapGo, h]
  cases e : splitNoCapGo (parenLen k) 0 s with
  | nil => exact absurd e (splitNoCapGo_ne_nil _ _ _)
  | cons a l => rfl

theorem splitNoCap_cons_ne {k : Nat} {x : Char} {s : Str} (h : x ≠ '(') :
    splitNoCap (parenLen k) (x :: s) =
      (x :: (splitNoCap (parenLen k) s).headD []) :: (splitNoCap (parenLen k) s).tail := by
  refine splitNoCap_cons ?_
  cases e : parenLen k (x :: s) with
  | none => rfl
  | some n =>
    obtain ⟨_, m, t, e, _⟩ := parenLen_iff.1 e
    injection e with e1
    exact absurd e1 h

theorem splitNoCap_append {k : Nat} {d s : Str} (h : '(' ∉ d) :
    splitNoCap (parenLen k) (d ++ s) =
      (d ++ (splitNoCap (parenLen k) s).headD []) :: (splitNoCap (parenLen k) s).tail := by
  induction d with
  | nil =>
    cases e : splitNoCap (parenLen k) s with
    | nil => exact absurd e (splitNoCapGo_ne_nil _ _ _)
    | cons a l => simp [e]
  | cons x d ih =>
    have hx : x ≠ '(' := fun e => h (by rw [e]; exact List.mem_cons_self)
    rw [List.cons_append, splitNoCap_cons_ne hx, ih (fun e => h (List.mem_cons_of_mem _ e))]
    simp

/-- The shape of an element string with two groups: text before the first group, digits, and what the last part splits into. -/
theorem splitNoCap_two {k : Nat} {m d m' c : Str} (hm : m.length = k) (hn : '\n' ∉ m) (hm' : m'.length = k) (hn' : '\n' ∉ m')
    (hd : '(' ∉ d) : splitNoCap (parenLen k) ('(' :: (m ++ ')' :: (d ++ '(' :: (m' ++ ')' :: c)))) =
      [] :: d :: splitNoCap (parenLen k) c := by
  rw [splitNoCap_group hm hn, splitNoCap_append hd, splitNoCap_group hm' hn']
  simp

theorem splitNoCap_noGroup {k : Nat} {c : Str} (h : ¬ HasGroup k c) : splitNoCap (parenLen k) c = [c] := by
  induction c with
  | nil => rfl
  | cons x c ih =>
    have h1 : parenLen k (x :: c) = Option.none := by
      cases e : parenLen k (x :: c) with
      | none => rfl
      | some n =>
        obtain ⟨_, m, t, e, hm, _⟩ := parenLen_iff.1 e
        exact absurd ⟨[], m, t, by simpa using e, hm⟩ h
    have h2 : ¬ HasGroup k c := by
      rintro ⟨p, m, t, rfl, hm⟩
      exact h ⟨x :: p, m, t, rfl, hm⟩
    rw [splitNoCap_cons h1, ih h2]
    rfl

theorem splitNoCap_hasGroup {k : Nat} {c : Str} (hn : '\n' ∉ c) (h : HasGroup k c) :
    ∃ a b l, splitNoCap (parenLen k) c = a :: b :: l := by
  induction c with
  | nil => obtain ⟨p, m, t, e, _⟩ := h; cases p <;> simp at e
  | cons x c ih =>
    cases e : parenLen k (x :: c) with
    | some n =>
      obtain ⟨_, m, t, e, hm, hn⟩ := parenLen_iff.1 e
      rw [e, splitNoCap_group hm hn]
      cases e : splitNoCap (parenLen k) t with
      | nil => exact absurd e (splitNoCapGo_ne_nil _ _ _)
      | cons a l => exact ⟨_, _, _, rfl⟩
    | none =>
      obtain ⟨p, m, t, e', hm⟩ := h
      cases p with
      | nil =>
        simp only [List.nil_append] at e'
        have : parenLen k (x :: c) = some (k + 2) :=
          parenLen_iff.2 ⟨rfl, m, t, e', hm, fun hx => hn (by rw [e']; simp [hx])⟩
        rw [e] at this; cases this
      | cons y p =>
        simp only [List.cons_append, List.cons.injEq] at e'
        obtain ⟨a, b, l, hab⟩ := ih (fun hx => hn (List.mem_cons_of_mem _ hx)) ⟨p, m, t, e'.2, hm⟩
        rw [splitNoCap_cons e, hab]
        exact ⟨_, _, _, rfl⟩

theorem gs82_no_nl {c : Str} (h : ∀ x ∈ c, x ∈ gs82) : '\n' ∉ c := fun hx => absurd (h _ hx) (by decide)

theorem Dec.no_paren {d : Str} (h : Dec d) : '(' ∉ d := by
  intro hx; exact absurd (h _ hx) (by decide +kernel)

/-! ### The languages of the element-string patterns -/

theorem lang_digits (n : Nat) (s : Str) : Lang (rep Rx.digit n) s ↔ Dec s ∧ s.length = n := by
  rw [show Rx.digit = .cls isDecimal from rfl, lang_rep_cls]
  exact And.comm

theorem lang_digitRange {m n : Nat} (h : m ≤ n) (s : Str) :
    Lang (Re.range Rx.digit m n) s ↔ Dec s ∧ m ≤ s.length ∧ s.length ≤ n := by
  rw [show Rx.digit = .cls isDecimal from rfl, lang_range_cls _ h]
  exact And.comm

theorem lang_chars {n : Nat} (h : 1 ≤ n) (s : Str) :
    Lang (Re.range Rx.elemChar 1 n) s ↔ ((∀ c ∈ s, c ∈ gs82) ∧ 1 ≤ s.length ∧ s.length ≤ n) := by
  rw [show Rx.elemChar = .cls isGs3a3Any from rfl, lang_range_cls _ h]
  simp only [mem_gs82]
  exact And.comm

theorem lang_seq (a b : Re) (s : Str) : Lang (.seq a b) s ↔ ∃ x y, s = x ++ y ∧ Lang a x ∧ Lang b y := Iff.rfl

/-- `prefix digit{n}` -/
theorem lang_elemB (p : Str) (n : Nat) (s : Str) :
    Lang (seqs [lit p, rep Rx.digit n]) s ↔ ∃ d, (Dec d ∧ d.length = n) ∧ s = p ++ d := by
  show Lang (.seq (lit p) (rep Rx.digit n)) s ↔ _
  rw [lang_lit_seq]
  simp only [lang_digits]
  exact ⟨fun ⟨t, a, b⟩ => ⟨t, b, a⟩, fun ⟨t, a, b⟩ => ⟨t, b, a⟩⟩

/-- `prefix digit{n} prefix char{1,m}` -/
theorem lang_elemA (p q : Str) (n : Nat) {m : Nat} (hm : 1 ≤ m) (s : Str) :
    Lang (seqs [lit p, rep Rx.digit n, lit q, Re.range Rx.elemChar 1 m]) s ↔
      ∃ d c, (Dec d ∧ d.length = n) ∧ ((∀ x ∈ c, x ∈ gs82) ∧ 1 ≤ c.length ∧ c.length ≤ m) ∧ s = p ++ (d ++ (q ++ c)) := by
  show Lang (.seq (lit p) (.seq (rep Rx.digit n) (.seq (lit q) (Re.range Rx.elemChar 1 m)))) s ↔ _
  rw [lang_lit_seq]
  simp only [lang_seq (rep Rx.digit n), lang_lit_seq, lang_digits, lang_chars hm]
  constructor
  · rintro ⟨_, rfl, d, _, rfl, hd, c, rfl, hc⟩; exact ⟨d, c, hd, hc, rfl⟩
  · rintro ⟨d, c, hd, hc, rfl⟩; exact ⟨_, rfl, d, _, rfl, hd, c, rfl, hc⟩

/-- `prefix digit{n} char{1,m}` -/
theorem lang_elemC (p : Str) (n : Nat) {m : Nat} (hm : 1 ≤ m) (s : Str) :
    Lang (seqs [lit p, rep Rx.digit n, Re.range Rx.elemChar 1 m]) s ↔
      ∃ d c, (Dec d ∧ d.length = n) ∧ ((∀ x ∈ c, x ∈ gs82) ∧ 1 ≤ c.length ∧ c.length ≤ m) ∧ s = p ++ (d ++ c) := by
  show Lang (.seq (lit p) (.seq (rep Rx.digit n) (Re.range Rx.elemChar 1 m))) s ↔ _
  rw [lang_lit_seq]
  simp only [lang_seq (rep Rx.digit n), lang_digits, lang_chars hm]
  constructor
  · rintro ⟨_, rfl, d, c, rfl, hd, hc⟩; exact ⟨d, c, hd, hc, rfl⟩
  · rintro ⟨d, c, hd, hc, rfl⟩; exact ⟨_, rfl, d, c, rfl, hd, hc⟩

/-- `prefix digit{6,12} char{1,24}` -/
theorem lang_elemD (p : Str) {m : Nat} (hm : 1 ≤ m) (s : Str) :
    Lang (seqs [lit p, Re.range Rx.digit 6 12, Re.range Rx.elemChar 1 m]) s ↔
      ∃ d c, (Dec d ∧ 6 ≤ d.length ∧ d.length ≤ 12) ∧ ((∀ x ∈ c, x ∈ gs82) ∧ 1 ≤ c.length ∧ c.length ≤ m) ∧ s = p ++ (d ++ c) := by
  show Lang (.seq (lit p) (.seq (Re.range Rx.digit 6 12) (Re.range Rx.elemChar 1 m))) s ↔ _
  rw [lang_lit_seq]
  simp only [lang_seq (Re.range Rx.digit 6 12), lang_digitRange (by decide : 6 ≤ 12), lang_chars hm]
  constructor
  · rintro ⟨_, rfl, d, c, rfl, hd, hc⟩; exact ⟨d, c, hd, hc, rfl⟩
  · rintro ⟨d, c, hd, hc, rfl⟩; exact ⟨_, rfl, d, c, rfl, hd, hc⟩

/-! ### Unescaping stays within the character set -/

theorem mem_replaceGo {pat rep : Str} {x : Char} {j : Nat} {s : Str} (h : x ∈ replaceGo pat rep j s) : x ∈ s ∨ x ∈ rep := by
  induction s generalizing j with
  | nil => cases j <;> simp [replaceGo] at h
  | cons y s ih =>
    cases j with
    | succ j =>
      rcases ih (j := j) h with h | h
      · exact .inl (List.mem_cons_of_mem _ h)
      · exact .inr h
    | zero =>
      rw [replaceGo] at h
      split at h
      · rcases List.mem_append.1 h with h | h
        · exact .inr h
        · rcases ih h with h | h
          · exact .inl (List.mem_cons_of_mem _ h)
          · exact .inr h
      · rcases List.mem_cons.1 h with rfl | h
        · exact .inl List.mem_cons_self
        · rcases ih h with h | h
          · exact .inl (List.mem_cons_of_mem _ h)
          · exact .inr h

theorem mem_replaceAll {pat rep s : Str} {x : Char} (h : x ∈ replaceAll pat rep s) : x ∈ s ∨ x ∈ rep := mem_replaceGo h

theorem length_replaceGo_le {pat rep : Str} (hr : rep.length ≤ 1) (j : Nat) (s : Str) : (replaceGo pat rep j s).length ≤ s.length := by
  induction s generalizing j with
  | nil => cases j <;> simp [replaceGo]
  | cons y s ih =>
    cases j with
    | succ j => have := ih j; rw [replaceGo, List.length_cons]; omega
    | zero =>
      rw [replaceGo]
      split
      · have := ih (pat.length - 1); rw [List.length_append, List.length_cons]; omega
      · have := ih 0; rw [List.length_cons, List.length_cons]; omega

theorem replaceAll_ne_nil {pat rep s : Str} (hr : rep ≠ []) (h : s ≠ []) : replaceAll pat rep s ≠ [] := by
  cases s with
  | nil => exact absurd rfl h
  | cons y s =>
    unfold replaceAll
    rw [replaceGo]
    split
    · simp [hr]
    · simp

theorem mem_replaceUriEscapes {s : Str} {x : Char} (h : x ∈ replaceUriEscapes s) : x ∈ s ∨ x ∈ gs82 := by
  unfold replaceUriEscapes at h
  have key : ∀ {t : Str} {pat rep : Str}, (∀ c ∈ rep, c ∈ gs82) → x ∈ replaceAll pat rep t → x ∈ t ∨ x ∈ gs82 := by
    intro t pat rep hr h
    rcases mem_replaceAll h with h | h
    · exact .inl h
    · exact .inr (hr _ h)
  dsimp only at h
  rcases key (by decide) h with h | h
  rotate_left; exact .inr h
  rcases key (by decide) h with h | h
  rotate_left; exact .inr h
  rcases key (by decide) h with h | h
  rotate_left; exact .inr h
  rcases key (by decide) h with h | h
  rotate_left; exact .inr h
  rcases key (by decide) h with h | h
  rotate_left; exact .inr h
  rcases key (by decide) h with h | h
  rotate_left; exact .inr h
  exact key (by decide) h

theorem length_replaceUriEscapes_le (s : Str) : (replaceUriEscapes s).length ≤ s.length := by
  unfold replaceUriEscapes
  dsimp only
  iterate 6 refine Nat.le_trans (length_replaceGo_le (by decide) _ _) ?_
  exact length_replaceGo_le (by decide) _ _

theorem replaceUriEscapes_ne_nil {s : Str} (h : s ≠ []) : replaceUriEscapes s ≠ [] := by
  unfold replaceUriEscapes
  dsimp only
  iterate 6 refine replaceAll_ne_nil (by decide) ?_
  exact replaceAll_ne_nil (by decide) h

theorem gs3a3_gs82 {S : Str} (h : Lang Rx.gs3a3 S) : ∀ c ∈ S, c ∈ gs82 := by
  intro c hc
  rw [mem_gs82]
  rcases gs3a3_mem h c hc with rfl | h
  · decide
  · simp [isGs3a3Any, h]

theorem unescaped_gs82 {S : Str} (h : Lang Rx.gs3a3 S) : ∀ c ∈ replaceUriEscapes S, c ∈ gs82 := by
  intro c hc
  rcases mem_replaceUriEscapes hc with h' | h'
  · exact gs3a3_gs82 h c h'
  · exact h'

/-! ### Cutting the digits of an element string at a company prefix length -/

theorem clampIdx_nat {N n : Nat} (h : n ≤ N) : clampIdx N (n : Int) = n := by unfold clampIdx; split <;> omega
theorem clampIdx_one_add {N n : Nat} (h : n + 1 ≤ N) : clampIdx N (1 + (n : Int)) = n + 1 := by unfold clampIdx; split <;> omega
theorem clampIdx_neg {N k : Nat} (hk : 0 < k) : clampIdx N (-(k : Int)) = N - k := by unfold clampIdx; split <;> omega
theorem clampIdx_pos (N : Nat) (k : Nat) : clampIdx N (k : Int) = min k N := by unfold clampIdx; split <;> omega

theorem last_char {d : Str} {N : Nat} (h : d.length = N + 1) : ∃ k, d = d.take N ++ [k] := by
  refine ⟨d[N]'(by omega), ?_⟩
  conv => lhs; rw [← List.take_append_drop N d]
  rw [List.drop_eq_getElem_cons (by omega), List.drop_of_length_le (by omega)]

theorem dec_slice {d : Str} (h : Dec d) (i j : Nat) : Dec (slice d i j) := (h.take j).drop i

theorem cut_plain {d : Str} {n : Int} {N : Nat} (hl : d.length = N + 1)
    (h : (sliceToI d n).length + (sliceI d n (-1)).length = N) :
    (∃ k, d = sliceToI d n ++ (sliceI d n (-1) ++ [k])) ∧ clampIdx (N + 1) n = (sliceToI d n).length := by
  have h1 : clampIdx (N + 1) (-1) = N := clampIdx_neg (N := N + 1) (k := 1) (by decide)
  have hj := clampIdx_le' (N + 1) n
  have e1 : sliceToI d n = slice d 0 (clampIdx (N + 1) n) := by unfold sliceToI slice; rw [hl]; rfl
  have e2 : sliceI d n (-1) = slice d (clampIdx (N + 1) n) N := by unfold sliceI; rw [hl, h1]
  rw [e1, e2] at h ⊢
  have hjoin := slice_join_of_length (by omega) (by omega) (by omega) h
  obtain ⟨k, hk⟩ := last_char hl
  constructor
  · refine ⟨k, ?_⟩
    rw [← List.append_assoc, hjoin]
    exact hk
  · rw [length_slice (by omega)]; rfl

theorem uncut_plain {C D : Str} {k : Char} {n : Int} (h : clampIdx (C.length + D.length + 1) n = C.length) :
    sliceToI (C ++ (D ++ [k])) n = C ∧ sliceI (C ++ (D ++ [k])) n (-1) = D := by
  have hl : (C ++ (D ++ [k])).length = C.length + D.length + 1 := by
    simp only [List.length_append, List.length_cons, List.length_nil]; omega
  constructor
  · unfold sliceToI; rw [hl, h]; exact take_append_eq rfl
  · refine sliceI_append (by rw [hl, h]) ?_
    rw [hl]
    exact clampIdx_neg (k := 1) (by decide)

theorem cut_key {i : Char} {d : Str} {n : Int} {N : Nat} (hl : (i :: d).length = N + 1)
    (hN : 1 ≤ N) (h : (sliceI (i :: d) 1 (1 + n)).length + (i :: sliceI (i :: d) (1 + n) (-1)).length = N) :
    (∃ k, i :: d = i :: (sliceI (i :: d) 1 (1 + n) ++ (sliceI (i :: d) (1 + n) (-1) ++ [k]))) ∧
      clampIdx (N + 1) (1 + n) = (sliceI (i :: d) 1 (1 + n)).length + 1 := by
  have h1 : clampIdx (N + 1) (-1) = N := clampIdx_neg (N := N + 1) (k := 1) (by decide)
  have h2 : clampIdx (N + 1) 1 = 1 := clampIdx_nat (N := N + 1) (n := 1) (by omega)
  have hj := clampIdx_le' (N + 1) (1 + n)
  have e1 : sliceI (i :: d) 1 (1 + n) = slice (i :: d) 1 (clampIdx (N + 1) (1 + n)) := by unfold sliceI; rw [hl, h2]
  have e2 : sliceI (i :: d) (1 + n) (-1) = slice (i :: d) (clampIdx (N + 1) (1 + n)) N := by unfold sliceI; rw [hl, h1]
  rw [e1, e2] at h ⊢
  rw [List.length_cons] at h
  have hjoin := slice_join_of_length (d := i :: d) (i := 1) (j := clampIdx (N + 1) (1 + n)) (k := N) (by omega) (by omega) hN (by omega)
  obtain ⟨k, hk⟩ := last_char hl
  have e3 : slice (i :: d) 1 N = (d.take (N - 1)) := by
    cases N with
    | zero => omega
    | succ N => simp [slice]
  have e4 : (i :: d).take N = i :: d.take (N - 1) := by
    cases N with
    | zero => omega
    | succ N => simp
  constructor
  · refine ⟨k, ?_⟩
    rw [← List.append_assoc, hjoin, e3, ← List.cons_append, ← e4]
    exact hk
  · rw [length_slice (by omega), length_slice (by omega)] at h
    rw [length_slice (by omega)]
    omega

theorem uncut_key {i : Char} {C D : Str} {k : Char} {n : Int} (h : clampIdx (C.length + D.length + 2) (1 + n) = C.length + 1) :
    sliceI (i :: (C ++ (D ++ [k]))) 1 (1 + n) = C ∧ sliceI (i :: (C ++ (D ++ [k]))) (1 + n) (-1) = D := by
  have hl : (i :: (C ++ (D ++ [k]))).length = C.length + D.length + 2 := by
    simp only [List.length_append, List.length_cons, List.length_nil]; omega
  constructor
  · refine sliceI_append (a := [i]) (b := C) (c := D ++ [k]) ?_ ?_
    · show clampIdx (i :: (C ++ (D ++ [k]))).length 1 = 1
      rw [hl]; exact clampIdx_nat (n := 1) (by omega)
    · show clampIdx (i :: (C ++ (D ++ [k]))).length (1 + n) = 1 + C.length
      rw [hl, h]; omega
  · have := sliceI_append (a := i :: C) (b := D) (c := [k]) (lo := 1 + n) (hi := -1) ?_ ?_
    · exact this
    · show clampIdx (i :: (C ++ (D ++ [k]))).length (1 + n) = (i :: C).length
      rw [hl, h]; rfl
    · show clampIdx (i :: (C ++ (D ++ [k]))).length (-1) = (i :: C).length + D.length
      rw [hl, List.length_cons]
      refine (clampIdx_neg (k := 1) (by decide)).trans ?_
      omega

/-! ### Check digits and escaped texts -/

theorem natStr_uCheck_single (s : Str) : ∃ k, natStr (uCheck s) = [k] ∧ Dec [k] := by
  have h1 := length_natStr_uCheck s
  have h2 := dec_natStr (uCheck s)
  cases e : natStr (uCheck s) with
  | nil => rw [e] at h1; cases h1
  | cons a l =>
    rw [e] at h1 h2
    cases l with
    | nil => exact ⟨a, rfl, h2⟩
    | cons b l => simp at h1

theorem gs82_of_escape {S raw : Str} (h : Lang Rx.gs3a3 S) (e : S = escape raw) : ∀ c ∈ raw, c ∈ gs82 := by
  have := unescaped_gs82 h
  rw [e, replaceUriEscapes_escape] at this
  exact this

theorem length_escape39_ge (raw : Str) : raw.length ≤ (escape39 raw).length := by
  induction raw with
  | nil => simp
  | cons c raw ih =>
    have := List.length_pos_iff.2 (escChar39_ne_nil c)
    rw [escape39_cons, List.length_append, List.length_cons]; omega

theorem raw_pos {S raw : Str} (h : Lang Rx.gs3a3 S) (e : S = escape raw) : 1 ≤ raw.length := by
  cases raw with
  | nil => exact absurd e (gs3a3_ne_nil h)
  | cons a l => simp

theorem check_unique {body : Str} {k : Char} (hd : Digits (body ++ [k])) (h : CheckDigitOk (body ++ [k])) :
    natStr (checkDigit body) = [k] := by
  have hk : k ∈ py "0123456789" := hd k (by simp)
  unfold CheckDigitOk at h
  rw [digitValues_append] at h
  have e := (gs1Sum_check body (k.toNat - 48) (digit_lt hk)).1 h
  rw [← e, natStr_digit (digit_lt hk)]
  have : ∀ c ∈ py "0123456789", Char.ofNat (48 + (c.toNat - 48)) = c := by decide
  rw [this k hk]

/-- A string whose check digit has been replaced by the computed one. -/
theorem corrected {p body rest s t : Str} {k : Char} {n : Nat} (hl : body.length = n) (hd : Dec (body ++ [k])) (ha : Ascii s)
    (hs : s = p ++ (body ++ k :: rest)) (ht : t = p ++ (body ++ (natStr (uCheck body) ++ rest))) :
    Corrected p n s t ∧ (CheckDigitOk ((s.drop p.length).take (n + 1)) → t = s) := by
  subst hs ht
  have ha' : Ascii (body ++ [k]) := by
    intro c hc
    refine ha c ?_
    rcases List.mem_append.1 hc with h | h
    · simp [h]
    · simp only [List.mem_singleton] at h
      simp [h]
  have hdig := digits_of_dec_ascii hd ha'
  have hb : Digits body := fun c hc => hdig c (by simp [hc])
  obtain ⟨k', hk', hk'd⟩ := natStr_uCheck_single body
  have hnat : natStr (uCheck body) = natStr (checkDigit body) := by rw [uCheck_of_digits hb]
  constructor
  · refine ⟨body, k, k', rest, hl, rfl, by rw [hk']; rfl, ?_, ?_⟩
    · intro c hc
      rcases List.mem_append.1 hc with h | h
      · exact hb c h
      · rw [← hk', hnat, natStr_digit (checkDigit_lt body)] at h
        have : ∀ d < 10, Char.ofNat (48 + d) ∈ py "0123456789" := by decide
        simp only [List.mem_singleton] at h
        rw [h]
        exact this _ (checkDigit_lt body)
    · rw [← hk', hnat]; exact checkDigitOk_check body
  · intro h
    have e : ((p ++ (body ++ k :: rest)).drop p.length).take (n + 1) = body ++ [k] := by
      rw [drop_append_eq rfl, show body ++ k :: rest = (body ++ [k]) ++ rest by simp]
      exact take_append_eq (by simp [hl])
    rw [e] at h
    rw [hnat, check_unique hdig h]
    rfl

end Epc
