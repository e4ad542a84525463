import Verif.Lemmas.NewMore
import Verif.Lemmas.TagForm
import Verif.Lemmas.Pieces
import Verif.Lemmas.Limit
import Verif.Lemmas.Elem
import Verif.Lemmas.Layout

/-! Lengths: what unescaping shortens, and how long numerals and check digits are. -/

namespace Epc

open Spec Re

theorem length_unescapeWith_ge (k : List ((Char × Char) × Char)) : ∀ (n : Nat) (s : Str), s.length ≤ n →
    s.length ≤ 3 * (unescapeWith k s).length := by
  intro n
  induction n with
  | zero => intro s h; omega
  | succ n ih =>
    intro s h
    match s with
    | [] => simp
    | [c] => simp [unescapeWith]
    | [c, d] => simp [unescapeWith]
    | c :: a :: b :: t =>
      have h1 := ih t (by simp only [List.length_cons] at h; omega)
      have h2 := ih (a :: b :: t) (by simp only [List.length_cons] at h ⊢; omega)
      rw [unescapeWith]
      split
      · split
        · simp only [List.length_cons]; omega
        · simp only [List.length_cons] at h2 ⊢; omega
      · simp only [List.length_cons] at h2 ⊢; omega

theorem length_unescapeWith_le (k : List ((Char × Char) × Char)) : ∀ (n : Nat) (s : Str), s.length ≤ n →
    (unescapeWith k s).length ≤ s.length := by
  intro n
  induction n with
  | zero => intro s h; obtain rfl := List.length_eq_zero_iff.1 (Nat.le_zero.1 h); simp [unescapeWith]
  | succ n ih =>
    intro s h
    match s with
    | [] => simp [unescapeWith]
    | [c] => simp [unescapeWith]
    | [c, d] => simp [unescapeWith]
    | c :: a :: b :: t =>
      have h1 := ih t (by simp only [List.length_cons] at h; omega)
      have h2 := ih (a :: b :: t) (by simp only [List.length_cons] at h ⊢; omega)
      rw [unescapeWith]
      split
      · split
        · simp only [List.length_cons]; omega
        · simp only [List.length_cons] at h2 ⊢; omega
      · simp only [List.length_cons] at h2 ⊢; omega

theorem length_unescape_ge (s : Str) : s.length ≤ 3 * (replaceUriEscapes s).length := by
  rw [replaceUriEscapes_eq]
  exact length_unescapeWith_ge _ _ s (Nat.le_refl _)

theorem slash_unescape (s : Str) : replaceAll (py "%2F") (py "/") s = unescapeWith [(('2', 'F'), '/')] s := by
  have h := replaceAll_unescape (p := '2') (q := 'F') (r := '/') (k := []) (by decide) (by decide) (by simp) rfl s.length s (Nat.le_refl _)
  rw [unescapeWith_nil] at h
  exact h

theorem hash_slash_unescape (s : Str) : replaceAll (py "%23") (py "#") (replaceAll (py "%2F") (py "/") s) =
    unescapeWith [(('2', '3'), '#'), (('2', 'F'), '/')] s := by
  rw [slash_unescape]
  exact replaceAll_unescape (p := '2') (q := '3') (r := '#') (by decide) (by decide) (by decide) rfl s.length s (Nat.le_refl _)

theorem slash_hash_unescape (s : Str) : CPI.replaceCpiEscapes s = unescapeWith [(('2', 'F'), '/'), (('2', '3'), '#')] s := by
  have h := replaceAll_unescape (p := '2') (q := '3') (r := '#') (k := []) (by decide) (by decide) (by simp) rfl s.length s (Nat.le_refl _)
  rw [unescapeWith_nil] at h
  unfold CPI.replaceCpiEscapes
  rw [show py "%23" = ['%', '2', '3'] from rfl, show py "#" = ['#'] from rfl, h]
  exact replaceAll_unescape (p := '2') (q := 'F') (r := '/') (by decide) (by decide) (by decide) rfl s.length s (Nat.le_refl _)

theorem length_slash_ge (s : Str) : s.length ≤ 3 * (replaceAll (py "%2F") (py "/") s).length := by
  rw [slash_unescape]
  exact length_unescapeWith_ge _ _ s (Nat.le_refl _)

theorem length_hash_slash_ge (s : Str) : s.length ≤ 3 * (replaceAll (py "%23") (py "#") (replaceAll (py "%2F") (py "/") s)).length := by
  rw [hash_slash_unescape]
  exact length_unescapeWith_ge _ _ s (Nat.le_refl _)

theorem length_replaceCpi_le (s : Str) : (CPI.replaceCpiEscapes s).length ≤ s.length := by
  rw [slash_hash_unescape]
  exact length_unescapeWith_le _ _ s (Nat.le_refl _)

theorem length_replaceCpi_pos {s : Str} (h : s ≠ []) : 1 ≤ (CPI.replaceCpiEscapes s).length := by
  rw [slash_hash_unescape]
  have := length_unescapeWith_ge [(('2', 'F'), '/'), (('2', '3'), '#')] _ s (Nat.le_refl _)
  have := List.length_pos_iff.2 h
  omega

theorem gs3a3_pos {s : Str} (h : Lang Rx.gs3a3 s) : 0 < s.length := List.length_pos_iff.2 (gs3a3_ne_nil h)

theorem cpref_ne_nil {s : Str} (h : Lang Rx.cpref s) : s ≠ [] := by
  obtain ⟨raw, hne, _, rfl⟩ := (lang_cpref s).1 h
  match raw, hne with
  | c :: t, _ =>
    rw [escape39_cons]
    intro e
    have := (List.append_eq_nil_iff.1 e).1
    revert this
    unfold escChar39
    split <;> (try split) <;> simp

theorem num_pos {s : Str} (h : Num s) : 0 < s.length := by
  rcases h with rfl | ⟨c, t, rfl, -⟩ <;> simp

theorem num_length {k : Nat} {s : Str} (hk0 : 0 < k) (h : Num s) (hl : decVal s < 10 ^ k) : s.length ≤ k := by
  apply Classical.byContradiction
  intro hk
  by_cases h1 : 1 < s.length
  · have h2 := num_ge h h1
    have h3 : 10 ^ k ≤ 10 ^ (s.length - 1) := Nat.pow_le_pow_right (by decide) (by omega)
    omega
  · have hp := num_pos h
    omega

theorem length_uCheck (s : Str) : (natStr (uCheck s)).length = 1 := by
  obtain ⟨k, e, -⟩ := natStr_uCheck_single s
  rw [e]; rfl

theorem getIdx_pos {s : Str} {c : Char} (h : getIdx s 0 = .ok c) : 0 < s.length := by
  match s with
  | [] => exact nomatch h
  | c :: t => simp

theorem natStr_pos (n : Nat) : 1 ≤ (natStr n).length := List.length_pos_iff.2 (natStr_ne_nil n)

theorem natStr_len1 {n : Nat} (h : n < 10) : (natStr n).length = 1 :=
  Nat.le_antisymm (natStr_length_le (by decide) h) (natStr_pos n)

theorem natStr_len2 {n : Nat} (h : n < 100) : 1 ≤ (natStr n).length ∧ (natStr n).length ≤ 2 :=
  ⟨natStr_pos n, natStr_length_le (by decide) h⟩

theorem adiSerial_pos {s : Str} (h : Lang (.seq (opt (lit (py "%23"))) (plus Rx.adiChar)) s) : 0 < s.length := by
  obtain ⟨a, b, rfl, -, c, d, rfl, hc, -⟩ := h
  have : 0 < c.length := by
    rcases hc with ⟨e, -, rfl⟩ | hc
    · simp
    · rw [(lang_lit _ _).1 hc]; decide
  simp only [List.length_append]
  omega

theorem checksum_len {s : Str} {k : Nat} (h : calculateChecksum s = .ok k) : (natStr k).length = 1 := by
  unfold calculateChecksum at h
  obtain ⟨ds, -, h⟩ := bind_ok_iff.1 h
  dsimp only at h
  rw [pure_ok] at h
  injection h with h
  exact natStr_len1 (h ▸ Nat.mod_lt _ (by decide))

theorem gs3a3_run (n : Nat) : Lang Rx.gs3a3 ('1' :: ':' :: List.replicate n '1') := by
  have one : ∀ c : Char, isGs3a3Plain c = true → ∀ t, Star (Lang Rx.gs3a3Char) t → Star (Lang Rx.gs3a3Char) (c :: t) := fun c hc t ht =>
    Star.cons (a := [c]) ((lang_gs3a3Char _).2 (.inr ⟨c, hc, rfl⟩)) ht
  refine gs3a3_of_star (one _ (by decide) _ (one _ (by decide) _ ?_)) (by simp)
  induction n with
  | zero => exact Star.nil
  | succ n ih => exact one _ (by decide) _ ih

theorem verify_pos {s : Str} (h : verifyGs3a3 s = .ok ()) : 0 < s.length := by
  match s with
  | [] => exact absurd h (by decide)
  | c :: t => simp

theorem ok_of_toBool {α : Type} {r : Except Err α} (h : r.toBool = true) : ∃ x, r = .ok x := by
  cases r with
  | error e => exact Bool.noConfusion h
  | ok x => exact ⟨x, rfl⟩

theorem written_of {α : Type} {n : Str → Except Err α} {f : α → Except Err Str} {u : Str} {k : Nat}
    (h : ((n u >>= f).toOption.map List.length) = some k) : ∃ t x, n u = .ok x ∧ f x = .ok t ∧ t.length = k := by
  cases hu : n u with
  | error e => rw [hu] at h; exact nomatch h
  | ok x =>
    rw [hu, ok_bind] at h
    cases hf : f x with
    | error e => rw [hf] at h; exact nomatch h
    | ok t =>
      rw [hf] at h
      exact ⟨t, x, rfl, hf, Option.some.inj h⟩

end Epc
