/-
What the URI regex and `verify_gs3a3_component` say about a serial, in terms of Spec/Serial.
-/
import Verif.Lemmas.Verify
import Verif.Spec.Serial

namespace Epc
open Spec Re

theorem plain_spec {c : Char} (h : isGs3a3Plain c = true) : c ∈ gs82 ∧ c ∉ py "\"&/<>?" ∧ c ≠ '%' := by
  have hlt : c.toNat < 128 := isGs3a3Any_lt (by unfold isGs3a3Any; rw [h]; rfl)
  have key : ∀ n < 128, isGs3a3Plain (Char.ofNat n) = true → (Char.ofNat n ∈ gs82 ∧ Char.ofNat n ∉ py "\"&/<>?" ∧ Char.ofNat n ≠ '%') := by decide +kernel
  have := key c.toNat hlt
  rw [Char.ofNat_toNat] at this
  exact this h

theorem hexA_spec {c : Char} (h : isHexA c = true) : c ∈ py "0123456789abcdefABCDEF" := by
  have hlt : c.toNat < 128 := isGs3a3Any_lt (by unfold isGs3a3Any; rw [isGs3a3Plain_of_hex h]; rfl)
  have key : ∀ n < 128, isHexA (Char.ofNat n) = true → Char.ofNat n ∈ py "0123456789abcdefABCDEF" := by decide +kernel
  have := key c.toNat hlt
  rw [Char.ofNat_toNat] at this
  exact this h

theorem star_gs3a3_percent {s : Str} (h : Star (Lang Rx.gs3a3Char) s) :
    ∀ a b, s = a ++ '%' :: b → ∃ h t, b = h :: t ∧ h ∈ py "0123456789abcdefABCDEF" := by
  induction h with
  | nil => intro a b e; simp at e
  | @cons x y hx hy ih =>
    intro a b e
    rcases (lang_gs3a3Char x).1 hx with ⟨d, hd, rfl⟩ | ⟨d, hd, rfl⟩
    · match a, e with
      | [], e =>
        simp at e
        exact ⟨d, y, e.symm, hexA_spec hd⟩
      | [p], e =>
        simp at e
        have := (plain_spec (isGs3a3Plain_of_hex hd)).2.2
        exact absurd e.2.1 this
      | p :: q :: a', e =>
        simp at e
        exact ih a' b e.2.2
    · match a, e with
      | [], e =>
        simp at e
        exact absurd e.1 (plain_spec hd).2.2
      | p :: a', e =>
        simp at e
        exact ih a' b e.2

theorem serialText_of_lang {s : Str} (h : Lang Rx.gs3a3 s) : SerialText s := by
  refine ⟨gs3a3_ne_nil h, ?_, star_gs3a3_percent (gs3a3_star h)⟩
  intro c hc
  rcases gs3a3_mem h c hc with rfl | hp
  · exact ⟨by decide, by decide⟩
  · exact ⟨(plain_spec hp).1, (plain_spec hp).2.1⟩

theorem percentDigits_match {x y z : Char} {t : Str} (hx : x = '%') (hy : isDecimal y = true) (hz : isDecimal z = true) :
    percentDigitsLen (x :: y :: z :: t) = some 3 := by
  subst hx
  simp [percentDigitsLen, fixedLen, fixedMatch, hy, hz]

theorem percentDigits_inv {s : Str} {n : Nat} (h : percentDigitsLen s = some n) :
    n = 3 ∧ ∃ y z t, s = '%' :: y :: z :: t ∧ isDecimal y = true ∧ isDecimal z = true := by
  unfold percentDigitsLen fixedLen at h
  split at h
  · rename_i hm
    injection h with h
    refine ⟨h.symm, ?_⟩
    match s, hm with
    | [], hm => simp [fixedMatch] at hm
    | [x], hm => simp [fixedMatch] at hm
    | [x, y], hm => simp [fixedMatch] at hm
    | x :: y :: z :: t, hm =>
      simp only [fixedMatch, Bool.and_eq_true, beq_iff_eq, Bool.and_true] at hm
      exact ⟨y, z, t, by rw [hm.1], hm.2.1, hm.2.2⟩
  · cases h

theorem splitCap_ne_nil (m : Str → Option Nat) (s : Str) : ∃ h t, splitCap m s = h :: t := by
  unfold splitCap
  generalize 0 = k
  induction s generalizing k with
  | nil => exact ⟨[], [], by cases k <;> rfl⟩
  | cons x xs ih =>
    cases k with
    | succ k => exact ih k
    | zero =>
      unfold splitCapGo
      split
      · exact ⟨_, _, rfl⟩
      · split
        · exact ⟨_, _, rfl⟩
        · exact ⟨_, _, rfl⟩

theorem percent_piece {d e : Char} (hd : isDecimal d = true) (he : isDecimal e = true) (b : Str) : ∀ (n : Nat) (a : Str), a.length ≤ n →
    ['%', d, e] ∈ (splitCap percentDigitsLen (a ++ '%' :: d :: e :: b)).tail := by
  have hp : isDecimal '%' = false := by decide
  intro n
  induction n with
  | zero =>
    intro a ha
    cases a with
    | cons => simp at ha
    | nil =>
      rw [List.nil_append, splitCap_three (percentDigits_match rfl hd he)]
      simp
  | succ n ih =>
    intro a ha
    cases a with
    | nil =>
      rw [List.nil_append, splitCap_three (percentDigits_match rfl hd he)]
      simp
    | cons x a =>
      cases hm : percentDigitsLen (x :: (a ++ '%' :: d :: e :: b)) with
      | none =>
        obtain ⟨h, t, ht⟩ := splitCap_ne_nil percentDigitsLen (a ++ '%' :: d :: e :: b)
        have := ih a (by simp at ha; omega)
        rw [List.cons_append, splitCap_none hm ht]
        rw [ht] at this
        exact this
      | some k =>
        obtain ⟨rfl, y, z, t, hs, hy, hz⟩ := percentDigits_inv hm
        match a, hs with
        | [], hs => simp at hs; rw [← hs.2.1, hp] at hy; cases hy
        | [p], hs => simp at hs; rw [← hs.2.2.1, hp] at hz; cases hz
        | p :: q :: a', hs =>
          simp at hs
          obtain ⟨rfl, rfl, rfl, rfl⟩ := hs
          simp only [List.cons_append]
          rw [splitCap_three (percentDigits_match rfl hy hz)]
          have := ih a' (by simp at ha; omega)
          simp only [List.tail_cons, List.mem_cons]
          exact .inr (List.mem_of_mem_tail this)

theorem any_gs82 {c : Char} (h : isGs3a3Any c = true) : c ∈ gs82 := by
  have hlt : c.toNat < 128 := isGs3a3Any_lt h
  have key : ∀ n < 128, isGs3a3Any (Char.ofNat n) = true → Char.ofNat n ∈ gs82 := by decide +kernel
  have := key c.toNat hlt
  rw [Char.ofNat_toNat] at this
  exact this h

theorem chr_digits : ∀ d ∈ py "0123456789", ∀ e ∈ py "0123456789",
    ∃ c, (do let c ← chr ((16 * (d.toNat - 48) + (e.toNat - 48) : Nat) : Int); return [c] : Except Err Str) = .ok [c] ∧
      c.toNat = 16 * (d.toNat - 48) + (e.toNat - 48) := by
  intro d hd e he
  refine ⟨Char.ofNat (16 * (d.toNat - 48) + (e.toNat - 48)), ?_, ?_⟩
  · revert d e; decide +kernel
  · revert d e; decide +kernel

theorem digitEscapes_of_verify {s : Str} (hv : verifyGs3a3 s = .ok ()) : DigitEscapes s := by
  intro a d e b hs hd he
  have hdec : ∀ c ∈ py "0123456789", isDecimal c = true := by decide +kernel
  have hdd := hdec d hd
  have hed := hdec e he
  have hp := List.mem_of_mem_tail (percent_piece hdd hed b a.length a (Nat.le_refl _))
  rw [← hs] at hp
  unfold verifyGs3a3 at hv
  rw [bind_ok_iff] at hv
  obtain ⟨ps, hps, hv⟩ := hv
  have hf : verifyGs3a3Re.fullmatch ps.flatten = true := by
    cases hf : verifyGs3a3Re.fullmatch ps.flatten with
    | true => rfl
    | false => rw [hf] at hv; cases hv
  rw [fullmatch_iff] at hf
  unfold verifyGs3a3Re at hf
  rw [lang_cls_plus] at hf
  obtain ⟨r, hr, hr'⟩ := mapM_ok_forall hps _ hp
  have key : ∀ d ∈ py "0123456789", ∀ e ∈ py "0123456789", pyInt 16 [d, e] = .ok ((16 * (d.toNat - 48) + (e.toNat - 48) : Nat) : Int) := by
    decide +kernel
  have key2 : ∀ d ∈ py "0123456789", ∀ e ∈ py "0123456789", ∃ c, verifyPiece ['%', d, e] = .ok [c] ∧ c.toNat = 16 * (d.toNat - 48) + (e.toNat - 48) := by
    intro d hd e he
    unfold verifyPiece
    dsimp only
    rw [if_neg (by simp), key d hd e he]
    exact chr_digits d hd e he
  obtain ⟨c, hc, hc'⟩ := key2 d hd e he
  rw [hc] at hr'
  injection hr' with hr'
  subst hr'
  exact ⟨c, any_gs82 (hf.2 c (List.mem_flatten.2 ⟨[c], hr, by simp⟩)), hc'⟩

theorem split_head_form (c : Char) (s : Str) : ∃ t, s = (split c s).headD [] ++ t ∧ c ∉ (split c s).headD [] ∧ (t = [] ∨ t.head? = some c) := by
  induction s with
  | nil => exact ⟨[], rfl, by simp [split], .inl rfl⟩
  | cons x xs ih =>
    by_cases hx : x = c
    · subst hx
      rw [split_cons_sep]
      exact ⟨x :: xs, rfl, by simp, .inr rfl⟩
    · obtain ⟨t, h1, h2, h3⟩ := ih
      rw [split_cons_ne hx]
      refine ⟨t, ?_, ?_, h3⟩
      · simp only [List.headD_cons, List.cons_append, ← h1]
      · simp only [List.headD_cons, List.mem_cons, not_or]
        exact ⟨Ne.symm hx, h2⟩

end Epc
