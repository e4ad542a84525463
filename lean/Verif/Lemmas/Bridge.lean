/-
The specification vocabulary of `Verif/Spec` in terms of the classes the model uses.
-/
import Verif.Spec.Basic
import Verif.Lemmas.Bits

namespace Epc
open Spec

theorem mem_ascii_list {l : Str} (hl : l.all (fun c => decide (c.toNat < 128)) = true) {p : Char → Bool}
    (h : ∀ n : Fin 128, (Char.ofNat n.val ∈ l ↔ p (Char.ofNat n.val) = true)) (hp : ∀ c, p c = true → c.toNat < 128)
    (c : Char) : c ∈ l ↔ p c = true := by
  constructor
  · intro hc
    have : c.toNat < 128 := by
      have := List.all_eq_true.1 hl c hc
      simpa using this
    exact (ascii_forall (P := fun c => (c ∈ l ↔ p c = true)) h c this).1 hc
  · intro hc
    exact (ascii_forall (P := fun c => (c ∈ l ↔ p c = true)) h c (hp c hc)).2 hc

theorem isAlphaA_lt {c : Char} (h : isAlphaA c = true) : c.toNat < 128 := by
  simp only [isAlphaA, Bool.or_eq_true, Bool.and_eq_true, decide_eq_true_eq, char_le_iff] at h
  have h1 : 'z'.toNat = 122 := rfl
  have h2 : 'Z'.toNat = 90 := rfl
  omega

theorem isGs3a3Punct_lt {c : Char} (h : isGs3a3Punct c = true) : c.toNat < 128 := by
  simp only [isGs3a3Punct, Bool.or_eq_true, beq_iff_eq] at h
  rcases h with (((((((((((h | h) | h) | h) | h) | h) | h) | h) | h) | h) | h) | h) | h <;> subst h <;> decide

theorem isEscaped_lt {c : Char} (h : isEscaped c = true) : c.toNat < 128 := by
  simp only [isEscaped, Bool.or_eq_true, beq_iff_eq] at h
  rcases h with (((((h | h) | h) | h) | h) | h) | h <;> subst h <;> decide

theorem isGs3a3Plain_lt {c : Char} (h : isGs3a3Plain c = true) : c.toNat < 128 := by
  simp only [isGs3a3Plain, Bool.or_eq_true] at h
  rcases h with (h | h) | h
  · exact isAlphaA_lt h
  · exact isDigitA_lt h
  · exact isGs3a3Punct_lt h

theorem isGs3a3Any_lt {c : Char} (h : isGs3a3Any c = true) : c.toNat < 128 := by
  simp only [isGs3a3Any, Bool.or_eq_true] at h
  rcases h with h | h
  · exact isGs3a3Plain_lt h
  · exact isEscaped_lt h

theorem mem_gs82 (c : Char) : c ∈ gs82 ↔ isGs3a3Any c = true :=
  mem_ascii_list (by decide) (by decide +kernel) (fun _ => isGs3a3Any_lt) c

theorem mem_digits (c : Char) : c ∈ py "0123456789" ↔ isDigitA c = true :=
  mem_ascii_list (by decide) (by decide +kernel) (fun _ => isDigitA_lt) c

theorem digits_iff (s : Str) : Digits s ↔ ∀ c ∈ s, isDigitA c = true := by
  simp only [Digits, mem_digits]

theorem bits_iff (s : Str) : Bits s ↔ CanonDigits 2 s := canonDigits_two.symm

theorem isDigitA_of_decimal_ascii {s : Str} (ha : Ascii s) (h : ∀ c ∈ s, isDecimal c = true) : Digits s := by
  rw [digits_iff]
  intro c hc
  exact isDigitA_of_isDecimal (h c hc) (ha c hc)

theorem number_eq {s : Str} (h : Digits s) : number s = digVal 10 s := by
  rw [digits_iff] at h
  have key : ∀ acc, s.foldl (fun n c => 10 * n + (c.toNat - 48)) acc = digValFrom 10 acc s := by
    induction s with
    | nil => intro acc; rfl
    | cons c s ih =>
      intro acc
      have hc := h c (by simp)
      simp only [List.foldl_cons, digValFrom]
      rw [ih (fun x hx => h x (List.mem_cons_of_mem _ hx)), digitVal_of_isDigitA hc, Nat.mul_comm]
      rfl
  exact key 0

theorem bitsNumber_eq {s : Str} (h : Bits s) : bitsNumber s = digVal 2 s := by
  have key : ∀ acc, s.foldl (fun n c => 2 * n + (if c = '1' then 1 else 0)) acc = digValFrom 2 acc s := by
    induction s with
    | nil => intro acc; rfl
    | cons c s ih =>
      intro acc
      have hc := h c (by simp)
      simp only [List.foldl_cons, digValFrom]
      rw [ih (fun x hx => h x (List.mem_cons_of_mem _ hx)), Nat.mul_comm]
      congr 1
      rcases hc with rfl | rfl <;> rfl
  exact key 0

theorem pyInt_Digits {s : Str} (h : Digits s) (hne : s ≠ []) : pyInt 10 s = .ok (number s) := by
  rw [number_eq h, pyInt_digits (by decide) (digitsIn_ten ((digits_iff s).1 h)) hne]

theorem decVal_Digits {s : Str} (h : Digits s) : decVal s = number s := by
  rw [number_eq h, decVal_ascii ((digits_iff s).1 h)]

theorem isDecimal_of_Digits {s : Str} (h : Digits s) : ∀ c ∈ s, isDecimal c = true :=
  fun c hc => isDecimal_of_isDigitA ((digits_iff s).1 h c hc)

theorem number_lt {s : Str} (h : Digits s) : number s < 10 ^ s.length := by
  rw [number_eq h]; exact digVal_lt (digitsIn_ten ((digits_iff s).1 h))

theorem natStr_number {s : Str} (h : Digits s) (hne : s ≠ []) : padLeft '0' s.length (natStr (number s)) = s := by
  rw [number_eq h, natStr]
  exact padLeft_toDigits_digVal (by decide) (by decide) (canonDigits_ten ((digits_iff s).1 h)) hne

theorem number_natStr (n : Nat) : number (natStr n) = n := by
  rw [number_eq ((digits_iff _).2 (isDigitA_natStr n)), natStr, digVal_toDigits (by decide) (by decide)]

theorem Digits_natStr (n : Nat) : Digits (natStr n) := (digits_iff _).2 (isDigitA_natStr n)

theorem Digits_append {s t : Str} : Digits (s ++ t) ↔ Digits s ∧ Digits t := by
  simp only [Digits, List.mem_append]
  constructor
  · intro h; exact ⟨fun c hc => h c (.inl hc), fun c hc => h c (.inr hc)⟩
  · rintro ⟨h1, h2⟩ c (hc | hc)
    · exact h1 c hc
    · exact h2 c hc

theorem Digits_cons {c : Char} {t : Str} : Digits (c :: t) ↔ c ∈ py "0123456789" ∧ Digits t := by
  simp [Digits]

theorem Bits_append {s t : Str} : Bits (s ++ t) ↔ Bits s ∧ Bits t := by
  rw [bits_iff, bits_iff, bits_iff]; exact CanonDigits.append

theorem Bits_bin (w n : Nat) : Bits (bin w n) := (bits_iff _).2 (canonDigits_bin w n)

/-- A number without superfluous leading zero is the decimal form of its value. -/
theorem natStr_number_of_no_zero {s : Str} (h : Digits s) (hne : s ≠ [])
    (hz : ¬ (s.length > 1 ∧ s.head? = some '0')) : natStr (number s) = s := by
  have h1 := natStr_number h hne
  have hlen : (natStr (number s)).length = s.length := by
    have hle : (natStr (number s)).length ≤ s.length := by
      have := congrArg List.length h1
      rw [length_padLeft] at this; omega
    rcases Nat.lt_or_ge (natStr (number s)).length s.length with hlt | hge
    · exfalso
      have hpos : 0 < (natStr (number s)).length := List.length_pos_iff.2 (natStr_ne_nil _)
      apply hz
      refine ⟨by omega, ?_⟩
      rw [padLeft] at h1
      obtain ⟨k, hk⟩ : ∃ k, s.length - (natStr (number s)).length = k + 1 := ⟨_, (Nat.succ_pred (by omega)).symm⟩
      rw [hk, List.replicate_succ] at h1
      have h1' := congrArg List.head? h1
      simpa using h1'.symm
    · omega
  rw [padLeft_of_le (by omega)] at h1
  exact h1

end Epc
