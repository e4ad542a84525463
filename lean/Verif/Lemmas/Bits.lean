/-
Facts about bit strings: fixed-width binary forms and their values.
-/
import Verif.Lemmas.Int

namespace Epc

/-- `n` written in binary with at least `w` digits. -/
def bin (w n : Nat) : Str := padLeft '0' w (Nat.toDigits 2 n)

theorem intToBinary_ofNat (n w : Nat) : intToBinary (n : Int) w = bin w n := by
  simp only [intToBinary, fmtBin, Int.natAbs_natCast]
  rw [if_neg (by omega)]; rfl

theorem canonDigits_bin (w n : Nat) : CanonDigits 2 (bin w n) :=
  canonDigits_padLeft (by decide) (canonDigits_toDigits (by decide))

theorem bin_ne_nil (w n : Nat) : bin w n ≠ [] := by
  intro h
  have := congrArg List.length h
  rw [bin, length_padLeft] at this
  have := Nat.length_toDigits_pos (b := 2) (n := n)
  simp only [List.length_nil] at *
  omega

theorem digVal_bin (w n : Nat) : digVal 2 (bin w n) = n := by
  rw [bin, digVal_padLeft, digVal_toDigits (by decide) (by decide)]

theorem length_bin {w n : Nat} (hw : 0 < w) (h : n < 2 ^ w) : (bin w n).length = w := by
  rw [bin, length_padLeft]
  have := length_toDigits_le (by decide) hw h
  omega

theorem lt_length_bin {w n : Nat} (hw : 0 < w) (h : 2 ^ w ≤ n) : w < (bin w n).length := by
  rw [bin, length_padLeft]
  have h1 : ¬ (Nat.toDigits 2 n).length ≤ w := by
    rw [Nat.length_toDigits_le_iff (by decide) hw]; omega
  omega

theorem canonDigits_two {s : Str} : CanonDigits 2 s ↔ ∀ c ∈ s, c = '0' ∨ c = '1' := by
  constructor
  · intro h c hc
    obtain ⟨d, hd, rfl⟩ := h c hc
    have : d = 0 ∨ d = 1 := by omega
    rcases this with rfl | rfl
    · exact .inl rfl
    · exact .inr rfl
  · intro h c hc
    rcases h c hc with rfl | rfl
    · exact ⟨0, by decide, rfl⟩
    · exact ⟨1, by decide, rfl⟩

theorem pyInt_bits {s : Str} (h : CanonDigits 2 s) (hne : s ≠ []) : pyInt 2 s = .ok (digVal 2 s) :=
  pyInt_digits (by decide) (h.digitsIn (by decide)) hne

theorem pyInt_bin (w n : Nat) : pyInt 2 (bin w n) = .ok n := by
  rw [pyInt_bits (canonDigits_bin w n) (bin_ne_nil w n), digVal_bin]

theorem bin_digVal {s : Str} (h : CanonDigits 2 s) (hne : s ≠ []) : bin s.length (digVal 2 s) = s :=
  padLeft_toDigits_digVal (by decide) (by decide) h hne

theorem bin_inj {w m n : Nat} (h : bin w m = bin w n) : m = n := by
  rw [← digVal_bin w m, h, digVal_bin]

theorem strToBinary_decimal {s : Str} (h : ∀ c ∈ s, isDecimal c = true) (hne : s ≠ []) (w : Nat) :
    strToBinary s w = .ok (bin w (decVal s)) := by
  unfold strToBinary
  rw [pyInt_decimal h hne]
  show Except.ok _ = _
  rw [intToBinary_ofNat]

theorem strToBinary_natStr (n w : Nat) : strToBinary (natStr n) w = .ok (bin w n) := by
  unfold strToBinary
  rw [pyInt_natStr]
  show Except.ok _ = _
  rw [intToBinary_ofNat]

theorem CanonDigits.append {b : Nat} {s t : Str} : CanonDigits b (s ++ t) ↔ CanonDigits b s ∧ CanonDigits b t := by
  simp only [CanonDigits, List.mem_append]
  constructor
  · intro h; exact ⟨fun c hc => h c (.inl hc), fun c hc => h c (.inr hc)⟩
  · rintro ⟨h1, h2⟩ c (hc | hc)
    · exact h1 c hc
    · exact h2 c hc

theorem canonDigits_replicate (k : Nat) : CanonDigits 2 (List.replicate k '0') := by
  intro c hc
  rw [List.mem_replicate] at hc
  exact ⟨0, by decide, hc.2⟩

theorem bin_zero {w : Nat} (h : 0 < w) : bin w 0 = List.replicate w '0' := by
  have : bin w 0 = List.replicate (w - 1) '0' ++ ['0'] := by
    simp [bin, padLeft]
  rw [this, show w = (w - 1) + 1 by omega, List.replicate_succ']
  simp

end Epc
