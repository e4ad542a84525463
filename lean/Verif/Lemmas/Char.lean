/-
Facts about characters, proved by checking the 128 ASCII code points.
-/
import Verif.Model.Regexes

namespace Epc

theorem Char.ofNat_toNat' (c : Char) : Char.ofNat c.toNat = c := by
  simp

/-- A decidable statement about all ASCII characters. -/
theorem ascii_forall {P : Char → Prop} [DecidablePred P] (h : ∀ n : Fin 128, P (Char.ofNat n.val)) (c : Char)
    (hc : c.toNat < 128) : P c := by
  have := h ⟨c.toNat, hc⟩
  simpa using this

theorem char_le_iff (a b : Char) : a ≤ b ↔ a.toNat ≤ b.toNat := by
  rw [Char.le_def, UInt32.le_iff_toNat_le]; rfl

theorem char_eq_iff (a b : Char) : a = b ↔ a.toNat = b.toNat := by
  constructor
  · rintro rfl; rfl
  · intro h; rw [← Char.ofNat_toNat' a, h, Char.ofNat_toNat']

theorem isDigitA_iff (c : Char) : isDigitA c = true ↔ 48 ≤ c.toNat ∧ c.toNat ≤ 57 := by
  simp [isDigitA]

theorem isDigitA_lt {c : Char} (h : isDigitA c = true) : c.toNat < 128 := by
  rw [isDigitA_iff] at h; omega

theorem decimalVal_of_isDigitA {c : Char} (h : isDigitA c = true) : decimalVal c = some (c.toNat - 48) := by
  rw [isDigitA_iff] at h; simp [decimalVal, h]

theorem isDecimal_of_isDigitA {c : Char} (h : isDigitA c = true) : isDecimal c = true := by
  simp [isDecimal, decimalVal_of_isDigitA h]

theorem isDigitA_of_isDecimal {c : Char} (h : isDecimal c = true) (hc : c.toNat < 128) : isDigitA c = true := by
  rw [isDigitA_iff]
  unfold isDecimal decimalVal at h
  split at h
  · assumption
  · simp at h

theorem isDigitA_eq_isDecimal {c : Char} (hc : c.toNat < 128) : isDigitA c = isDecimal c := by
  rw [Bool.eq_iff_iff]
  exact ⟨isDecimal_of_isDigitA, fun h => isDigitA_of_isDecimal h hc⟩

theorem findRun_lt {n : Nat} {l : List Nat} {d : Nat} (h : findRun n l = some d) : d < 10 := by
  induction l with
  | nil => simp [findRun] at h
  | cons z zs ih =>
    unfold findRun at h
    split at h
    · simp at h; omega
    · exact ih h

theorem decimalVal_lt {c : Char} {d : Nat} (h : decimalVal c = some d) : d < 10 := by
  unfold decimalVal at h
  split at h
  · simp at h; omega
  · split at h
    · simp at h
    · exact findRun_lt h

/-- Decimal digits are none of the characters the code uses as separators. -/
theorem isDecimal_ne {c d : Char} (h : isDecimal c = true) (hd : d.toNat < 128) (hd' : isDigitA d = false) : c ≠ d := by
  rintro rfl
  rw [isDigitA_of_isDecimal h hd] at hd'
  cases hd'

theorem isDecimal_ne_dot {c : Char} (h : isDecimal c = true) : c ≠ '.' := isDecimal_ne h (by decide) (by decide)
theorem isDecimal_ne_colon {c : Char} (h : isDecimal c = true) : c ≠ ':' := isDecimal_ne h (by decide) (by decide)
theorem isDecimal_ne_dash {c : Char} (h : isDecimal c = true) : c ≠ '-' := isDecimal_ne h (by decide) (by decide)

end Epc
