/-
Numeric strings, fixed-width integers, check digits.
-/
import Verif.Lemmas.Partition

namespace Epc
open Spec

/-! ### numeric strings -/

theorem number_one_cons {s : Str} (hs : Digits s) : number ('1' :: s) = 10 ^ s.length + number s := by
  have h1 : Digits ('1' :: s) := Digits_cons.2 ⟨by decide, hs⟩
  rw [number_eq h1, number_eq hs, digVal_cons]
  simp [show digitVal '1' = some 1 from by decide]

theorem encodeNumeric_ok {s : Str} {w : Nat} (hs : Digits s) (hw : 2 * 10 ^ s.length < 2 ^ w) :
    encodeNumericString s w = .ok (bin w (number ('1' :: s))) := by
  unfold encodeNumericString
  rw [if_neg (by omega)]
  have h1 : Digits ('1' :: s) := Digits_cons.2 ⟨by decide, hs⟩
  rw [strToBinary_decimal (isDecimal_of_Digits h1) (by simp), decVal_Digits h1]

theorem numeric_lt {s : Str} {w : Nat} (hs : Digits s) (hw : 2 * 10 ^ s.length < 2 ^ w) : number ('1' :: s) < 2 ^ w := by
  rw [number_one_cons hs]
  have := number_lt hs
  omega

theorem pos_of_lt_pow {n w : Nat} (hn : 1 ≤ n) (h : n < 2 ^ w) : 0 < w := by
  cases w with
  | zero => simp at h; omega
  | succ w => omega

theorem decodeNumeric_ok {s : Str} {w : Nat} (hs : Digits s) (hne : s ≠ []) :
    decodeNumericString (bin w (number ('1' :: s))) = .ok s := by
  have h1 : Digits ('1' :: s) := Digits_cons.2 ⟨by decide, hs⟩
  have hstr : natStr (number ('1' :: s)) = '1' :: s :=
    natStr_number_of_no_zero h1 (by simp) (by simp)
  unfold decodeNumericString
  rw [pyInt_bin]
  show (if (intStr _).length ≤ 1 ∨ (intStr _).head? ≠ some '1' then _ else _) = _
  rw [intStr_ofNat, hstr]
  rw [if_neg]
  · rfl
  · have : 0 < s.length := List.length_pos_iff.2 hne
    simp; omega

/-! ### check digits -/

/-- The weighted sum of the data digits: weights 3, 1, 3, ... from the right. -/
def wsum : List Nat → Nat
  | [] => 0
  | a :: t => (if t.length % 2 = 0 then 3 * a else a) + wsum t

theorem evens_cons {α : Type} (a : α) (t : List α) : evens (a :: t) = a :: odds t := by
  cases t <;> rfl

theorem odds_cons {α : Type} (a : α) (t : List α) : odds (a :: t) = evens t := rfl

theorem wsum_eq (ds : List Nat) :
    wsum ds = if ds.length % 2 = 0 then 3 * (odds ds).sum + (evens ds).sum else 3 * (evens ds).sum + (odds ds).sum := by
  induction ds with
  | nil => rfl
  | cons a t ih =>
    rw [wsum, ih, evens_cons, odds_cons, List.length_cons]
    by_cases h : t.length % 2 = 0
    · have : ¬ (t.length + 1) % 2 = 0 := by omega
      simp only [h, this, if_true, if_false, List.sum_cons]; omega
    · have : (t.length + 1) % 2 = 0 := by omega
      simp only [h, this, if_true, if_false, List.sum_cons]; omega

/-- The weighted sum in the order of the specification. -/
theorem zipIdx_sum_append (l : List Nat) (a k : Nat) :
    (((l ++ [a]).zipIdx k).map (fun p => if p.2 % 2 = 0 then p.1 else 3 * p.1)).sum =
      ((l.zipIdx k).map (fun p => if p.2 % 2 = 0 then p.1 else 3 * p.1)).sum +
        (if (k + l.length) % 2 = 0 then a else 3 * a) := by
  induction l generalizing k with
  | nil => simp
  | cons b l ih =>
    rw [List.cons_append, List.zipIdx_cons, List.zipIdx_cons, List.map_cons, List.map_cons, List.sum_cons, List.sum_cons, ih,
      List.length_cons, show k + 1 + l.length = k + (l.length + 1) by omega]
    omega

theorem gs1Sum_cons (a : Nat) (t : List Nat) : gs1Sum (a :: t) = gs1Sum t + (if t.length % 2 = 0 then a else 3 * a) := by
  unfold gs1Sum
  rw [List.reverse_cons, zipIdx_sum_append]
  simp

theorem gs1Sum_snoc (ds : List Nat) (d : Nat) : gs1Sum (ds ++ [d]) = wsum ds + d := by
  induction ds with
  | nil => simp [gs1Sum, wsum]
  | cons a t ih =>
    rw [List.cons_append, gs1Sum_cons, ih, wsum]
    simp only [List.length_append, List.length_cons, List.length_nil]
    by_cases h : t.length % 2 = 0
    · have : ¬ (t.length + (0 + 1)) % 2 = 0 := by omega
      simp only [h, this, if_true, if_false]; omega
    · have : (t.length + (0 + 1)) % 2 = 0 := by omega
      simp only [h, this, if_true, if_false]; omega

theorem digitInt_digit {c : Char} (h : isDigitA c = true) : digitInt c = .ok (c.toNat - 48) := by
  unfold digitInt; rw [decimalVal_of_isDigitA h]

theorem mapM_digitInt {s : Str} (hs : Digits s) : s.mapM digitInt = .ok (digitValues s) := by
  unfold digitValues
  exact mapM_map_ok (fun c hc => digitInt_digit ((digits_iff s).1 hs c hc))

theorem checksum_eq {s : Str} (hs : Digits s) :
    calculateChecksum s = .ok ((10 - wsum (digitValues s) % 10) % 10) := by
  unfold calculateChecksum
  rw [mapM_digitInt hs]
  have hl : (digitValues s).length = s.length := by simp [digitValues]
  rw [wsum_eq, hl]
  by_cases h : s.length % 2 = 0
  · simp only [h, if_true]; rfl
  · simp only [h, if_false]; rfl

/-- The check digit of a digit string. -/
def checkDigit (s : Str) : Nat := (10 - wsum (digitValues s) % 10) % 10

theorem checkDigit_lt (s : Str) : checkDigit s < 10 := by unfold checkDigit; omega

theorem checksum_eq' {s : Str} (hs : Digits s) : calculateChecksum s = .ok (checkDigit s) := checksum_eq hs

theorem gs1Sum_check (s : Str) (d : Nat) (hd : d < 10) :
    gs1Sum (digitValues s ++ [d]) % 10 = 0 ↔ d = checkDigit s := by
  rw [gs1Sum_snoc]; unfold checkDigit; omega

theorem natStr_digit {d : Nat} (h : d < 10) : natStr d = [Char.ofNat (48 + d)] := by
  have : ∀ d : Fin 10, natStr d.val = [Char.ofNat (48 + d.val)] := by decide
  exact this ⟨d, h⟩

theorem digitValues_natStr {d : Nat} (h : d < 10) : digitValues (natStr d) = [d] := by
  have : ∀ d : Fin 10, digitValues (natStr d.val) = [d.val] := by decide
  exact this ⟨d, h⟩

theorem digitValues_append (s t : Str) : digitValues (s ++ t) = digitValues s ++ digitValues t := by simp [digitValues]

theorem checkDigitOk_check (s : Str) : CheckDigitOk (s ++ natStr (checkDigit s)) := by
  unfold CheckDigitOk
  rw [digitValues_append, digitValues_natStr (checkDigit_lt s), gs1Sum_check s _ (checkDigit_lt s)]

/-- Weighted sum of a prefix followed by `k` digits. -/
def wsumPre (k : Nat) : List Nat → Nat
  | [] => 0
  | a :: t => (if (t.length + k) % 2 = 0 then 3 * a else a) + wsumPre k t

theorem wsum_append (a b : List Nat) : wsum (a ++ b) = wsumPre b.length a + wsum b := by
  induction a with
  | nil => simp [wsumPre]
  | cons x a ih => rw [List.cons_append, wsum, wsumPre, ih, List.length_append]; omega

theorem digit_lt {c : Char} (h : c ∈ py "0123456789") : c.toNat - 48 < 10 := by
  rw [mem_digits, isDigitA_iff] at h; omega

theorem digit_inj {c d : Char} (hc : c ∈ py "0123456789") (hd : d ∈ py "0123456789") (h : c.toNat - 48 = d.toNat - 48) :
    c = d := by
  rw [mem_digits, isDigitA_iff] at hc hd
  rw [char_eq_iff]; omega

end Epc
