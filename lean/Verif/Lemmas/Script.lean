/-
Writing the decimal digits of other scripts as ASCII digits: what `int`, the check digit and the encoders see is unchanged.
-/
import Verif.Spec.Script
import Verif.Lemmas.Key
import Verif.Lemmas.Elem
import Verif.Lemmas.SpecDigits

namespace Epc
open Spec Re

theorem asciiDigit_ascii {c : Char} (h : c.toNat < 128) : asciiDigit c = c := by
  unfold asciiDigit
  cases e : decimalVal c with
  | none => rfl
  | some d =>
    unfold decimalVal at e
    rw [if_pos h] at e
    split at e
    · rename_i hd
      injection e with e
      have e' : 48 + d = c.toNat := by omega
      show Char.ofNat (48 + d) = c
      rw [e']
      exact Char.ofNat_toNat c
    · cases e

theorem asciiDigit_of_decimal {c : Char} {d : Nat} (h : decimalVal c = some d) : asciiDigit c = Char.ofNat (48 + d) := by
  unfold asciiDigit; rw [h]

theorem toNat_digit {d : Nat} (h : d < 10) : (Char.ofNat (48 + d)).toNat = 48 + d := by
  have : ∀ d : Fin 10, (Char.ofNat (48 + d.val)).toNat = 48 + d.val := by decide
  exact this ⟨d, h⟩

theorem decimalVal_asciiDigit (c : Char) : decimalVal (asciiDigit c) = decimalVal c := by
  cases e : decimalVal c with
  | none => unfold asciiDigit; rw [e]; exact e
  | some d =>
    have hd := decimalVal_lt e
    rw [asciiDigit_of_decimal e]
    unfold decimalVal
    rw [toNat_digit hd, if_pos (by omega)]
    congr 1
    omega

theorem isDecimal_asciiDigit (c : Char) : isDecimal (asciiDigit c) = isDecimal c := by
  unfold isDecimal; rw [decimalVal_asciiDigit]

theorem asciiDigit_lt {c : Char} (h : isDecimal c = true) : (asciiDigit c).toNat < 128 := by
  obtain ⟨d, hd⟩ := Option.isSome_iff_exists.1 h
  rw [asciiDigit_of_decimal hd, toNat_digit (decimalVal_lt hd)]
  have := decimalVal_lt hd
  omega

theorem intNormChar_asciiDigit (c : Char) : intNormChar (asciiDigit c) = intNormChar c := by
  cases e : decimalVal c with
  | none => unfold asciiDigit; rw [e]
  | some d =>
    by_cases hc : c.toNat < 128
    · rw [asciiDigit_ascii hc]
    · have hd := decimalVal_lt e
      rw [asciiDigit_of_decimal e]
      unfold intNormChar
      rw [toNat_digit hd, if_pos (by omega), if_neg (by omega), not_isUniSpace_of_decimal e hc, e]
      rfl

theorem asciiDigits_append (s t : Str) : asciiDigits (s ++ t) = asciiDigits s ++ asciiDigits t := List.map_append
theorem asciiDigits_cons (c : Char) (s : Str) : asciiDigits (c :: s) = asciiDigit c :: asciiDigits s := rfl
theorem asciiDigits_nil : asciiDigits [] = [] := rfl
theorem length_asciiDigits (s : Str) : (asciiDigits s).length = s.length := List.length_map ..
theorem asciiDigits_ascii {s : Str} (h : Ascii s) : asciiDigits s = s := by
  unfold asciiDigits
  conv => rhs; rw [← List.map_id s]
  exact List.map_congr_left fun c hc => asciiDigit_ascii (h c hc)
theorem asciiDigits_eq_nil {s : Str} : asciiDigits s = [] ↔ s = [] := List.map_eq_nil_iff
theorem asciiDigits_take (n : Nat) (s : Str) : asciiDigits (s.take n) = (asciiDigits s).take n := List.map_take
theorem asciiDigits_drop (n : Nat) (s : Str) : asciiDigits (s.drop n) = (asciiDigits s).drop n := List.map_drop

theorem dec_asciiDigits {s : Str} (h : Dec s) : Dec (asciiDigits s) := by
  intro c hc
  obtain ⟨a, ha, rfl⟩ := List.mem_map.1 hc
  rw [isDecimal_asciiDigit]; exact h a ha

theorem ascii_of_dec {s : Str} (h : Dec s) : Ascii (asciiDigits s) := by
  intro c hc
  obtain ⟨a, ha, rfl⟩ := List.mem_map.1 hc
  exact asciiDigit_lt (h a ha)

theorem num_asciiDigits {s : Str} (h : Num s) : Num (asciiDigits s) := by
  rcases h with rfl | ⟨c, t, rfl, hd, h0, ht⟩
  · exact .inl rfl
  · have hc : c.toNat < 128 := by
      unfold isDigitA at hd
      simp only [Bool.and_eq_true, decide_eq_true_eq] at hd
      omega
    refine .inr ⟨c, asciiDigits t, ?_, hd, h0, dec_asciiDigits ht⟩
    rw [asciiDigits_cons, asciiDigit_ascii hc]

theorem map_intNormChar_asciiDigits (s : Str) : (asciiDigits s).map intNormChar = s.map intNormChar := by
  unfold asciiDigits
  rw [List.map_map]
  exact List.map_congr_left fun c _ => intNormChar_asciiDigit c

theorem pyInt_asciiDigits (b : Nat) (s : Str) : pyInt b (asciiDigits s) = pyInt b s := by
  unfold pyInt
  rw [map_intNormChar_asciiDigits]

theorem decVal_asciiDigits (s : Str) : decVal (asciiDigits s) = decVal s := by
  unfold decVal
  rw [map_intNormChar_asciiDigits]

theorem uCheck_asciiDigits (s : Str) : uCheck (asciiDigits s) = uCheck s := by
  unfold uCheck decDigits asciiDigits
  rw [List.map_map]
  have e : List.map ((fun c => (decimalVal c).getD 0) ∘ asciiDigit) s = List.map (fun c => (decimalVal c).getD 0) s :=
    List.map_congr_left fun c _ => by simp only [Function.comp, decimalVal_asciiDigit]
  rw [e]

theorem asciiDigits_natStr (n : Nat) : asciiDigits (natStr n) = natStr n := asciiDigits_ascii (ascii_of_digits (Digits_natStr n))

theorem asciiDigits_py_lit {s : Str} (h : ∀ c ∈ s, c.toNat < 128) : asciiDigits s = s := asciiDigits_ascii h

theorem keyBody_asciiDigits (C I : Str) : keyBody (asciiDigits C) (asciiDigits I) = asciiDigits (keyBody C I) := by
  unfold keyBody
  rw [asciiDigits_append, asciiDigits_append, asciiDigits_take, asciiDigits_drop]

theorem padLeft_asciiDigits (n : Nat) (s : Str) : padLeft '0' n (asciiDigits s) = asciiDigits (padLeft '0' n s) := by
  unfold padLeft
  rw [asciiDigits_append, length_asciiDigits]
  congr 1
  exact (asciiDigits_ascii (fun c hc => by rw [(List.mem_replicate.1 hc).2]; decide)).symm

theorem strToBinary_asciiDigits (s : Str) (n : Nat) : strToBinary (asciiDigits s) n = strToBinary s n := by
  unfold strToBinary; rw [pyInt_asciiDigits]

theorem encodeNumericString_asciiDigits (s : Str) (n : Nat) : encodeNumericString (asciiDigits s) n = encodeNumericString s n := by
  unfold encodeNumericString
  rw [length_asciiDigits, show '1' :: asciiDigits s = asciiDigits ('1' :: s) from rfl, strToBinary_asciiDigits]

theorem encodeFixedWidthInteger_asciiDigits (s : Str) (n : Nat) :
    encodeFixedWidthInteger (asciiDigits s) n = encodeFixedWidthInteger s n := by
  unfold encodeFixedWidthInteger
  rw [pyInt_asciiDigits, strToBinary_asciiDigits]

theorem calculateChecksum_asciiDigits {s : Str} (h : Dec s) : calculateChecksum (asciiDigits s) = calculateChecksum s := by
  rw [checksum_dec h, checksum_dec (dec_asciiDigits h), uCheck_asciiDigits]

theorem encodeRef_asciiDigits (D : Str) (r : Row) : encodeRef (asciiDigits D) r .plain = encodeRef D r .plain := by
  unfold encodeRef
  dsimp only
  rw [strToBinary_asciiDigits]

/-- Company prefix and numeric reference in other scripts. -/
theorem encodePartitionTable_asciiDigits (C D : Str) (t : List Row) :
    encodePartitionTable (asciiDigits C) (asciiDigits D) t = encodePartitionTable C D t := by
  unfold encodePartitionTable
  rw [length_asciiDigits]
  simp only [strToBinary_asciiDigits, encodeRef_asciiDigits]

/-- Only the company prefix in another script. -/
theorem encodePartitionTable_asciiDigits' (C D : Str) (t : List Row) (m : PartMode) :
    encodePartitionTable (asciiDigits C) D t m = encodePartitionTable C D t m := by
  unfold encodePartitionTable
  rw [length_asciiDigits]
  simp only [strToBinary_asciiDigits]

theorem uCheck_keyBody_ad (C I : Str) : uCheck (keyBody (asciiDigits C) (asciiDigits I)) = uCheck (keyBody C I) := by
  rw [keyBody_asciiDigits, uCheck_asciiDigits]

theorem uCheck_append_ad (C I : Str) : uCheck (asciiDigits C ++ asciiDigits I) = uCheck (C ++ I) := by
  rw [← asciiDigits_append, uCheck_asciiDigits]

theorem uCheck_cons_ad (i : Char) (C I : Str) : uCheck (asciiDigit i :: (asciiDigits C ++ asciiDigits I)) = uCheck (i :: (C ++ I)) := by
  rw [← asciiDigits_append, ← asciiDigits_cons, uCheck_asciiDigits]

theorem asciiDigits_unescaped {S : Str} (h : Lang Rx.gs3a3 S) : asciiDigits (replaceUriEscapes S) = replaceUriEscapes S := by
  have : ∀ c ∈ gs82, c.toNat < 128 := by decide
  exact asciiDigits_ascii fun c hc => this c (unescaped_gs82 h c hc)

theorem asciiDigits_filterStr (n : Nat) : asciiDigits (filterStr n) = filterStr n := asciiDigits_natStr n

theorem asciiDigits_ne_nil {s : Str} (h : s ≠ []) : asciiDigits s ≠ [] := fun e => h (asciiDigits_eq_nil.1 e)

theorem asciiDigit_dot : asciiDigit '.' = '.' := by decide
theorem asciiDigit_colon : asciiDigit ':' = ':' := by decide

theorem asciiDigits_ascii_all {s : Str} (h : ∀ c ∈ s, c.toNat < 128 ∨ isDecimal c = true) : Ascii (asciiDigits s) := by
  intro c hc
  obtain ⟨a, ha, rfl⟩ := List.mem_map.1 hc
  rcases h a ha with h | h
  · rw [asciiDigit_ascii h]; exact h
  · exact asciiDigit_lt h

end Epc
