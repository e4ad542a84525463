/-
Bridges between the digit vocabulary of the specification and the predicates used in the proofs.
-/
import Verif.Spec.Digits
import Verif.Lemmas.NewMore

namespace Epc
open Spec Re

theorem uDigits_iff (s : Str) : UDigits s ↔ Dec s := by
  unfold UDigits Dec isDecimal
  simp only [Option.isSome_iff_exists]

theorem unumber_go {s : Str} (h : Dec s) (a : Nat) :
    digValFrom 10 a (s.map intNormChar) = s.foldl (fun n c => 10 * n + (decimalVal c).getD 0) a := by
  unfold digValFrom
  induction s generalizing a with
  | nil => rfl
  | cons c t ih =>
    rw [Dec.cons] at h
    simp only [List.map_cons, List.foldl_cons]
    obtain ⟨d, hd⟩ := Option.isSome_iff_exists.1 h.1
    rw [ih h.2, digitVal_intNormChar hd, hd, Nat.mul_comm]

theorem unumber_eq {s : Str} (h : Dec s) : decVal s = unumber s := unumber_go h 0

theorem unumber_of_digits {s : Str} (h : Digits s) : unumber s = number s := by
  rw [← unumber_eq (dec_of_digits h), decVal_Digits h]

theorem mem_digits19 (c : Char) : c ∈ py "123456789" ↔ isDigitA c = true ∧ c ≠ '0' := by
  have e : c ∈ py "123456789" ↔ c ∈ py "0123456789" ∧ c ≠ '0' := by
    simp only [List.mem_cons]
    constructor
    · intro h
      refine ⟨.inr h, ?_⟩
      rintro rfl; revert h; decide
    · rintro ⟨h, h'⟩
      exact h.resolve_left h'
  rw [e, mem_digits]

theorem uNumeral_iff (s : Str) : UNumeral s ↔ Num s := by
  unfold UNumeral Num
  simp only [mem_digits19, uDigits_iff, and_assoc]

theorem numeral_of_num {s : Str} (h : Num s) (ha : Ascii s) : Numeral s :=
  ⟨digits_of_dec_ascii h.dec ha, h.ne_nil, h.no_zero⟩

theorem num_of_numeral {s : Str} (h : Numeral s) : Num s := num_of_digits h.1 h.2.1 h.2.2

theorem mem_cage (c : Char) : c ∈ cageChars ↔ Rx.isCage c = true :=
  mem_ascii_list (by decide) (by decide +kernel) (fun c h => (isCage_facts h).2.2.2.2) c

theorem isBicOwner_lt {c : Char} (h : Rx.isBicOwner c = true) : c.toNat < 128 := by
  simp only [Rx.isBicOwner, Bool.and_eq_true] at h
  exact isUpperA_lt h.1.1

theorem mem_bicLetters (c : Char) : c ∈ bicLetters ↔ Rx.isBicOwner c = true :=
  mem_ascii_list (by decide) (by decide +kernel) (fun c h => isBicOwner_lt h) c

theorem ascii_uri2 {q a b : Str} (h : Ascii (q ++ ':' :: (a ++ '.' :: b))) : Ascii a ∧ Ascii b := by
  simp only [ascii_append, ascii_cons] at h
  exact ⟨h.2.2.1, h.2.2.2.2⟩

theorem ascii_uri3 {q a b c : Str} (h : Ascii (q ++ ':' :: (a ++ '.' :: (b ++ '.' :: c)))) : Ascii a ∧ Ascii b ∧ Ascii c := by
  simp only [ascii_append, ascii_cons] at h
  exact ⟨h.2.2.1, h.2.2.2.2.1, h.2.2.2.2.2.2⟩

theorem ascii_uri5 {q a b c d e : Str} (h : Ascii (q ++ ':' :: (a ++ '.' :: (b ++ '.' :: (c ++ '.' :: (d ++ '.' :: e)))))) :
    Ascii a ∧ Ascii b ∧ Ascii c ∧ Ascii d ∧ Ascii e := by
  simp only [ascii_append, ascii_cons] at h
  exact ⟨h.2.2.1, h.2.2.2.2.1, h.2.2.2.2.2.2.1, h.2.2.2.2.2.2.2.2.1, h.2.2.2.2.2.2.2.2.2.2⟩

end Epc
