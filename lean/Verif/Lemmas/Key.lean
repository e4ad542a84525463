/-
Lemmas about GS1 keys.
-/
import Verif.Spec.Key
import Verif.Lemmas.ElemParse

namespace Epc
open Spec

theorem digits_natStr_uCheck (s : Str) : Digits (natStr (uCheck s)) := by
  intro c hc
  rw [natStr_digit (uCheck_lt s)] at hc
  have : ∀ d < 10, Char.ofNat (48 + d) ∈ py "0123456789" := by decide
  simp only [List.mem_singleton] at hc
  rw [hc]
  exact this _ (uCheck_lt s)

theorem keyOf_check {body : Str} {n : Nat} (h : Dec body) (hl : body.length + 1 = n) :
    KeyOf n body (body ++ natStr (uCheck body)) := by
  obtain ⟨k, hk, hkd⟩ := natStr_uCheck_single body
  have hdk := digits_natStr_uCheck body
  refine ⟨⟨k, by rw [hk]⟩, ?_, ?_, ?_, ?_⟩
  · rw [List.length_append, length_natStr_uCheck]; exact hl
  · rw [uDigits_iff]; rw [hk]; exact Dec.append.2 ⟨h, hkd⟩
  · show gs1Sum (decDigits _) % 10 = 0
    have e : decDigits (body ++ natStr (uCheck body)) = decDigits body ++ [uCheck body] := by
      have e1 : decDigits (natStr (uCheck body)) = [uCheck body] := by
        rw [decDigits_of_digits hdk, digitValues_natStr (uCheck_lt _)]
      rw [← e1]
      simp only [decDigits, List.map_append]
    rw [e, gs1Sum_snoc]
    unfold uCheck
    omega
  · intro ha
    have hb := digits_of_dec_ascii h ha
    refine ⟨fun c hc => ?_, ?_⟩
    · rcases List.mem_append.1 hc with hc | hc
      · exact hb c hc
      · exact hdk c hc
    · rw [uCheck_of_digits hb]; exact checkDigitOk_check body

theorem keyOf_body_inj {n : Nat} {b b' k : Str} (h : KeyOf n b k) (h' : KeyOf n b' k) : b = b' := by
  obtain ⟨⟨c, e⟩, _⟩ := h
  obtain ⟨⟨c', e'⟩, _⟩ := h'
  rw [e] at e'
  exact (List.append_inj' e' rfl).1

theorem keyOf_length_body {n : Nat} {b k : Str} (h : KeyOf n b k) : b.length + 1 = n := by
  obtain ⟨⟨c, e⟩, hl, _⟩ := h
  rw [e] at hl
  simpa using hl

theorem startsWith_iff {s p : Str} : startsWith s p = true ↔ ∃ t, s = p ++ t := by
  unfold startsWith
  rw [List.isPrefixOf_iff_prefix]
  exact ⟨fun ⟨t, h⟩ => ⟨t, h.symm⟩, fun ⟨t, h⟩ => ⟨t, h.symm⟩⟩

namespace SGTIN

/-- The GTIN-14 of an accepted SGTIN. -/
theorem key {u : Str} {x : SGTIN} (hu : new u = .ok x) :
    ∃ i I, x.itemRef = i :: I ∧ KeyOf 14 (i :: (x.companyPref ++ I)) x.gtin14 := by
  obtain ⟨C, I, S, ⟨⟨_, hC⟩, ⟨hI0, hI⟩, _⟩, ⟨hl, _⟩, rfl, rfl⟩ := new_iff.1 hu
  cases I with
  | nil => exact absurd rfl hI0
  | cons i I =>
    rw [List.length_cons] at hl
    have hI' := Dec.cons.1 hI
    refine ⟨i, I, rfl, ?_⟩
    dsimp only
    rw [padLeft_of_le (by rw [List.length_append, length_natStr_uCheck]; simp [keyBody]; omega)]
    exact keyOf_check (Dec.cons.2 ⟨hI'.1, Dec.append.2 ⟨hC, hI'.2⟩⟩) (by simp; omega)

end SGTIN

namespace LGTIN

/-- The GTIN-14 of an accepted LGTIN. -/
theorem key {u : Str} {x : LGTIN} (hu : new u = .ok x) :
    ∃ i I, x.itemRef = i :: I ∧ KeyOf 14 (i :: (x.companyPref ++ I)) x.gtin14 := by
  obtain ⟨C, I, S, ⟨⟨_, hC⟩, ⟨hI0, hI⟩, _⟩, ⟨hl, _⟩, rfl, rfl⟩ := new_iff.1 hu
  cases I with
  | nil => exact absurd rfl hI0
  | cons i I =>
    rw [List.length_cons] at hl
    have hI' := Dec.cons.1 hI
    refine ⟨i, I, rfl, ?_⟩
    dsimp only
    rw [padLeft_of_le (by rw [List.length_append, length_natStr_uCheck]; simp [keyBody]; omega)]
    exact keyOf_check (Dec.cons.2 ⟨hI'.1, Dec.append.2 ⟨hC, hI'.2⟩⟩) (by simp; omega)

end LGTIN
end Epc
