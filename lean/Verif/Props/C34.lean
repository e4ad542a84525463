/-
C34: shorter GTINs are returned exactly when they exist.

For every accepted SGTIN or LGTIN with GTIN-14 `g` and every GTIN type `t` (8, 12, 13 or 14 digits): `gs1_key(gtin_type=t)` returns `k`
exactly if `g` is `k` padded with zeros on the left, `k` then has the wanted length, and otherwise it raises `ConvertException`.
Generated by tools/gen_c33.py.
-/
import Verif.Lemmas.Key

namespace Epc
open Spec

/-- The number of digits of a GTIN type. -/
def gtinLength : GtinType → Nat
  | .gtin8 => 8
  | .gtin12 => 12
  | .gtin13 => 13
  | .gtin14 => 14

/-- SGTIN. -/
theorem C34_sgtin (u : Str) (x : SGTIN) (t : GtinType) (hu : SGTIN.new u = .ok x) :
    ∃ g, x.gs1Key = .ok g ∧ g.length = 14 ∧
      (∀ k, x.gs1Key t = .ok k ↔ g = List.replicate (14 - gtinLength t) '0' ++ k) ∧
      (∀ k, x.gs1Key t = .ok k → k.length = gtinLength t) ∧
      ((∀ k, g ≠ List.replicate (14 - gtinLength t) '0' ++ k) → x.gs1Key t = .error .convert) := by
  obtain ⟨i, I, _, hk⟩ := SGTIN.key hu
  have hl := hk.2.1
  have hg : x.gs1Key = .ok x.gtin14 := by
    show Except.ok (x.gtin14.take 14) = _
    rw [List.take_of_length_le (Nat.le_of_eq hl)]
  have ht : t.toNat = gtinLength t := by cases t <;> rfl
  have ht' : gtinLength t ≤ 14 := by cases t <;> decide
  have hkey : x.gs1Key t = if t ≠ .gtin14 ∧ startsWith x.gtin14 (List.replicate (14 - gtinLength t) '0') = false then .error .convert
      else .ok (slice x.gtin14 (14 - gtinLength t) 14) := by
    rw [← ht]; rfl
  have hsl : slice x.gtin14 (14 - gtinLength t) 14 = x.gtin14.drop (14 - gtinLength t) := by
    have := slice_to_length x.gtin14 (14 - gtinLength t)
    rwa [hl] at this
  have hiff : ∀ k, x.gs1Key t = .ok k ↔ x.gtin14 = List.replicate (14 - gtinLength t) '0' ++ k := by
    intro k
    rw [hkey, hsl]
    by_cases h : startsWith x.gtin14 (List.replicate (14 - gtinLength t) '0') = true
    · rw [if_neg (by rw [h]; simp)]
      obtain ⟨r, hr⟩ := startsWith_iff.1 h
      rw [hr, drop_append_eq (by simp)]
      constructor
      · intro h; injection h with h; rw [h]
      · intro h; rw [List.append_cancel_left h]
    · have h' := Bool.eq_false_iff.2 h
      constructor
      · intro hk'
        by_cases h14 : t = .gtin14
        · subst h14
          exact absurd (startsWith_iff.2 ⟨x.gtin14, rfl⟩) h
        · rw [if_pos ⟨h14, h'⟩] at hk'
          cases hk'
      · intro e
        exact absurd (startsWith_iff.2 ⟨k, e⟩) h
  refine ⟨x.gtin14, hg, hl, hiff, ?_, ?_⟩
  · intro k hk'
    have e := (hiff k).1 hk'
    rw [e] at hl
    simp at hl
    omega
  · intro hno
    rw [hkey]
    rw [if_pos]
    have h' : startsWith x.gtin14 (List.replicate (14 - gtinLength t) '0') = false := by
      rw [Bool.eq_false_iff]
      intro h
      obtain ⟨r, hr⟩ := startsWith_iff.1 h
      exact hno r hr
    refine ⟨?_, h'⟩
    rintro rfl
    exact hno x.gtin14 rfl

example : ((SGTIN.new (py "urn:epc:id:sgtin:9521141.012345.1")).toOption.map (·.gs1Key .gtin13)) = some (.ok (py "9521141123454")) := by decide +kernel
example : ((SGTIN.new (py "urn:epc:id:sgtin:9521141.112345.1")).toOption.map (·.gs1Key .gtin13)) = some (.error .convert) := by decide +kernel
example : ((SGTIN.new (py "urn:epc:id:sgtin:0000001.012345.1")).toOption.map (·.gs1Key .gtin8)) = some (.ok (py "01123456")) := by decide +kernel

/-- LGTIN. -/
theorem C34_lgtin (u : Str) (x : LGTIN) (t : GtinType) (hu : LGTIN.new u = .ok x) :
    ∃ g, x.gs1Key = .ok g ∧ g.length = 14 ∧
      (∀ k, x.gs1Key t = .ok k ↔ g = List.replicate (14 - gtinLength t) '0' ++ k) ∧
      (∀ k, x.gs1Key t = .ok k → k.length = gtinLength t) ∧
      ((∀ k, g ≠ List.replicate (14 - gtinLength t) '0' ++ k) → x.gs1Key t = .error .convert) := by
  obtain ⟨i, I, _, hk⟩ := LGTIN.key hu
  have hl := hk.2.1
  have hg : x.gs1Key = .ok x.gtin14 := by
    show Except.ok (x.gtin14.take 14) = _
    rw [List.take_of_length_le (Nat.le_of_eq hl)]
  have ht : t.toNat = gtinLength t := by cases t <;> rfl
  have ht' : gtinLength t ≤ 14 := by cases t <;> decide
  have hkey : x.gs1Key t = if t ≠ .gtin14 ∧ startsWith x.gtin14 (List.replicate (14 - gtinLength t) '0') = false then .error .convert
      else .ok (slice x.gtin14 (14 - gtinLength t) 14) := by
    rw [← ht]; rfl
  have hsl : slice x.gtin14 (14 - gtinLength t) 14 = x.gtin14.drop (14 - gtinLength t) := by
    have := slice_to_length x.gtin14 (14 - gtinLength t)
    rwa [hl] at this
  have hiff : ∀ k, x.gs1Key t = .ok k ↔ x.gtin14 = List.replicate (14 - gtinLength t) '0' ++ k := by
    intro k
    rw [hkey, hsl]
    by_cases h : startsWith x.gtin14 (List.replicate (14 - gtinLength t) '0') = true
    · rw [if_neg (by rw [h]; simp)]
      obtain ⟨r, hr⟩ := startsWith_iff.1 h
      rw [hr, drop_append_eq (by simp)]
      constructor
      · intro h; injection h with h; rw [h]
      · intro h; rw [List.append_cancel_left h]
    · have h' := Bool.eq_false_iff.2 h
      constructor
      · intro hk'
        by_cases h14 : t = .gtin14
        · subst h14
          exact absurd (startsWith_iff.2 ⟨x.gtin14, rfl⟩) h
        · rw [if_pos ⟨h14, h'⟩] at hk'
          cases hk'
      · intro e
        exact absurd (startsWith_iff.2 ⟨k, e⟩) h
  refine ⟨x.gtin14, hg, hl, hiff, ?_, ?_⟩
  · intro k hk'
    have e := (hiff k).1 hk'
    rw [e] at hl
    simp at hl
    omega
  · intro hno
    rw [hkey]
    rw [if_pos]
    have h' : startsWith x.gtin14 (List.replicate (14 - gtinLength t) '0') = false := by
      rw [Bool.eq_false_iff]
      intro h
      obtain ⟨r, hr⟩ := startsWith_iff.1 h
      exact hno r hr
    refine ⟨?_, h'⟩
    rintro rfl
    exact hno x.gtin14 rfl

example : ((LGTIN.new (py "urn:epc:class:lgtin:9521141.012345.1")).toOption.map (·.gs1Key .gtin13)) = some (.ok (py "9521141123454")) := by decide +kernel
example : ((LGTIN.new (py "urn:epc:class:lgtin:9521141.112345.1")).toOption.map (·.gs1Key .gtin13)) = some (.error .convert) := by decide +kernel
example : ((LGTIN.new (py "urn:epc:class:lgtin:0000001.012345.1")).toOption.map (·.gs1Key .gtin8)) = some (.ok (py "01123456")) := by decide +kernel

end Epc
