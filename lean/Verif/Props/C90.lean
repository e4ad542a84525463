/-
C90: `gtin(gtin_type=n)` and `gs1_key(gtin_type=n)` of SGTIN and LGTIN for any integer `n` (the members of `GTIN_TYPE` are integers, and nothing
checks that the argument is one of them).  The claim that a text of `n` digits is returned or ConvertException raised is false for n > 14.
-/
import Verif.Lemmas.Key
import Verif.Model.Numbers

namespace Epc
open Spec

private theorem startsWith_zeros {G : Str} (k : Nat) :
    startsWith G (List.replicate k '0') = true ↔ G.take k = List.replicate k '0' := by
  unfold startsWith
  rw [List.isPrefixOf_iff_prefix, List.prefix_iff_eq_take, List.length_replicate]
  exact eq_comm

private theorem startsWith_long {G : Str} {k : Nat} (hk : G.length < k) : startsWith G (List.replicate k '0') = false := by
  cases h : startsWith G (List.replicate k '0') with
  | false => rfl
  | true =>
    unfold startsWith at h
    rw [List.isPrefixOf_iff_prefix] at h
    have := h.length_le
    rw [List.length_replicate] at this
    omega

private theorem slice_last {G : Str} (hl : G.length = 14) {n : Nat} (hn : n ≤ 14) : sliceI G (14 - (n : Int)) 14 = G.drop (14 - n) := by
  unfold sliceI slice clampIdx
  rw [if_neg (by omega), if_neg (by omega), hl]
  rw [List.take_of_length_le (by omega)]
  congr 1
  omega

private theorem slice_over {G : Str} (hl : G.length = 14) {n : Nat} (hn : 14 < n) : sliceI G (14 - (n : Int)) 14 = G.drop (28 - n) := by
  unfold sliceI slice clampIdx
  rw [if_pos (by omega), if_neg (by omega), hl]
  rw [List.take_of_length_le (by omega)]
  congr 1
  omega

private theorem gtinInt_spec {G : Str} (hl : G.length = 14) (n : Int) :
    (if n ≠ 14 ∧ startsWith G (zeros (14 - n)) = false then Except.error Err.convert else .ok (sliceI G (14 - n) 14)) =
      if n < 0 then .error .convert
      else if n ≤ 14 then (if G.take (14 - n.toNat) = List.replicate (14 - n.toNat) '0' then .ok (G.drop (14 - n.toNat)) else .error .convert)
      else .ok (G.drop (28 - n.toNat)) := by
  by_cases h0 : n < 0
  · rw [if_pos h0, if_pos ⟨by omega, startsWith_long (by omega)⟩]
  · rw [if_neg h0]
    obtain ⟨m, rfl⟩ := Int.eq_ofNat_of_zero_le (show 0 ≤ n by omega)
    rw [Int.toNat_natCast]
    by_cases h14 : m ≤ 14
    · rw [if_pos (show (m : Int) ≤ 14 by omega), zeros, show (14 - (m : Int)).toNat = 14 - m by omega, slice_last hl h14]
      have hs := startsWith_zeros (G := G) (14 - m)
      by_cases hz : G.take (14 - m) = List.replicate (14 - m) '0'
      · rw [if_pos hz, if_neg]
        rw [hs.2 hz]; rintro ⟨-, h⟩; cases h
      · rw [if_neg hz, if_pos]
        refine ⟨?_, Bool.eq_false_iff.2 fun h => hz (hs.1 h)⟩
        intro h
        obtain rfl : m = 14 := by omega
        exact hz rfl
    · rw [if_neg (show ¬ (m : Int) ≤ 14 by omega), zeros, show (14 - (m : Int)).toNat = 0 by omega, slice_over hl (by omega), if_neg]
      rintro ⟨-, h⟩
      cases h

theorem C90_sgtin_claim_false : ¬ ∀ (u : Str) (x : SGTIN) (n : Int), SGTIN.new u = .ok x →
    x.gtinInt n = .error .convert ∨ ∃ t, x.gtinInt n = .ok t ∧ (t.length : Int) = n := by
  intro h
  have hx : (match SGTIN.new (py "urn:epc:id:sgtin:0614141.012345.400") with
    | .ok x => (match x.gtinInt 15 with | .ok t => t == py "2" | _ => false) | _ => false) = true := by decide +kernel
  split at hx
  · rename_i x hn
    have hc := h _ x 15 hn
    split at hx
    · rename_i t ht
      rcases hc with hc | ⟨t', ht', hl⟩
      · rw [ht] at hc; cases hc
      · rw [ht] at ht'
        cases ht'
        rw [beq_iff_eq.1 hx] at hl
        revert hl; decide
    · cases hx
  · cases hx

theorem C90_lgtin_claim_false : ¬ ∀ (u : Str) (x : LGTIN) (n : Int), LGTIN.new u = .ok x →
    x.gtinInt n = .error .convert ∨ ∃ t, x.gtinInt n = .ok t ∧ (t.length : Int) = n := by
  intro h
  have hx : (match LGTIN.new (py "urn:epc:class:lgtin:0614141.012345.998877") with
    | .ok x => (match x.gtinInt 15 with | .ok t => t == py "2" | _ => false) | _ => false) = true := by decide +kernel
  split at hx
  · rename_i x hn
    have hc := h _ x 15 hn
    split at hx
    · rename_i t ht
      rcases hc with hc | ⟨t', ht', hl⟩
      · rw [ht] at hc; cases hc
      · rw [ht] at ht'
        cases ht'
        rw [beq_iff_eq.1 hx] at hl
        revert hl; decide
    · cases hx
  · cases hx

/-- What is returned, for every integer: up to 14 it is the last `n` digits of the GTIN-14, if all others are zero; above 14 nothing is refused, and
the last `n - 14` digits are returned (all of them from 28 on). -/
theorem C90_sgtin_partial (u : Str) (x : SGTIN) (n : Int) (hu : SGTIN.new u = .ok x) :
    x.gs1KeyInt n = x.gtinInt n ∧ ∃ g, x.gtin = .ok g ∧ g.length = 14 ∧
      (n < 0 → x.gtinInt n = .error .convert) ∧
      (0 ≤ n → n ≤ 14 → ∀ z t, g = z ++ t → (t.length : Int) = n →
        x.gtinInt n = if z = List.replicate z.length '0' then .ok t else .error .convert) ∧
      (14 < n → n ≤ 28 → ∀ z t, g = z ++ t → (t.length : Int) = n - 14 → x.gtinInt n = .ok t) ∧
      (28 < n → x.gtinInt n = .ok g) := by
  obtain ⟨i, I, e, hk⟩ := SGTIN.key hu
  have hl := hk.2.1
  have hs : x.gtinInt n = _ := gtinInt_spec hl n
  refine ⟨rfl, x.gtin14, ?_, hl, ?_, ?_, ?_, ?_⟩
  · show Except.ok (x.gtin14.take 14) = _
    rw [List.take_of_length_le (Nat.le_of_eq hl)]
  · intro h; rw [hs, if_pos h]
  · intro h0 h14 z t ez ht
    have hzl : z.length = 14 - n.toNat := by
      have := congrArg List.length ez
      rw [List.length_append, hl] at this
      omega
    rw [hs, if_neg (by omega), if_pos h14, ← hzl, ez, List.take_left, List.drop_left]
  · intro h14 h28 z t ez ht
    have hzl : z.length = 28 - n.toNat := by
      have := congrArg List.length ez
      rw [List.length_append, hl] at this
      omega
    rw [hs, if_neg (by omega), if_neg (by omega), ← hzl, ez, List.drop_left]
  · intro h
    rw [hs, if_neg (by omega), if_neg (by omega), show 28 - n.toNat = 0 by omega, List.drop_zero]

/-- The same for LGTIN. -/
theorem C90_lgtin_partial (u : Str) (x : LGTIN) (n : Int) (hu : LGTIN.new u = .ok x) :
    x.gs1KeyInt n = x.gtinInt n ∧ ∃ g, x.gtin = .ok g ∧ g.length = 14 ∧
      (n < 0 → x.gtinInt n = .error .convert) ∧
      (0 ≤ n → n ≤ 14 → ∀ z t, g = z ++ t → (t.length : Int) = n →
        x.gtinInt n = if z = List.replicate z.length '0' then .ok t else .error .convert) ∧
      (14 < n → n ≤ 28 → ∀ z t, g = z ++ t → (t.length : Int) = n - 14 → x.gtinInt n = .ok t) ∧
      (28 < n → x.gtinInt n = .ok g) := by
  obtain ⟨i, I, e, hk⟩ := LGTIN.key hu
  have hl := hk.2.1
  have hs : x.gtinInt n = _ := gtinInt_spec hl n
  refine ⟨rfl, x.gtin14, ?_, hl, ?_, ?_, ?_, ?_⟩
  · show Except.ok (x.gtin14.take 14) = _
    rw [List.take_of_length_le (Nat.le_of_eq hl)]
  · intro h; rw [hs, if_pos h]
  · intro h0 h14 z t ez ht
    have hzl : z.length = 14 - n.toNat := by
      have := congrArg List.length ez
      rw [List.length_append, hl] at this
      omega
    rw [hs, if_neg (by omega), if_pos h14, ← hzl, ez, List.take_left, List.drop_left]
  · intro h14 h28 z t ez ht
    have hzl : z.length = 28 - n.toNat := by
      have := congrArg List.length ez
      rw [List.length_append, hl] at this
      omega
    rw [hs, if_neg (by omega), if_neg (by omega), ← hzl, ez, List.drop_left]
  · intro h
    rw [hs, if_neg (by omega), if_neg (by omega), show 28 - n.toNat = 0 by omega, List.drop_zero]

/-- A GTIN-12 asked for by number. -/
example : (do let x ← SGTIN.new (py "urn:epc:id:sgtin:0614141.012345.400"); x.gtinInt 12).toOption = some (py "614141123452") ∧
    (do let x ← SGTIN.new (py "urn:epc:id:sgtin:0614141.012345.400"); x.gtinInt 10).toBool = false ∧
    (do let x ← SGTIN.new (py "urn:epc:id:sgtin:0614141.012345.400"); x.gtinInt 16).toOption = some (py "52") := by decide +kernel

end Epc
