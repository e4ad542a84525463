/-
Facts about decimal conversions with a limit on the number of digits.
-/
import Verif.Model.Limit
import Verif.Lemmas.SpecDigits
import Verif.Lemmas.TagUri

namespace Epc
open Spec Re

theorem pyIntLim_zero (s : Str) : pyIntLim 0 s = pyInt 10 s := by
  unfold pyIntLim; rw [if_neg (by simp)]

theorem pyIntLim_short {L : Nat} {s : Str} (h : s.length ≤ L) : pyIntLim L s = pyInt 10 s := by
  unfold pyIntLim
  rw [if_neg]
  have := List.countP_le_length (p := fun c => (digitIn 10 c).isSome) (l := s.map intNormChar)
  rw [List.length_map] at this
  omega

theorem pyIntLim_decimal {L : Nat} (hL : L ≠ 0) {s : Str} (h : Dec s) (hne : s ≠ []) :
    pyIntLim L s = if L < s.length then .error .value else .ok (decVal s) := by
  have hc : (s.map intNormChar).countP (fun c => (digitIn 10 c).isSome) = s.length := by
    rw [List.countP_eq_length.2, List.length_map]
    intro c hc
    obtain ⟨d, h1, h2⟩ := digitsIn_norm h c hc
    simp [digitIn, h1, h2]
  unfold pyIntLim
  rw [hc, pyInt_decimal h hne]
  by_cases hl : L < s.length
  · rw [if_pos ⟨hL, hl⟩, if_pos hl]
  · rw [if_neg (fun x => hl x.2), if_neg hl]

theorem unumber_go_ge (t : Str) (a : Nat) :
    a * 10 ^ t.length ≤ t.foldl (fun n c => 10 * n + (decimalVal c).getD 0) a := by
  induction t generalizing a with
  | nil => simp
  | cons c t ih =>
    simp only [List.foldl_cons, List.length_cons]
    refine Nat.le_trans ?_ (ih _)
    rw [Nat.pow_succ, Nat.mul_comm (10 ^ t.length) 10, ← Nat.mul_assoc]
    exact Nat.mul_le_mul_right _ (by omega)

/-- A numeral of more than one digit is at least the power of ten of its length less one. -/
theorem num_ge {s : Str} (h : Num s) (hl : 1 < s.length) : 10 ^ (s.length - 1) ≤ decVal s := by
  rw [unumber_eq h.dec]
  obtain rfl | ⟨c, t, rfl, h1, h2⟩ := (uNumeral_iff s).2 h
  · simp at hl
  · unfold unumber
    simp only [List.foldl_cons, List.length_cons, Nat.add_sub_cancel]
    refine Nat.le_trans ?_ (unumber_go_ge t _)
    have : 1 ≤ (decimalVal c).getD 0 := by
      have k : ∀ c ∈ py "123456789", 1 ≤ (decimalVal c).getD 0 := by decide
      exact k c h1
    simpa using Nat.mul_le_mul_right (10 ^ t.length) (show 1 ≤ 10 * 0 + (decimalVal c).getD 0 by omega)

theorem num_long {L : Nat} (hL : 640 ≤ L) {s : Str} (h : Num s) (hl : L < s.length) : 2 ^ 36 ≤ decVal s := by
  refine Nat.le_trans ?_ (num_ge h (by omega))
  refine Nat.le_trans (show 2 ^ 36 ≤ 10 ^ 11 by decide) (Nat.pow_le_pow_right (by decide) (by omega))

theorem fromTagUri_congr_ok {α : Type} {n n' : Str → Except Err α} (h : ∀ u x, n u = .ok x ↔ n' u = .ok x) (b : Bool) (t : Str) (x : α) :
    fromTagUri n b t = .ok x ↔ fromTagUri n' b t = .ok x := by
  unfold fromTagUri
  split
  · exact Iff.rfl
  · cases b <;> simp only [bind_ok_iff, h, if_true, if_false, Bool.false_eq_true]

namespace GID

theorem newLim_nomatch {L : Nat} {u : Str} (h : Rx.gidUri.fullmatch u = false) : newLim L u = .error .convert := by
  unfold newLim; rw [guard_false h]; rfl

theorem newLim_eq {L : Nat} (hL : L ≠ 0) {C D S : Str} (hC : Num C) (hD : Num D) (hS : Num S) :
    newLim L (py "urn:epc:id:gid" ++ ':' :: (C ++ '.' :: (D ++ '.' :: S))) =
      if L < C.length then .error .value else if 2 ^ 28 ≤ decVal C then .error .convert else
      if L < D.length then .error .value else if 2 ^ 24 ≤ decVal D then .error .convert else
      if L < S.length then .error .value else if 2 ^ 36 ≤ decVal S then .error .convert else
      .ok ⟨py "urn:epc:id:gid" ++ ':' :: (C ++ '.' :: (D ++ '.' :: S)), C, D, S⟩ := by
  have hm : Rx.gidUri.fullmatch (py "urn:epc:id:gid" ++ ':' :: (C ++ '.' :: (D ++ '.' :: S))) = true :=
    shape.2 ⟨C, D, S, hC, hD, hS, rfl⟩
  unfold newLim
  rw [guard_true hm, ok_bind, getPart4_noColon rfl (noColon3 hC.dec.no_colon hD.dec.no_colon hS.dec.no_colon), ok_bind,
    split3 hC.dec.no_dot hD.dec.no_dot hS.dec.no_dot]
  have hz : (decide (S.length > 1) && S.head? == some '0') = false := by
    have := hS.no_zero
    simpa only [Bool.and_eq_false_iff, decide_eq_false_iff_not, beq_eq_false_iff_ne, Decidable.not_and_iff_not_or_not] using this
  simp only [unpack3, ok_bind]
  rw [pyIntLim_decimal hL hC.dec hC.ne_nil, pyIntLim_decimal hL hD.dec hD.ne_nil, pyIntLim_decimal hL hS.dec hS.ne_nil, hz]
  simp only [Bool.not_false, Bool.and_true]
  by_cases a : L < C.length
  · simp only [if_pos a]; rfl
  simp only [if_neg a]
  rw [ok_bind, decide_lt_pow]
  by_cases a' : 2 ^ 28 ≤ decVal C
  · rw [guard_false (by simp; omega), if_pos a']; rfl
  rw [guard_true (by simp; omega), ok_bind, if_neg a']
  by_cases b : L < D.length
  · simp only [if_pos b]; rfl
  simp only [if_neg b]
  rw [ok_bind, decide_lt_pow]
  by_cases b' : 2 ^ 24 ≤ decVal D
  · rw [guard_false (by simp; omega), if_pos b']; rfl
  rw [guard_true (by simp; omega), ok_bind, if_neg b']
  by_cases c : L < S.length
  · simp only [if_pos c]; rfl
  simp only [if_neg c]
  rw [ok_bind, decide_lt_pow]
  by_cases c' : 2 ^ 36 ≤ decVal S
  · rw [guard_false (by simp; omega), if_pos c']; rfl
  rw [guard_true (by simp; omega), ok_bind, if_neg c']
  rfl

theorem newLim_ok {L : Nat} (hL : 640 ≤ L) (u : Str) (x : GID) : newLim L u = .ok x ↔ new u = .ok x := by
  cases hm : Rx.gidUri.fullmatch u with
  | false => rw [new_nomatch hm, newLim_nomatch hm]
  | true =>
    obtain ⟨C, D, S, hC, hD, hS, rfl⟩ := shape.1 hm
    rw [newLim_eq (by omega) hC hD hS, new_eq hC hD hS]
    have p1 := num_long hL hC
    have p2 := num_long hL hD
    have p3 := num_long hL hS
    simp only [unit_bind_ok, guard_ok_iff, pure_ok, decide_eq_true_eq]
    repeat' split
    all_goals first
      | (constructor <;> intro h <;> first | (exfalso; omega) | (cases h; done))
      | (constructor
         · intro h; exact ⟨by omega, by omega, by omega, h⟩
         · rintro ⟨-, -, -, h⟩; exact h)

theorem newLim_zero (u : Str) : newLim 0 u = new u := by
  unfold newLim new
  simp only [pyIntLim_zero]

end GID

namespace USDOD

theorem newLim_nomatch {L : Nat} {u : Str} (h : Rx.usdodUri.fullmatch u = false) : newLim L u = .error .convert := by
  unfold newLim; rw [guard_false h]; rfl

theorem newLim_eq {L : Nat} (hL : L ≠ 0) {C S : Str} (hC : Lang Rx.cage C) (hS : Num S) :
    newLim L (py "urn:epc:id:usdod" ++ ':' :: (C ++ '.' :: S)) =
      if L < S.length then .error .value else if 2 ^ 36 ≤ decVal S then .error .convert else
      .ok ⟨py "urn:epc:id:usdod" ++ ':' :: (C ++ '.' :: S), C, S⟩ := by
  have hm : Rx.usdodUri.fullmatch (py "urn:epc:id:usdod" ++ ':' :: (C ++ '.' :: S)) = true :=
    shape.2 ⟨C, S, hC, hS, rfl⟩
  unfold newLim
  rw [guard_true hm, ok_bind, getPart4_noColon rfl (noColon2 (cage_no_colon hC) hS.dec.no_colon), ok_bind,
    split2 (cage_no_dot hC) hS.dec.no_dot]
  have hz : (decide (S.length > 1) && S.head? == some '0') = false := by
    have := hS.no_zero
    simpa only [Bool.and_eq_false_iff, decide_eq_false_iff_not, beq_eq_false_iff_ne, Decidable.not_and_iff_not_or_not] using this
  simp only [unpack2, ok_bind]
  rw [pyIntLim_decimal hL hS.dec hS.ne_nil, hz]
  simp only [Bool.not_false, Bool.and_true]
  by_cases c : L < S.length
  · simp only [if_pos c]; rfl
  simp only [if_neg c]
  rw [ok_bind, decide_lt_pow]
  by_cases c' : 2 ^ 36 ≤ decVal S
  · rw [guard_false (by simp; omega), if_pos c']; rfl
  rw [guard_true (by simp; omega), ok_bind, if_neg c']
  rfl

theorem newLim_ok {L : Nat} (hL : 640 ≤ L) (u : Str) (x : USDOD) : newLim L u = .ok x ↔ new u = .ok x := by
  cases hm : Rx.usdodUri.fullmatch u with
  | false => rw [new_nomatch hm, newLim_nomatch hm]
  | true =>
    obtain ⟨C, S, hC, hS, rfl⟩ := shape.1 hm
    rw [newLim_eq (by omega) hC hS, new_eq hC hS]
    have p3 := num_long hL hS
    simp only [unit_bind_ok, guard_ok_iff, pure_ok, decide_eq_true_eq]
    repeat' split
    all_goals first
      | (constructor <;> intro h <;> first | (exfalso; omega) | (cases h; done))
      | (constructor
         · intro h; exact ⟨by omega, h⟩
         · rintro ⟨-, h⟩; exact h)

theorem newLim_zero (u : Str) : newLim 0 u = new u := by
  unfold newLim new
  simp only [pyIntLim_zero]

end USDOD
end Epc
