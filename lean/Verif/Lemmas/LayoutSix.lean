/-
Six-bit texts (CPI-var) in terms of the layout specification.
-/
import Verif.Lemmas.LayoutText
import Verif.Lemmas.DecodeAll
import Verif.Lemmas.VarBinary

namespace Epc
open Spec Re

theorem six_group {b : Str} (h : Bits b) (hl : b.length = 6) :
    ∃ n, n < 64 ∧ bitsNumber b = n ∧ (n = 0 → b = py "000000") ∧ (n ≠ 0 → b ≠ py "000000" ∧
      ∀ gs, decodeSixLoop (b :: gs) = (decodeSixLoop gs >>= fun r => .ok (sixChar n :: r))) := by
  obtain ⟨n, hn, hbn⟩ : ∃ n, n < 64 ∧ bin 6 n = b :=
    ⟨bitsNumber b, by have := bitsNumber_lt h; rw [hl] at this; exact this, bin_bitsNumber h hl (by decide)⟩
  have key : ∀ n : Fin 64, bitsNumber (bin 6 n) = n.val ∧ (n.val ≠ 0 → bin 6 n ≠ py "000000" ∧ (bin 6 n).length = 6 ∧
      (if startsWith (bin 6 n) (py "10") || startsWith (bin 6 n) (py "11") then chr (n.val : Int) = .ok (sixChar n)
      else chr (64 + (n.val : Int)) = .ok (sixChar n))) := by
    decide +kernel
  obtain ⟨k0, key⟩ := key ⟨n, hn⟩
  refine ⟨n, hn, by rw [← hbn]; exact k0, fun h0 => by rw [← hbn, h0]; decide, fun h0 => ?_⟩
  obtain ⟨k1, k2, k3⟩ := key h0
  dsimp only at k1 k2 k3
  rw [hbn] at k1 k2 k3
  refine ⟨k1, fun gs => ?_⟩
  have hpy : pyInt 2 b = .ok (n : Int) := by rw [← hbn]; exact pyInt_bin 6 n
  rw [decodeSixLoop, if_neg k1, if_neg (by omega)]
  split at k3
  · next hs => rw [if_pos hs, hpy, ok_bind, k3, ok_bind]; rfl
  · next hs => rw [if_neg hs, hpy, ok_bind, k3, ok_bind]; rfl

theorem decodeSixLoop_nil : ∀ s : Str, s = [] → decodeSixLoop (splitCap (bitsLen 6) s) = .ok [] := by
  intro s hs
  exact decodeSixLoop_short (by rw [hs]; decide)

theorem splitCap_six {s : Str} (h : Bits s) (hl : 6 ≤ s.length) :
    splitCap (bitsLen 6) s = [] :: s.take 6 :: splitCap (bitsLen 6) (s.drop 6) := by
  have := splitCap_chunk (k := 5) (a := s.take 6) (b := s.drop 6) (by rw [List.length_take]; omega) (isBit_of_Bits (bits_take h 6))
  rw [List.take_append_drop] at this
  exact this

theorem decodeSixLoop_spec {b : Str} (hB : Bits b) : ∀ (k lo : Nat),
    decodeSixLoop (splitCap (bitsLen 6) ((b.drop lo).take (6 * k))) = .ok (sixText b lo k)
  | 0, lo => decodeSixLoop_nil _ (by simp)
  | k + 1, lo => by
    by_cases hl : b.length < lo + 6
    · rw [decodeSixLoop_short (by rw [List.length_take, List.length_drop]; omega), sixText, if_pos (.inl hl)]
    · have hb1 : Bits ((b.drop lo).take (6 * (k + 1))) := bits_take (bits_drop hB lo) _
      have hlen : 6 ≤ ((b.drop lo).take (6 * (k + 1))).length := by rw [List.length_take, List.length_drop]; omega
      have et : ((b.drop lo).take (6 * (k + 1))).take 6 = (b.drop lo).take 6 := by rw [List.take_take]; congr 1
      have ed : ((b.drop lo).take (6 * (k + 1))).drop 6 = (b.drop (lo + 6)).take (6 * k) := by
        rw [List.drop_take, List.drop_drop]; congr 1
      obtain ⟨n, hn, e1, e2, e3⟩ := six_group (bits_take (bits_drop hB lo) 6) (by rw [List.length_take, List.length_drop]; omega)
      have e1' : bitField b lo 6 = n := e1
      rw [splitCap_six hb1 hlen, et, ed, decodeSixLoop, if_neg (by decide), if_pos (by decide), sixText, e1']
      by_cases h0 : n = 0
      · rw [if_pos (.inr h0), decodeSixLoop, if_pos (e2 h0)]
      · rw [if_neg (by omega), (e3 h0).2, decodeSixLoop_spec hB k (lo + 6), ok_bind]

theorem serialLoop_spec {b : Str} (hB : Bits b) : ∀ (k lo : Nat), (sixText b lo k).length < k →
    CPI.serialLoop false (splitCap (bitsLen 6) (b.drop lo)) = b.drop (lo + 6 * (sixText b lo k).length + 6)
  | 0, lo, h => by omega
  | k + 1, lo, h => by
    by_cases hl : b.length < lo + 6
    · rw [sixText, if_pos (.inl hl), splitCap_short (by rw [List.length_drop]; omega), CPI.serialLoop, CPI.serialLoop]
      rw [List.drop_of_length_le (i := lo + 6 * _ + 6) (by simp; omega)]
      rfl
    · have hlen : 6 ≤ (b.drop lo).length := by rw [List.length_drop]; omega
      obtain ⟨n, hn, e1, e2, e3⟩ := six_group (bits_take (bits_drop hB lo) 6) (by rw [List.length_take, List.length_drop]; omega)
      have e1' : bitField b lo 6 = n := e1
      rw [sixText, e1'] at h ⊢
      rw [splitCap_six (bits_drop hB lo) hlen, CPI.serialLoop, CPI.serialLoop]
      rw [show decide (([] : Str) = py "000000") = false by decide]
      simp only [Bool.or_false, Bool.false_eq_true, if_false, List.nil_append, Bool.false_or]
      rw [List.drop_drop]
      by_cases h0 : n = 0
      · rw [if_pos (.inr h0), e2 h0]
        simp only [decide_true]
        rw [CPI.serialLoop_true]
        exact flatten_splitCap (by decide) _
      · rw [if_neg (by omega)] at h ⊢
        rw [decide_eq_false (e3 h0).1, serialLoop_spec hB k (lo + 6) (by rw [List.length_cons] at h; omega), List.length_cons]
        congr 1
        omega

theorem decodeSixBits_spec {b : Str} (hB : Bits b) (k lo m : Nat) :
    decodeStringSixBits ((b.drop lo).take (6 * k)) m =
      if (sixText b lo k).length > m then .error .convert else .ok (escape39 (sixText b lo k)) := by
  unfold decodeStringSixBits
  rw [decodeSixLoop_spec hB, ok_bind, replace39, pure_ok]

/-- The key of a CPI-var encoding. -/
theorem varFields_decode {b : Str} (hB : Bits b) (hl : 14 + prefixBits (12 - bitField b 11 3) ≤ b.length) :
    (∀ C raw e, VarFields b C raw e →
      CPI.decodeParts .cpiVar b = .ok (C ++ '.' :: escape39 raw, if e < b.length then (b.drop e).take 40 else py "0")) ∧
    ((¬ ∃ C raw e, VarFields b C raw e) → CPI.decodeParts .cpiVar b = .error .convert) := by
  have ht : StdTable CPI.tableVar := by decide
  have hF : Bits (b.drop 11) := bits_drop hB 11
  have main : ∀ p ≤ 6, bitField b 11 3 = p → CPI.decodeParts .cpiVar b =
      if (sixText b (14 + prefixBits (12 - p)) (19 + p)).length > 18 + p ∨ 10 ^ (12 - p) ≤ bitField b 14 (prefixBits (12 - p)) then
        .error .convert
      else .ok (padLeft '0' (12 - p) (natStr (bitField b 14 (prefixBits (12 - p)))) ++ '.' ::
        escape39 (sixText b (14 + prefixBits (12 - p)) (19 + p)),
        if 14 + prefixBits (12 - p) + 6 * (sixText b (14 + prefixBits (12 - p)) (19 + p)).length + 6 < b.length then
          (b.drop (14 + prefixBits (12 - p) + 6 * (sixText b (14 + prefixBits (12 - p)) (19 + p)).length + 6)).take 40
        else py "0") := by
    intro p hp6 hp
    obtain ⟨r, hr, rfl⟩ := ht.row hp6
    obtain ⟨e1, e2⟩ := ht.2.2.1 r hr
    obtain ⟨e3, e4⟩ := (by decide : ∀ r ∈ CPI.tableVar, r.N = 6 * (19 + r.P) ∧ r.K = 18 + r.P) r hr
    rw [hp, ← e2] at hl
    unfold CPI.decodeParts
    rw [if_neg (by decide)]
    dsimp only
    rw [decodePartition_start ht.1 hr hF (by rw [List.length_drop]; omega) hp, ← e2, ← e1]
    rw [List.drop_drop, List.drop_drop, show 11 + (3 + r.M) = 14 + r.M by omega, e3, decodeRef, decodeSixBits_spec hB, e4]
    by_cases h1 : (sixText b (14 + r.M) (19 + r.P)).length > 18 + r.P
    · rw [if_pos h1, error_bind, error_bind, if_pos (.inl h1)]
    · rw [if_neg h1, ok_bind]
      show (if 10 ^ r.L ≤ bitField b 14 r.M then _ else _) >>= _ = _
      by_cases h2 : 10 ^ r.L ≤ bitField b 14 r.M
      · rw [if_pos h2, error_bind, if_pos (.inr h2)]
      · rw [if_neg h2, if_neg (not_or.2 ⟨h1, h2⟩)]
        have : ∀ D, refTooLarge D r (PartMode.sixBit == .plain) = .ok false := fun D => by
          unfold refTooLarge
          rw [if_neg (by rintro ⟨_, h⟩; revert h; decide)]
        rw [this, ok_bind]
        simp only [Bool.false_eq_true, if_false]
        rw [if_neg (by decide), show ∀ s : Str, padLeft (Char.ofNat 48) 0 s = s from fun s => by unfold padLeft; rw [Nat.zero_sub]; rfl, pure_ok, ok_bind,
          binaryToInt_bits (bits_take hF 3) (ne_nil_of_length (n := 3) (by rw [List.length_take, List.length_drop]; omega) (by decide)), ok_bind,
          show bitsNumber ((b.drop 11).take 3) = r.P from hp, rowByP_ok (by decide) hr, ok_bind,
          show 11 + 3 + r.M = 14 + r.M by omega, serialLoop_spec hB (19 + r.P) (14 + r.M) (by omega), pure_ok]
        refine congrArg Except.ok (Prod.ext rfl ?_)
        dsimp only
        rw [List.length_drop]
        by_cases h3 : 14 + r.M + 6 * (sixText b (14 + r.M) (19 + r.P)).length + 6 < b.length
        · rw [if_pos (by omega), if_pos h3]
        · rw [if_neg (by omega), if_neg h3]
  constructor
  · rintro C raw e ⟨p, hp6, hp, hC, rfl, hle, rfl⟩
    rw [main p hp6 hp]
    obtain ⟨hC1, rfl⟩ := (padded_iff (by omega)).1 hC
    rw [if_neg (by omega)]
  · intro hno
    by_cases h7 : bitField b 11 3 ≤ 6
    · rw [main _ h7 rfl]
      split
      · rfl
      · next h =>
        exact absurd ⟨_, _, _, _, h7, rfl, (padded_iff (by omega)).2 ⟨by omega, rfl⟩, rfl, by omega, rfl⟩ hno
    · have h8 : bitField b 11 3 < 2 ^ 3 := bitField_lt hB (by omega)
      unfold CPI.decodeParts
      rw [if_neg (by decide)]
      dsimp only
      rw [reject7 ht hF (by rw [List.length_drop]; omega) (by show bitField b 11 3 = 7; omega), error_bind]

end Epc
