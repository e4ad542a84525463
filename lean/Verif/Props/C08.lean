/-
C08: the fixed-width piece/total codec round-trips: false for "99", proved for the other two-digit numbers.
-/
import Verif.Lemmas.Numeric

namespace Epc
open Spec

/-- The full claim: every two-digit string comes back. -/
def C08Claim : Prop := ∀ s : Str, Digits s → s.length = 2 →
  (encodeFixedWidthInteger s 7).bind decodeFixedWidthInteger = .ok s

/-- `encode_fixed_width_integer` refuses 99, although 99 fits two digits and seven bits. -/
theorem C08_counterexample_99 : encodeFixedWidthInteger (py "99") 7 = .error .convert := by decide +kernel

theorem C08_claim_false : ¬ C08Claim := by
  intro h
  have := h (py "99") (by unfold Digits; decide) rfl
  rw [C08_counterexample_99] at this
  cases this

/-- All other two-digit numbers round-trip, in seven bits.  Missing from the full claim: "99". -/
theorem C08_fixed_width_partial (s : Str) (hs : Digits s) (hl : s.length = 2) (h99 : s ≠ py "99") :
    ∃ b, encodeFixedWidthInteger s 7 = .ok b ∧ b.length = 7 ∧ Bits b ∧ decodeFixedWidthInteger b = .ok s := by
  match s, hl with
  | [a, b], _ =>
    have key : ∀ a ∈ py "0123456789", ∀ b ∈ py "0123456789", [a, b] ≠ py "99" →
        encodeFixedWidthInteger [a, b] 7 = .ok (bin 7 (number [a, b])) ∧ number [a, b] < 2 ^ 7 ∧
          decodeFixedWidthInteger (bin 7 (number [a, b])) = .ok [a, b] := by decide +kernel
    obtain ⟨h1, h2, h3⟩ := key a (hs a (by simp)) b (hs b (by simp)) h99
    exact ⟨_, h1, length_bin (by decide) h2, Bits_bin _ _, h3⟩

/-- Decoding accepts exactly the seven-bit numbers up to 99. -/
theorem C08_decode_range (n : Nat) (hn : n < 2 ^ 7) :
    decodeFixedWidthInteger (intToBinary n 7) = (if n ≤ 99 then .ok (padLeft '0' 2 (natStr n)) else .error .convert) := by
  have : ∀ n : Fin 128, decodeFixedWidthInteger (intToBinary (n.val : Nat) 7) =
      (if n.val ≤ 99 then .ok (padLeft '0' 2 (natStr n.val)) else .error .convert) := by decide +kernel
  exact this ⟨n, hn⟩

example : Digits (py "07") ∧ (encodeFixedWidthInteger (py "07") 7).bind decodeFixedWidthInteger = .ok (py "07") := by
  unfold Digits; decide +kernel

end Epc
