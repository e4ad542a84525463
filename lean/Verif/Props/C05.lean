/-
C05: the six-bit string codec round-trips.
-/
import Verif.Lemmas.Six

namespace Epc
open Spec

/-- For the URI form `s` of a reference over the GS1 character set 39, of at most `m` characters: decoding the encoding followed by
any text gives `s` back; the encoding has six bits per character plus the six-bit terminator. -/
theorem C05_six_bit_roundtrip (raw : Str) (hraw : ∀ c ∈ raw, c ∈ gs39) (m : Nat) (hm : raw.length ≤ m) :
    ∃ b, encodeStringSixBits (escape39 raw) = .ok b ∧ Bits b ∧ b.length = 6 * raw.length + 6 ∧
      ∀ tail : Str, decodeStringSixBits (b ++ tail) m = .ok (escape39 raw) := by
  refine ⟨_, encodeSix_escape hraw, ?_, ?_, ?_⟩
  · rw [Bits_append]; exact ⟨Bits_code6 raw, by unfold Bits; decide⟩
  · rw [List.length_append, length_code6]; rfl
  · intro tail
    rw [List.append_assoc, decodeSix_code hraw hm]

/-- A reference longer than the allowed number of characters is rejected. -/
theorem C05_six_bit_too_long (raw : Str) (hraw : ∀ c ∈ raw, c ∈ gs39) (m : Nat) (hm : m < raw.length) :
    ∃ b, encodeStringSixBits (escape39 raw) = .ok b ∧ ∀ tail : Str, decodeStringSixBits (b ++ tail) m = .error .convert := by
  refine ⟨_, encodeSix_escape hraw, ?_⟩
  intro tail
  rw [List.append_assoc, decodeSix_code_long hraw hm]

example : (∀ c ∈ py "A-1/#Z", c ∈ gs39) ∧ escape39 (py "A-1/#Z") = py "A-1%2F%23Z" ∧
    encodeStringSixBits (py "A-1%2F%23Z") = .ok (py "000001101101110001101111100011011010000000") := by decide +kernel

end Epc
