/-
C04: the seven-bit serial codec round-trips.
-/
import Verif.Lemmas.Seven

namespace Epc
open Spec

/-- `decode_string(encode_string(s, n)) == s` for the canonical form `s` of a text over the GS1 character set; the encoding
consists of bits, and has exactly `n` of them if the text fits (seven bits per character). -/
theorem C04_seven_bit_roundtrip (raw : Str) (hraw : ∀ c ∈ raw, c ∈ gs82) (n : Nat) :
    ∃ b, encodeString (escape raw) n = .ok b ∧ decodeString b = .ok (escape raw) ∧ Bits b ∧
      (7 * raw.length ≤ n → b.length = n) := by
  refine ⟨_, encodeString_escape raw n, decode_encode7 hraw n, ?_, ?_⟩
  · unfold padRight
    rw [Bits_append]
    exact ⟨Bits_code7 raw, fun c hc => .inl (List.mem_replicate.1 hc).2⟩
  · intro h
    rw [length_padRight, length_code7 (fun c hc => gs82_lt (hraw c hc))]
    omega

/-- Distinct canonical serials have distinct encodings. -/
theorem C04_seven_bit_injective (s t : Str) (hs : Canonical s) (ht : Canonical t) (n : Nat)
    (h : encodeString s n = encodeString t n) : s = t := by
  obtain ⟨r, _, hr, rfl⟩ := hs
  obtain ⟨q, _, hq, rfl⟩ := ht
  obtain ⟨b, h1, h2, _⟩ := C04_seven_bit_roundtrip r hr n
  obtain ⟨d, h3, h4, _⟩ := C04_seven_bit_roundtrip q hq n
  rw [h1, h3] at h
  injection h with h
  subst h
  rw [h2] at h4
  injection h4

/-- A serial with an escape. -/
example : (∀ c ∈ py "A/b%9", c ∈ gs82) ∧ escape (py "A/b%9") = py "A%2Fb%259" ∧
    encodeString (py "A%2Fb%259") 40 = .ok (py "1000001010111111000100100101011100100000") := by decide +kernel
/-- The restriction to canonical serials is needed: `%41` comes back as `A`. -/
example : (encodeString (py "%41") 140).bind decodeString = .ok (py "A") := by decide +kernel

end Epc
