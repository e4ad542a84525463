/-
C31: a partition value of 7, a company prefix and a padded reference that are too large for their digit counts are rejected with
`ConvertException`.  The field `bits 11..13` is the partition value `p`; the company prefix has `12 - p` digits.

False for the reference of SGLN, GRAI, GDTI and SGCN when the partition value is 0 (no digits): the field is ignored.
Generated by tools/gen_c30.py.
-/
import Verif.Lemmas.DecodeAll

namespace Epc
open Spec Re

theorem prefixBits_le (n : Nat) : prefixBits n ≤ 40 ∧ 0 < prefixBits n := by
  unfold prefixBits; split <;> decide

theorem C31_sgtin96 (b : Str) (hB : Bits b) (hb : b.take 8 = py "00110000") :
    (bitsNumber ((b.drop 11).take 3) = 7 → SGTIN.fromBinary b = .error .convert) ∧
    (∀ p ≤ 6, bitsNumber ((b.drop 11).take 3) = p →
      10 ^ (12 - p) ≤ bitsNumber ((b.drop 14).take (prefixBits (12 - p))) → SGTIN.fromBinary b = .error .convert) ∧
    (∀ p ≤ 6, bitsNumber ((b.drop 11).take 3) = p →
      10 ^ (p + 1) ≤ bitsNumber ((b.drop (14 + prefixBits (12 - p))).take (44 - prefixBits (12 - p))) →
      SGTIN.fromBinary b = .error .convert) := by
  by_cases hl : 96 ≤ b.length
  case neg =>
    have h : SGTIN.fromBinary b = .error .convert := by
      unfold SGTIN.fromBinary
      rw [parseHeader_short (cs := SGTIN.Coding.sgtin96) (p := py "sgtin") (sz := py "96") (n := 96) hb (by decide) (by decide) (by decide) (by decide)
        (by omega), error_bind]
    exact ⟨fun _ => h, fun _ _ _ _ => h, fun _ _ _ _ => h⟩
  case pos =>
    have hT : StdTable SGTIN.table := by decide
    have hF : Bits ((b.drop 11).take 47) := bits_take (bits_drop hB 11) 47
    have hFl : ((b.drop 11).take 47).length = 47 := field_length (by omega)
    have h3 : ((b.drop 11).take 47).take 3 = (b.drop 11).take 3 := field_take (by decide)
    have go : decodePartitionTable ((b.drop 11).take 47) SGTIN.table = .error .convert → SGTIN.fromBinary b = .error .convert := by
      intro h
      rw [SGTIN.decode_sgtin96 hB hb hl, h, error_bind]
    refine ⟨fun h7 => go ?_, fun p hp e h => go ?_, fun p hp e h => go ?_⟩
    · exact reject7 hT hF (by omega) (by rw [h3]; exact h7)
    · have := prefixBits_le (12 - p)
      refine rejectPrefix hT hF hp (by omega) (by rw [h3]; exact e) ?_ (by rw [field_field (by omega)]; exact h)
      intro r hr e' hrp he
      have hN : ∀ r ∈ SGTIN.table, 0 < r.N ∧ 3 + prefixBits (12 - r.P) + r.N = 47 := by decide
      have := hN r hr
      rw [decodeRef_number (.inl rfl) (bits_take (bits_drop hF _) _) (field_length (by rw [← hrp, hFl]; omega)) this.1] at he
      cases he
    · have := prefixBits_le (12 - p)
      refine rejectRef hT (K := fun p => p + 1) (N := fun p => 44 - prefixBits (12 - p)) (by decide) hF hp (by omega) (by rw [h3]; exact e) (by simp) ?_
      rw [field_field (by omega)]
      rw [show 11 + (3 + prefixBits (12 - p)) = 14 + prefixBits (12 - p) by omega]
      exact h

theorem C31_sgtin198 (b : Str) (hB : Bits b) (hb : b.take 8 = py "00110110") :
    (bitsNumber ((b.drop 11).take 3) = 7 → SGTIN.fromBinary b = .error .convert) ∧
    (∀ p ≤ 6, bitsNumber ((b.drop 11).take 3) = p →
      10 ^ (12 - p) ≤ bitsNumber ((b.drop 14).take (prefixBits (12 - p))) → SGTIN.fromBinary b = .error .convert) ∧
    (∀ p ≤ 6, bitsNumber ((b.drop 11).take 3) = p →
      10 ^ (p + 1) ≤ bitsNumber ((b.drop (14 + prefixBits (12 - p))).take (44 - prefixBits (12 - p))) →
      SGTIN.fromBinary b = .error .convert) := by
  by_cases hl : 198 ≤ b.length
  case neg =>
    have h : SGTIN.fromBinary b = .error .convert := by
      unfold SGTIN.fromBinary
      rw [parseHeader_short (cs := SGTIN.Coding.sgtin198) (p := py "sgtin") (sz := py "198") (n := 198) hb (by decide) (by decide) (by decide) (by decide)
        (by omega), error_bind]
    exact ⟨fun _ => h, fun _ _ _ _ => h, fun _ _ _ _ => h⟩
  case pos =>
    have hT : StdTable SGTIN.table := by decide
    have hF : Bits ((b.drop 11).take 47) := bits_take (bits_drop hB 11) 47
    have hFl : ((b.drop 11).take 47).length = 47 := field_length (by omega)
    have h3 : ((b.drop 11).take 47).take 3 = (b.drop 11).take 3 := field_take (by decide)
    have go : decodePartitionTable ((b.drop 11).take 47) SGTIN.table = .error .convert → SGTIN.fromBinary b = .error .convert := by
      intro h
      rw [SGTIN.decode_sgtin198 hB hb hl, h, error_bind]
    refine ⟨fun h7 => go ?_, fun p hp e h => go ?_, fun p hp e h => go ?_⟩
    · exact reject7 hT hF (by omega) (by rw [h3]; exact h7)
    · have := prefixBits_le (12 - p)
      refine rejectPrefix hT hF hp (by omega) (by rw [h3]; exact e) ?_ (by rw [field_field (by omega)]; exact h)
      intro r hr e' hrp he
      have hN : ∀ r ∈ SGTIN.table, 0 < r.N ∧ 3 + prefixBits (12 - r.P) + r.N = 47 := by decide
      have := hN r hr
      rw [decodeRef_number (.inl rfl) (bits_take (bits_drop hF _) _) (field_length (by rw [← hrp, hFl]; omega)) this.1] at he
      cases he
    · have := prefixBits_le (12 - p)
      refine rejectRef hT (K := fun p => p + 1) (N := fun p => 44 - prefixBits (12 - p)) (by decide) hF hp (by omega) (by rw [h3]; exact e) (by simp) ?_
      rw [field_field (by omega)]
      rw [show 11 + (3 + prefixBits (12 - p)) = 14 + prefixBits (12 - p) by omega]
      exact h

theorem C31_sscc96 (b : Str) (hB : Bits b) (hb : b.take 8 = py "00110001") :
    (bitsNumber ((b.drop 11).take 3) = 7 → SSCC.fromBinary b = .error .convert) ∧
    (∀ p ≤ 6, bitsNumber ((b.drop 11).take 3) = p →
      10 ^ (12 - p) ≤ bitsNumber ((b.drop 14).take (prefixBits (12 - p))) → SSCC.fromBinary b = .error .convert) ∧
    (∀ p ≤ 6, bitsNumber ((b.drop 11).take 3) = p →
      10 ^ (p + 5) ≤ bitsNumber ((b.drop (14 + prefixBits (12 - p))).take (58 - prefixBits (12 - p))) →
      SSCC.fromBinary b = .error .convert) := by
  by_cases hl : 96 ≤ b.length
  case neg =>
    have h : SSCC.fromBinary b = .error .convert := by
      unfold SSCC.fromBinary
      rw [parseHeader_short (cs := SSCC.Coding.sscc96) (p := py "sscc") (sz := py "96") (n := 96) hb (by decide) (by decide) (by decide) (by decide)
        (by omega), error_bind]
    exact ⟨fun _ => h, fun _ _ _ _ => h, fun _ _ _ _ => h⟩
  case pos =>
    have hT : StdTable SSCC.table := by decide
    have hF : Bits ((b.drop 11).take 61) := bits_take (bits_drop hB 11) 61
    have hFl : ((b.drop 11).take 61).length = 61 := field_length (by omega)
    have h3 : ((b.drop 11).take 61).take 3 = (b.drop 11).take 3 := field_take (by decide)
    have go : decodePartitionTable ((b.drop 11).take 61) SSCC.table = .error .convert → SSCC.fromBinary b = .error .convert := by
      intro h
      rw [SSCC.decode_sscc96 hB hb hl, h, error_bind]
    refine ⟨fun h7 => go ?_, fun p hp e h => go ?_, fun p hp e h => go ?_⟩
    · exact reject7 hT hF (by omega) (by rw [h3]; exact h7)
    · have := prefixBits_le (12 - p)
      refine rejectPrefix hT hF hp (by omega) (by rw [h3]; exact e) ?_ (by rw [field_field (by omega)]; exact h)
      intro r hr e' hrp he
      have hN : ∀ r ∈ SSCC.table, 0 < r.N ∧ 3 + prefixBits (12 - r.P) + r.N = 61 := by decide
      have := hN r hr
      rw [decodeRef_number (.inl rfl) (bits_take (bits_drop hF _) _) (field_length (by rw [← hrp, hFl]; omega)) this.1] at he
      cases he
    · have := prefixBits_le (12 - p)
      refine rejectRef hT (K := fun p => p + 5) (N := fun p => 58 - prefixBits (12 - p)) (by decide) hF hp (by omega) (by rw [h3]; exact e) (by simp) ?_
      rw [field_field (by omega)]
      rw [show 11 + (3 + prefixBits (12 - p)) = 14 + prefixBits (12 - p) by omega]
      exact h

theorem C31_sgln96_partial (b : Str) (hB : Bits b) (hb : b.take 8 = py "00110010") :
    (bitsNumber ((b.drop 11).take 3) = 7 → SGLN.fromBinary b = .error .convert) ∧
    (∀ p ≤ 6, bitsNumber ((b.drop 11).take 3) = p →
      10 ^ (12 - p) ≤ bitsNumber ((b.drop 14).take (prefixBits (12 - p))) → SGLN.fromBinary b = .error .convert) ∧
    (∀ p ≤ 6, bitsNumber ((b.drop 11).take 3) = p →
      p ≠ 0 → 10 ^ (p) ≤ bitsNumber ((b.drop (14 + prefixBits (12 - p))).take (41 - prefixBits (12 - p))) →
      SGLN.fromBinary b = .error .convert) := by
  by_cases hl : 96 ≤ b.length
  case neg =>
    have h : SGLN.fromBinary b = .error .convert := by
      unfold SGLN.fromBinary
      rw [parseHeader_short (cs := SGLN.Coding.sgln96) (p := py "sgln") (sz := py "96") (n := 96) hb (by decide) (by decide) (by decide) (by decide)
        (by omega), error_bind]
    exact ⟨fun _ => h, fun _ _ _ _ => h, fun _ _ _ _ _ => h⟩
  case pos =>
    have hT : StdTable SGLN.table := by decide
    have hF : Bits ((b.drop 11).take 44) := bits_take (bits_drop hB 11) 44
    have hFl : ((b.drop 11).take 44).length = 44 := field_length (by omega)
    have h3 : ((b.drop 11).take 44).take 3 = (b.drop 11).take 3 := field_take (by decide)
    have go : decodePartitionTable ((b.drop 11).take 44) SGLN.table = .error .convert → SGLN.fromBinary b = .error .convert := by
      intro h
      rw [SGLN.decode_sgln96 hB hb hl, h, error_bind]
    refine ⟨fun h7 => go ?_, fun p hp e h => go ?_, fun p hp e hp0 h => go ?_⟩
    · exact reject7 hT hF (by omega) (by rw [h3]; exact h7)
    · have := prefixBits_le (12 - p)
      refine rejectPrefix hT hF hp (by omega) (by rw [h3]; exact e) ?_ (by rw [field_field (by omega)]; exact h)
      intro r hr e' hrp he
      have hN : ∀ r ∈ SGLN.table, 0 < r.N ∧ 3 + prefixBits (12 - r.P) + r.N = 44 := by decide
      have := hN r hr
      rw [decodeRef_number (.inl rfl) (bits_take (bits_drop hF _) _) (field_length (by rw [← hrp, hFl]; omega)) this.1] at he
      cases he
    · have := prefixBits_le (12 - p)
      refine rejectRef hT (K := fun p => p) (N := fun p => 41 - prefixBits (12 - p)) (by decide) hF hp (by omega) (by rw [h3]; exact e) hp0 ?_
      rw [field_field (by omega)]
      rw [show 11 + (3 + prefixBits (12 - p)) = 14 + prefixBits (12 - p) by omega]
      exact h

theorem C31_sgln195_partial (b : Str) (hB : Bits b) (hb : b.take 8 = py "00111001") :
    (bitsNumber ((b.drop 11).take 3) = 7 → SGLN.fromBinary b = .error .convert) ∧
    (∀ p ≤ 6, bitsNumber ((b.drop 11).take 3) = p →
      10 ^ (12 - p) ≤ bitsNumber ((b.drop 14).take (prefixBits (12 - p))) → SGLN.fromBinary b = .error .convert) ∧
    (∀ p ≤ 6, bitsNumber ((b.drop 11).take 3) = p →
      p ≠ 0 → 10 ^ (p) ≤ bitsNumber ((b.drop (14 + prefixBits (12 - p))).take (41 - prefixBits (12 - p))) →
      SGLN.fromBinary b = .error .convert) := by
  by_cases hl : 195 ≤ b.length
  case neg =>
    have h : SGLN.fromBinary b = .error .convert := by
      unfold SGLN.fromBinary
      rw [parseHeader_short (cs := SGLN.Coding.sgln195) (p := py "sgln") (sz := py "195") (n := 195) hb (by decide) (by decide) (by decide) (by decide)
        (by omega), error_bind]
    exact ⟨fun _ => h, fun _ _ _ _ => h, fun _ _ _ _ _ => h⟩
  case pos =>
    have hT : StdTable SGLN.table := by decide
    have hF : Bits ((b.drop 11).take 44) := bits_take (bits_drop hB 11) 44
    have hFl : ((b.drop 11).take 44).length = 44 := field_length (by omega)
    have h3 : ((b.drop 11).take 44).take 3 = (b.drop 11).take 3 := field_take (by decide)
    have go : decodePartitionTable ((b.drop 11).take 44) SGLN.table = .error .convert → SGLN.fromBinary b = .error .convert := by
      intro h
      rw [SGLN.decode_sgln195 hB hb hl, h, error_bind]
    refine ⟨fun h7 => go ?_, fun p hp e h => go ?_, fun p hp e hp0 h => go ?_⟩
    · exact reject7 hT hF (by omega) (by rw [h3]; exact h7)
    · have := prefixBits_le (12 - p)
      refine rejectPrefix hT hF hp (by omega) (by rw [h3]; exact e) ?_ (by rw [field_field (by omega)]; exact h)
      intro r hr e' hrp he
      have hN : ∀ r ∈ SGLN.table, 0 < r.N ∧ 3 + prefixBits (12 - r.P) + r.N = 44 := by decide
      have := hN r hr
      rw [decodeRef_number (.inl rfl) (bits_take (bits_drop hF _) _) (field_length (by rw [← hrp, hFl]; omega)) this.1] at he
      cases he
    · have := prefixBits_le (12 - p)
      refine rejectRef hT (K := fun p => p) (N := fun p => 41 - prefixBits (12 - p)) (by decide) hF hp (by omega) (by rw [h3]; exact e) hp0 ?_
      rw [field_field (by omega)]
      rw [show 11 + (3 + prefixBits (12 - p)) = 14 + prefixBits (12 - p) by omega]
      exact h

theorem C31_grai96_partial (b : Str) (hB : Bits b) (hb : b.take 8 = py "00110011") :
    (bitsNumber ((b.drop 11).take 3) = 7 → GRAI.fromBinary b = .error .convert) ∧
    (∀ p ≤ 6, bitsNumber ((b.drop 11).take 3) = p →
      10 ^ (12 - p) ≤ bitsNumber ((b.drop 14).take (prefixBits (12 - p))) → GRAI.fromBinary b = .error .convert) ∧
    (∀ p ≤ 6, bitsNumber ((b.drop 11).take 3) = p →
      p ≠ 0 → 10 ^ (p) ≤ bitsNumber ((b.drop (14 + prefixBits (12 - p))).take (44 - prefixBits (12 - p))) →
      GRAI.fromBinary b = .error .convert) := by
  by_cases hl : 96 ≤ b.length
  case neg =>
    have h : GRAI.fromBinary b = .error .convert := by
      unfold GRAI.fromBinary
      rw [parseHeader_short (cs := GRAI.Coding.grai96) (p := py "grai") (sz := py "96") (n := 96) hb (by decide) (by decide) (by decide) (by decide)
        (by omega), error_bind]
    exact ⟨fun _ => h, fun _ _ _ _ => h, fun _ _ _ _ _ => h⟩
  case pos =>
    have hT : StdTable GRAI.table := by decide
    have hF : Bits ((b.drop 11).take 47) := bits_take (bits_drop hB 11) 47
    have hFl : ((b.drop 11).take 47).length = 47 := field_length (by omega)
    have h3 : ((b.drop 11).take 47).take 3 = (b.drop 11).take 3 := field_take (by decide)
    have go : decodePartitionTable ((b.drop 11).take 47) GRAI.table = .error .convert → GRAI.fromBinary b = .error .convert := by
      intro h
      rw [GRAI.decode_grai96 hB hb hl, h, error_bind]
    refine ⟨fun h7 => go ?_, fun p hp e h => go ?_, fun p hp e hp0 h => go ?_⟩
    · exact reject7 hT hF (by omega) (by rw [h3]; exact h7)
    · have := prefixBits_le (12 - p)
      refine rejectPrefix hT hF hp (by omega) (by rw [h3]; exact e) ?_ (by rw [field_field (by omega)]; exact h)
      intro r hr e' hrp he
      have hN : ∀ r ∈ GRAI.table, 0 < r.N ∧ 3 + prefixBits (12 - r.P) + r.N = 47 := by decide
      have := hN r hr
      rw [decodeRef_number (.inl rfl) (bits_take (bits_drop hF _) _) (field_length (by rw [← hrp, hFl]; omega)) this.1] at he
      cases he
    · have := prefixBits_le (12 - p)
      refine rejectRef hT (K := fun p => p) (N := fun p => 44 - prefixBits (12 - p)) (by decide) hF hp (by omega) (by rw [h3]; exact e) hp0 ?_
      rw [field_field (by omega)]
      rw [show 11 + (3 + prefixBits (12 - p)) = 14 + prefixBits (12 - p) by omega]
      exact h

theorem C31_grai170_partial (b : Str) (hB : Bits b) (hb : b.take 8 = py "00110111") :
    (bitsNumber ((b.drop 11).take 3) = 7 → GRAI.fromBinary b = .error .convert) ∧
    (∀ p ≤ 6, bitsNumber ((b.drop 11).take 3) = p →
      10 ^ (12 - p) ≤ bitsNumber ((b.drop 14).take (prefixBits (12 - p))) → GRAI.fromBinary b = .error .convert) ∧
    (∀ p ≤ 6, bitsNumber ((b.drop 11).take 3) = p →
      p ≠ 0 → 10 ^ (p) ≤ bitsNumber ((b.drop (14 + prefixBits (12 - p))).take (44 - prefixBits (12 - p))) →
      GRAI.fromBinary b = .error .convert) := by
  by_cases hl : 170 ≤ b.length
  case neg =>
    have h : GRAI.fromBinary b = .error .convert := by
      unfold GRAI.fromBinary
      rw [parseHeader_short (cs := GRAI.Coding.grai170) (p := py "grai") (sz := py "170") (n := 170) hb (by decide) (by decide) (by decide) (by decide)
        (by omega), error_bind]
    exact ⟨fun _ => h, fun _ _ _ _ => h, fun _ _ _ _ _ => h⟩
  case pos =>
    have hT : StdTable GRAI.table := by decide
    have hF : Bits ((b.drop 11).take 47) := bits_take (bits_drop hB 11) 47
    have hFl : ((b.drop 11).take 47).length = 47 := field_length (by omega)
    have h3 : ((b.drop 11).take 47).take 3 = (b.drop 11).take 3 := field_take (by decide)
    have go : decodePartitionTable ((b.drop 11).take 47) GRAI.table = .error .convert → GRAI.fromBinary b = .error .convert := by
      intro h
      rw [GRAI.decode_grai170 hB hb hl, h, error_bind]
    refine ⟨fun h7 => go ?_, fun p hp e h => go ?_, fun p hp e hp0 h => go ?_⟩
    · exact reject7 hT hF (by omega) (by rw [h3]; exact h7)
    · have := prefixBits_le (12 - p)
      refine rejectPrefix hT hF hp (by omega) (by rw [h3]; exact e) ?_ (by rw [field_field (by omega)]; exact h)
      intro r hr e' hrp he
      have hN : ∀ r ∈ GRAI.table, 0 < r.N ∧ 3 + prefixBits (12 - r.P) + r.N = 47 := by decide
      have := hN r hr
      rw [decodeRef_number (.inl rfl) (bits_take (bits_drop hF _) _) (field_length (by rw [← hrp, hFl]; omega)) this.1] at he
      cases he
    · have := prefixBits_le (12 - p)
      refine rejectRef hT (K := fun p => p) (N := fun p => 44 - prefixBits (12 - p)) (by decide) hF hp (by omega) (by rw [h3]; exact e) hp0 ?_
      rw [field_field (by omega)]
      rw [show 11 + (3 + prefixBits (12 - p)) = 14 + prefixBits (12 - p) by omega]
      exact h

theorem C31_giai96 (b : Str) (hB : Bits b) (hb : b.take 8 = py "00110100") :
    (bitsNumber ((b.drop 11).take 3) = 7 → GIAI.fromBinary b = .error .convert) ∧
    (∀ p ≤ 6, bitsNumber ((b.drop 11).take 3) = p →
      10 ^ (12 - p) ≤ bitsNumber ((b.drop 14).take (prefixBits (12 - p))) → GIAI.fromBinary b = .error .convert) := by
  by_cases hl : 96 ≤ b.length
  case neg =>
    have h : GIAI.fromBinary b = .error .convert := by
      unfold GIAI.fromBinary
      rw [parseHeader_short (cs := GIAI.Coding.giai96) (p := py "giai") (sz := py "96") (n := 96) hb (by decide) (by decide) (by decide) (by decide)
        (by omega), error_bind]
    exact ⟨fun _ => h, fun _ _ _ _ => h⟩
  case pos =>
    have hT : StdTable GIAI.table96 := by decide
    have hF : Bits ((b.drop 11).take 85) := bits_take (bits_drop hB 11) 85
    have hFl : ((b.drop 11).take 85).length = 85 := field_length (by omega)
    have h3 : ((b.drop 11).take 85).take 3 = (b.drop 11).take 3 := field_take (by decide)
    have go : decodePartitionTable ((b.drop 11).take 85) GIAI.table96 .unpadded = .error .convert → GIAI.fromBinary b = .error .convert := by
      intro h
      rw [GIAI.decode_giai96 hB hb hl, h, error_bind]
    refine ⟨fun h7 => go ?_, fun p hp e h => go ?_⟩
    · exact reject7 hT hF (by omega) (by rw [h3]; exact h7)
    · have := prefixBits_le (12 - p)
      refine rejectPrefix hT hF hp (by omega) (by rw [h3]; exact e) ?_ (by rw [field_field (by omega)]; exact h)
      intro r hr e' hrp he
      have hN : ∀ r ∈ GIAI.table96, 0 < r.N ∧ 3 + prefixBits (12 - r.P) + r.N = 85 := by decide
      have := hN r hr
      rw [decodeRef_number (.inr rfl) (bits_take (bits_drop hF _) _) (field_length (by rw [← hrp, hFl]; omega)) this.1] at he
      cases he

theorem C31_giai202 (b : Str) (hB : Bits b) (hb : b.take 8 = py "00111000") :
    (bitsNumber ((b.drop 11).take 3) = 7 → GIAI.fromBinary b = .error .convert) ∧
    (∀ p ≤ 6, bitsNumber ((b.drop 11).take 3) = p →
      10 ^ (12 - p) ≤ bitsNumber ((b.drop 14).take (prefixBits (12 - p))) → GIAI.fromBinary b = .error .convert) := by
  by_cases hl : 202 ≤ b.length
  case neg =>
    have h : GIAI.fromBinary b = .error .convert := by
      unfold GIAI.fromBinary
      rw [parseHeader_short (cs := GIAI.Coding.giai202) (p := py "giai") (sz := py "202") (n := 202) hb (by decide) (by decide) (by decide) (by decide)
        (by omega), error_bind]
    exact ⟨fun _ => h, fun _ _ _ _ => h⟩
  case pos =>
    have hT : StdTable GIAI.table202 := by decide
    have hF : Bits ((b.drop 11).take 191) := bits_take (bits_drop hB 11) 191
    have hFl : ((b.drop 11).take 191).length = 191 := field_length (by omega)
    have h3 : ((b.drop 11).take 191).take 3 = (b.drop 11).take 3 := field_take (by decide)
    have go : decodePartitionTable ((b.drop 11).take 191) GIAI.table202 .string = .error .convert → GIAI.fromBinary b = .error .convert := by
      intro h
      rw [GIAI.decode_giai202 hB hb hl, h, error_bind]
    refine ⟨fun h7 => go ?_, fun p hp e h => go ?_⟩
    · exact reject7 hT hF (by omega) (by rw [h3]; exact h7)
    · have := prefixBits_le (12 - p)
      refine rejectPrefix hT hF hp (by omega) (by rw [h3]; exact e) ?_ (by rw [field_field (by omega)]; exact h)
      intro r hr e' hrp he
      exact decodeRef_string_err (bits_take (bits_drop hF _) _) he

theorem C31_gsrn96 (b : Str) (hB : Bits b) (hb : b.take 8 = py "00101101") :
    (bitsNumber ((b.drop 11).take 3) = 7 → GSRN.fromBinary b = .error .convert) ∧
    (∀ p ≤ 6, bitsNumber ((b.drop 11).take 3) = p →
      10 ^ (12 - p) ≤ bitsNumber ((b.drop 14).take (prefixBits (12 - p))) → GSRN.fromBinary b = .error .convert) ∧
    (∀ p ≤ 6, bitsNumber ((b.drop 11).take 3) = p →
      10 ^ (p + 5) ≤ bitsNumber ((b.drop (14 + prefixBits (12 - p))).take (58 - prefixBits (12 - p))) →
      GSRN.fromBinary b = .error .convert) := by
  by_cases hl : 96 ≤ b.length
  case neg =>
    have h : GSRN.fromBinary b = .error .convert := by
      unfold GSRN.fromBinary
      rw [parseHeader_short (cs := GSRN.Coding.gsrn96) (p := py "gsrn") (sz := py "96") (n := 96) hb (by decide) (by decide) (by decide) (by decide)
        (by omega), error_bind]
    exact ⟨fun _ => h, fun _ _ _ _ => h, fun _ _ _ _ => h⟩
  case pos =>
    have hT : StdTable GSRN.table := by decide
    have hF : Bits ((b.drop 11).take 61) := bits_take (bits_drop hB 11) 61
    have hFl : ((b.drop 11).take 61).length = 61 := field_length (by omega)
    have h3 : ((b.drop 11).take 61).take 3 = (b.drop 11).take 3 := field_take (by decide)
    have go : decodePartitionTable ((b.drop 11).take 61) GSRN.table = .error .convert → GSRN.fromBinary b = .error .convert := by
      intro h
      rw [GSRN.decode_gsrn96 hB hb hl, h, error_bind]
    refine ⟨fun h7 => go ?_, fun p hp e h => go ?_, fun p hp e h => go ?_⟩
    · exact reject7 hT hF (by omega) (by rw [h3]; exact h7)
    · have := prefixBits_le (12 - p)
      refine rejectPrefix hT hF hp (by omega) (by rw [h3]; exact e) ?_ (by rw [field_field (by omega)]; exact h)
      intro r hr e' hrp he
      have hN : ∀ r ∈ GSRN.table, 0 < r.N ∧ 3 + prefixBits (12 - r.P) + r.N = 61 := by decide
      have := hN r hr
      rw [decodeRef_number (.inl rfl) (bits_take (bits_drop hF _) _) (field_length (by rw [← hrp, hFl]; omega)) this.1] at he
      cases he
    · have := prefixBits_le (12 - p)
      refine rejectRef hT (K := fun p => p + 5) (N := fun p => 58 - prefixBits (12 - p)) (by decide) hF hp (by omega) (by rw [h3]; exact e) (by simp) ?_
      rw [field_field (by omega)]
      rw [show 11 + (3 + prefixBits (12 - p)) = 14 + prefixBits (12 - p) by omega]
      exact h

theorem C31_gsrnp96 (b : Str) (hB : Bits b) (hb : b.take 8 = py "00101110") :
    (bitsNumber ((b.drop 11).take 3) = 7 → GSRNP.fromBinary b = .error .convert) ∧
    (∀ p ≤ 6, bitsNumber ((b.drop 11).take 3) = p →
      10 ^ (12 - p) ≤ bitsNumber ((b.drop 14).take (prefixBits (12 - p))) → GSRNP.fromBinary b = .error .convert) ∧
    (∀ p ≤ 6, bitsNumber ((b.drop 11).take 3) = p →
      10 ^ (p + 5) ≤ bitsNumber ((b.drop (14 + prefixBits (12 - p))).take (58 - prefixBits (12 - p))) →
      GSRNP.fromBinary b = .error .convert) := by
  by_cases hl : 96 ≤ b.length
  case neg =>
    have h : GSRNP.fromBinary b = .error .convert := by
      unfold GSRNP.fromBinary
      rw [parseHeader_short (cs := GSRNP.Coding.gsrnp96) (p := py "gsrnp") (sz := py "96") (n := 96) hb (by decide) (by decide) (by decide) (by decide)
        (by omega), error_bind]
    exact ⟨fun _ => h, fun _ _ _ _ => h, fun _ _ _ _ => h⟩
  case pos =>
    have hT : StdTable GSRNP.table := by decide
    have hF : Bits ((b.drop 11).take 61) := bits_take (bits_drop hB 11) 61
    have hFl : ((b.drop 11).take 61).length = 61 := field_length (by omega)
    have h3 : ((b.drop 11).take 61).take 3 = (b.drop 11).take 3 := field_take (by decide)
    have go : decodePartitionTable ((b.drop 11).take 61) GSRNP.table = .error .convert → GSRNP.fromBinary b = .error .convert := by
      intro h
      rw [GSRNP.decode_gsrnp96 hB hb hl, h, error_bind]
    refine ⟨fun h7 => go ?_, fun p hp e h => go ?_, fun p hp e h => go ?_⟩
    · exact reject7 hT hF (by omega) (by rw [h3]; exact h7)
    · have := prefixBits_le (12 - p)
      refine rejectPrefix hT hF hp (by omega) (by rw [h3]; exact e) ?_ (by rw [field_field (by omega)]; exact h)
      intro r hr e' hrp he
      have hN : ∀ r ∈ GSRNP.table, 0 < r.N ∧ 3 + prefixBits (12 - r.P) + r.N = 61 := by decide
      have := hN r hr
      rw [decodeRef_number (.inl rfl) (bits_take (bits_drop hF _) _) (field_length (by rw [← hrp, hFl]; omega)) this.1] at he
      cases he
    · have := prefixBits_le (12 - p)
      refine rejectRef hT (K := fun p => p + 5) (N := fun p => 58 - prefixBits (12 - p)) (by decide) hF hp (by omega) (by rw [h3]; exact e) (by simp) ?_
      rw [field_field (by omega)]
      rw [show 11 + (3 + prefixBits (12 - p)) = 14 + prefixBits (12 - p) by omega]
      exact h

theorem C31_gdti96_partial (b : Str) (hB : Bits b) (hb : b.take 8 = py "00101100") :
    (bitsNumber ((b.drop 11).take 3) = 7 → GDTI.fromBinary b = .error .convert) ∧
    (∀ p ≤ 6, bitsNumber ((b.drop 11).take 3) = p →
      10 ^ (12 - p) ≤ bitsNumber ((b.drop 14).take (prefixBits (12 - p))) → GDTI.fromBinary b = .error .convert) ∧
    (∀ p ≤ 6, bitsNumber ((b.drop 11).take 3) = p →
      p ≠ 0 → 10 ^ (p) ≤ bitsNumber ((b.drop (14 + prefixBits (12 - p))).take (41 - prefixBits (12 - p))) →
      GDTI.fromBinary b = .error .convert) := by
  by_cases hl : 96 ≤ b.length
  case neg =>
    have h : GDTI.fromBinary b = .error .convert := by
      unfold GDTI.fromBinary
      rw [parseHeader_short (cs := GDTI.Coding.gdti96) (p := py "gdti") (sz := py "96") (n := 96) hb (by decide) (by decide) (by decide) (by decide)
        (by omega), error_bind]
    exact ⟨fun _ => h, fun _ _ _ _ => h, fun _ _ _ _ _ => h⟩
  case pos =>
    have hT : StdTable GDTI.table := by decide
    have hF : Bits ((b.drop 11).take 44) := bits_take (bits_drop hB 11) 44
    have hFl : ((b.drop 11).take 44).length = 44 := field_length (by omega)
    have h3 : ((b.drop 11).take 44).take 3 = (b.drop 11).take 3 := field_take (by decide)
    have go : decodePartitionTable ((b.drop 11).take 44) GDTI.table = .error .convert → GDTI.fromBinary b = .error .convert := by
      intro h
      rw [GDTI.decode_gdti96 hB hb hl, h, error_bind]
    refine ⟨fun h7 => go ?_, fun p hp e h => go ?_, fun p hp e hp0 h => go ?_⟩
    · exact reject7 hT hF (by omega) (by rw [h3]; exact h7)
    · have := prefixBits_le (12 - p)
      refine rejectPrefix hT hF hp (by omega) (by rw [h3]; exact e) ?_ (by rw [field_field (by omega)]; exact h)
      intro r hr e' hrp he
      have hN : ∀ r ∈ GDTI.table, 0 < r.N ∧ 3 + prefixBits (12 - r.P) + r.N = 44 := by decide
      have := hN r hr
      rw [decodeRef_number (.inl rfl) (bits_take (bits_drop hF _) _) (field_length (by rw [← hrp, hFl]; omega)) this.1] at he
      cases he
    · have := prefixBits_le (12 - p)
      refine rejectRef hT (K := fun p => p) (N := fun p => 41 - prefixBits (12 - p)) (by decide) hF hp (by omega) (by rw [h3]; exact e) hp0 ?_
      rw [field_field (by omega)]
      rw [show 11 + (3 + prefixBits (12 - p)) = 14 + prefixBits (12 - p) by omega]
      exact h

theorem C31_gdti174_partial (b : Str) (hB : Bits b) (hb : b.take 8 = py "00111110") :
    (bitsNumber ((b.drop 11).take 3) = 7 → GDTI.fromBinary b = .error .convert) ∧
    (∀ p ≤ 6, bitsNumber ((b.drop 11).take 3) = p →
      10 ^ (12 - p) ≤ bitsNumber ((b.drop 14).take (prefixBits (12 - p))) → GDTI.fromBinary b = .error .convert) ∧
    (∀ p ≤ 6, bitsNumber ((b.drop 11).take 3) = p →
      p ≠ 0 → 10 ^ (p) ≤ bitsNumber ((b.drop (14 + prefixBits (12 - p))).take (41 - prefixBits (12 - p))) →
      GDTI.fromBinary b = .error .convert) := by
  by_cases hl : 174 ≤ b.length
  case neg =>
    have h : GDTI.fromBinary b = .error .convert := by
      unfold GDTI.fromBinary
      rw [parseHeader_short (cs := GDTI.Coding.gdti174) (p := py "gdti") (sz := py "174") (n := 174) hb (by decide) (by decide) (by decide) (by decide)
        (by omega), error_bind]
    exact ⟨fun _ => h, fun _ _ _ _ => h, fun _ _ _ _ _ => h⟩
  case pos =>
    have hT : StdTable GDTI.table := by decide
    have hF : Bits ((b.drop 11).take 44) := bits_take (bits_drop hB 11) 44
    have hFl : ((b.drop 11).take 44).length = 44 := field_length (by omega)
    have h3 : ((b.drop 11).take 44).take 3 = (b.drop 11).take 3 := field_take (by decide)
    have go : decodePartitionTable ((b.drop 11).take 44) GDTI.table = .error .convert → GDTI.fromBinary b = .error .convert := by
      intro h
      rw [GDTI.decode_gdti174 hB hb hl, h, error_bind]
    refine ⟨fun h7 => go ?_, fun p hp e h => go ?_, fun p hp e hp0 h => go ?_⟩
    · exact reject7 hT hF (by omega) (by rw [h3]; exact h7)
    · have := prefixBits_le (12 - p)
      refine rejectPrefix hT hF hp (by omega) (by rw [h3]; exact e) ?_ (by rw [field_field (by omega)]; exact h)
      intro r hr e' hrp he
      have hN : ∀ r ∈ GDTI.table, 0 < r.N ∧ 3 + prefixBits (12 - r.P) + r.N = 44 := by decide
      have := hN r hr
      rw [decodeRef_number (.inl rfl) (bits_take (bits_drop hF _) _) (field_length (by rw [← hrp, hFl]; omega)) this.1] at he
      cases he
    · have := prefixBits_le (12 - p)
      refine rejectRef hT (K := fun p => p) (N := fun p => 41 - prefixBits (12 - p)) (by decide) hF hp (by omega) (by rw [h3]; exact e) hp0 ?_
      rw [field_field (by omega)]
      rw [show 11 + (3 + prefixBits (12 - p)) = 14 + prefixBits (12 - p) by omega]
      exact h

theorem C31_cpi96 (b : Str) (hB : Bits b) (hb : b.take 8 = py "00111100") :
    (bitsNumber ((b.drop 11).take 3) = 7 → CPI.fromBinary b = .error .convert) ∧
    (∀ p ≤ 6, bitsNumber ((b.drop 11).take 3) = p →
      10 ^ (12 - p) ≤ bitsNumber ((b.drop 14).take (prefixBits (12 - p))) → CPI.fromBinary b = .error .convert) := by
  by_cases hl : 96 ≤ b.length
  case neg =>
    have h : CPI.fromBinary b = .error .convert := by
      unfold CPI.fromBinary
      rw [parseHeader_short (cs := CPI.Coding.cpi96) (p := py "cpi") (sz := py "96") (n := 96) hb (by decide) (by decide) (by decide) (by decide)
        (by omega), error_bind]
    exact ⟨fun _ => h, fun _ _ _ _ => h⟩
  case pos =>
    have hT : StdTable CPI.table96 := by decide
    have hF : Bits ((b.drop 11).take 54) := bits_take (bits_drop hB 11) 54
    have hFl : ((b.drop 11).take 54).length = 54 := field_length (by omega)
    have h3 : ((b.drop 11).take 54).take 3 = (b.drop 11).take 3 := field_take (by decide)
    have go : decodePartitionTable ((b.drop 11).take 54) CPI.table96 .unpadded = .error .convert → CPI.fromBinary b = .error .convert := by
      intro h
      rw [CPI.decode_cpi96 hB hb hl, h, error_bind]
    refine ⟨fun h7 => go ?_, fun p hp e h => go ?_⟩
    · exact reject7 hT hF (by omega) (by rw [h3]; exact h7)
    · have := prefixBits_le (12 - p)
      refine rejectPrefix hT hF hp (by omega) (by rw [h3]; exact e) ?_ (by rw [field_field (by omega)]; exact h)
      intro r hr e' hrp he
      have hN : ∀ r ∈ CPI.table96, 0 < r.N ∧ 3 + prefixBits (12 - r.P) + r.N = 54 := by decide
      have := hN r hr
      rw [decodeRef_number (.inr rfl) (bits_take (bits_drop hF _) _) (field_length (by rw [← hrp, hFl]; omega)) this.1] at he
      cases he

theorem C31_sgcn96_partial (b : Str) (hB : Bits b) (hb : b.take 8 = py "00111111") :
    (bitsNumber ((b.drop 11).take 3) = 7 → SGCN.fromBinary b = .error .convert) ∧
    (∀ p ≤ 6, bitsNumber ((b.drop 11).take 3) = p →
      10 ^ (12 - p) ≤ bitsNumber ((b.drop 14).take (prefixBits (12 - p))) → SGCN.fromBinary b = .error .convert) ∧
    (∀ p ≤ 6, bitsNumber ((b.drop 11).take 3) = p →
      p ≠ 0 → 10 ^ (p) ≤ bitsNumber ((b.drop (14 + prefixBits (12 - p))).take (41 - prefixBits (12 - p))) →
      SGCN.fromBinary b = .error .convert) := by
  by_cases hl : 96 ≤ b.length
  case neg =>
    have h : SGCN.fromBinary b = .error .convert := by
      unfold SGCN.fromBinary
      rw [parseHeader_short (cs := SGCN.Coding.sgcn96) (p := py "sgcn") (sz := py "96") (n := 96) hb (by decide) (by decide) (by decide) (by decide)
        (by omega), error_bind]
    exact ⟨fun _ => h, fun _ _ _ _ => h, fun _ _ _ _ _ => h⟩
  case pos =>
    have hT : StdTable SGCN.table := by decide
    have hF : Bits ((b.drop 11).take 44) := bits_take (bits_drop hB 11) 44
    have hFl : ((b.drop 11).take 44).length = 44 := field_length (by omega)
    have h3 : ((b.drop 11).take 44).take 3 = (b.drop 11).take 3 := field_take (by decide)
    have go : decodePartitionTable ((b.drop 11).take 44) SGCN.table = .error .convert → SGCN.fromBinary b = .error .convert := by
      intro h
      rw [SGCN.decode_sgcn96 hB hb hl, h, error_bind]
    refine ⟨fun h7 => go ?_, fun p hp e h => go ?_, fun p hp e hp0 h => go ?_⟩
    · exact reject7 hT hF (by omega) (by rw [h3]; exact h7)
    · have := prefixBits_le (12 - p)
      refine rejectPrefix hT hF hp (by omega) (by rw [h3]; exact e) ?_ (by rw [field_field (by omega)]; exact h)
      intro r hr e' hrp he
      have hN : ∀ r ∈ SGCN.table, 0 < r.N ∧ 3 + prefixBits (12 - r.P) + r.N = 44 := by decide
      have := hN r hr
      rw [decodeRef_number (.inl rfl) (bits_take (bits_drop hF _) _) (field_length (by rw [← hrp, hFl]; omega)) this.1] at he
      cases he
    · have := prefixBits_le (12 - p)
      refine rejectRef hT (K := fun p => p) (N := fun p => 41 - prefixBits (12 - p)) (by decide) hF hp (by omega) (by rw [h3]; exact e) hp0 ?_
      rw [field_field (by omega)]
      rw [show 11 + (3 + prefixBits (12 - p)) = 14 + prefixBits (12 - p) by omega]
      exact h

theorem C31_itip110 (b : Str) (hB : Bits b) (hb : b.take 8 = py "01000000") :
    (bitsNumber ((b.drop 11).take 3) = 7 → ITIP.fromBinary b = .error .convert) ∧
    (∀ p ≤ 6, bitsNumber ((b.drop 11).take 3) = p →
      10 ^ (12 - p) ≤ bitsNumber ((b.drop 14).take (prefixBits (12 - p))) → ITIP.fromBinary b = .error .convert) ∧
    (∀ p ≤ 6, bitsNumber ((b.drop 11).take 3) = p →
      10 ^ (p + 1) ≤ bitsNumber ((b.drop (14 + prefixBits (12 - p))).take (44 - prefixBits (12 - p))) →
      ITIP.fromBinary b = .error .convert) := by
  by_cases hl : 110 ≤ b.length
  case neg =>
    have h : ITIP.fromBinary b = .error .convert := by
      unfold ITIP.fromBinary
      rw [parseHeader_short (cs := ITIP.Coding.itip110) (p := py "itip") (sz := py "110") (n := 110) hb (by decide) (by decide) (by decide) (by decide)
        (by omega), error_bind]
    exact ⟨fun _ => h, fun _ _ _ _ => h, fun _ _ _ _ => h⟩
  case pos =>
    have hT : StdTable ITIP.table := by decide
    have hF : Bits ((b.drop 11).take 47) := bits_take (bits_drop hB 11) 47
    have hFl : ((b.drop 11).take 47).length = 47 := field_length (by omega)
    have h3 : ((b.drop 11).take 47).take 3 = (b.drop 11).take 3 := field_take (by decide)
    have go : decodePartitionTable ((b.drop 11).take 47) ITIP.table = .error .convert → ITIP.fromBinary b = .error .convert := by
      intro h
      rw [ITIP.decode_itip110 hB hb hl, h, error_bind]
    refine ⟨fun h7 => go ?_, fun p hp e h => go ?_, fun p hp e h => go ?_⟩
    · exact reject7 hT hF (by omega) (by rw [h3]; exact h7)
    · have := prefixBits_le (12 - p)
      refine rejectPrefix hT hF hp (by omega) (by rw [h3]; exact e) ?_ (by rw [field_field (by omega)]; exact h)
      intro r hr e' hrp he
      have hN : ∀ r ∈ ITIP.table, 0 < r.N ∧ 3 + prefixBits (12 - r.P) + r.N = 47 := by decide
      have := hN r hr
      rw [decodeRef_number (.inl rfl) (bits_take (bits_drop hF _) _) (field_length (by rw [← hrp, hFl]; omega)) this.1] at he
      cases he
    · have := prefixBits_le (12 - p)
      refine rejectRef hT (K := fun p => p + 1) (N := fun p => 44 - prefixBits (12 - p)) (by decide) hF hp (by omega) (by rw [h3]; exact e) (by simp) ?_
      rw [field_field (by omega)]
      rw [show 11 + (3 + prefixBits (12 - p)) = 14 + prefixBits (12 - p) by omega]
      exact h

theorem C31_itip212 (b : Str) (hB : Bits b) (hb : b.take 8 = py "01000001") :
    (bitsNumber ((b.drop 11).take 3) = 7 → ITIP.fromBinary b = .error .convert) ∧
    (∀ p ≤ 6, bitsNumber ((b.drop 11).take 3) = p →
      10 ^ (12 - p) ≤ bitsNumber ((b.drop 14).take (prefixBits (12 - p))) → ITIP.fromBinary b = .error .convert) ∧
    (∀ p ≤ 6, bitsNumber ((b.drop 11).take 3) = p →
      10 ^ (p + 1) ≤ bitsNumber ((b.drop (14 + prefixBits (12 - p))).take (44 - prefixBits (12 - p))) →
      ITIP.fromBinary b = .error .convert) := by
  by_cases hl : 212 ≤ b.length
  case neg =>
    have h : ITIP.fromBinary b = .error .convert := by
      unfold ITIP.fromBinary
      rw [parseHeader_short (cs := ITIP.Coding.itip212) (p := py "itip") (sz := py "212") (n := 212) hb (by decide) (by decide) (by decide) (by decide)
        (by omega), error_bind]
    exact ⟨fun _ => h, fun _ _ _ _ => h, fun _ _ _ _ => h⟩
  case pos =>
    have hT : StdTable ITIP.table := by decide
    have hF : Bits ((b.drop 11).take 47) := bits_take (bits_drop hB 11) 47
    have hFl : ((b.drop 11).take 47).length = 47 := field_length (by omega)
    have h3 : ((b.drop 11).take 47).take 3 = (b.drop 11).take 3 := field_take (by decide)
    have go : decodePartitionTable ((b.drop 11).take 47) ITIP.table = .error .convert → ITIP.fromBinary b = .error .convert := by
      intro h
      rw [ITIP.decode_itip212 hB hb hl, h, error_bind]
    refine ⟨fun h7 => go ?_, fun p hp e h => go ?_, fun p hp e h => go ?_⟩
    · exact reject7 hT hF (by omega) (by rw [h3]; exact h7)
    · have := prefixBits_le (12 - p)
      refine rejectPrefix hT hF hp (by omega) (by rw [h3]; exact e) ?_ (by rw [field_field (by omega)]; exact h)
      intro r hr e' hrp he
      have hN : ∀ r ∈ ITIP.table, 0 < r.N ∧ 3 + prefixBits (12 - r.P) + r.N = 47 := by decide
      have := hN r hr
      rw [decodeRef_number (.inl rfl) (bits_take (bits_drop hF _) _) (field_length (by rw [← hrp, hFl]; omega)) this.1] at he
      cases he
    · have := prefixBits_le (12 - p)
      refine rejectRef hT (K := fun p => p + 1) (N := fun p => 44 - prefixBits (12 - p)) (by decide) hF hp (by omega) (by rw [h3]; exact e) (by simp) ?_
      rw [field_field (by omega)]
      rw [show 11 + (3 + prefixBits (12 - p)) = 14 + prefixBits (12 - p) by omega]
      exact h

theorem C31_cpiVar (b : Str) (hB : Bits b) (hb : b.take 8 = py "00111101") :
    (14 ≤ b.length → bitsNumber ((b.drop 11).take 3) = 7 → CPI.fromBinary b = .error .convert) ∧
    (∀ p ≤ 6, 14 + prefixBits (12 - p) ≤ b.length → bitsNumber ((b.drop 11).take 3) = p →
      10 ^ (12 - p) ≤ bitsNumber ((b.drop 14).take (prefixBits (12 - p))) → CPI.fromBinary b = .error .convert) := by
  have hT : StdTable CPI.tableVar := by decide
  have hF := bits_drop hB 11
  have go : decodePartitionTable (b.drop 11) CPI.tableVar .sixBit = .error .convert → CPI.fromBinary b = .error .convert := by
    intro h
    unfold CPI.fromBinary
    rw [parseHeader_var (cs := CPI.Coding.cpiVar) (p := py "cpi") (sz := py "var") hb (by decide) (by decide) (by decide), ok_bind]
    dsimp only
    unfold CPI.decodeParts
    rw [if_neg (by decide)]
    dsimp only
    rw [h, error_bind, error_bind]
  refine ⟨fun hl h7 => go (reject7 hT hF (by rw [List.length_drop]; omega) h7), fun p hp hl e h => go ?_⟩
  refine rejectPrefix hT hF hp (by rw [List.length_drop]; omega) e ?_ (by rw [List.drop_drop]; exact h)
  intro r hr e' hrp he
  exact decodeRef_six_err (bits_take (bits_drop hF _) _) he

/-- A bit string with partition value 0 and a non-zero reference field is accepted. -/
theorem C31_claim_false : ¬ ∀ b : Str, Bits b → b.take 8 = py "00110010" → bitsNumber ((b.drop 11).take 3) = 0 →
    10 ^ 0 ≤ bitsNumber ((b.drop 54).take 1) → SGLN.fromBinary b = .error .convert := by
  intro h
  exact absurd (h (py "001100100110000001110010111110100110010001101000010100100000000000000000000000000000000000000101")
    (by decide) (by decide) (by decide +kernel) (by decide +kernel)) (by decide +kernel)

example : bitsNumber (((py "00110000001111").drop 11).take 3) = 7 := by decide +kernel
example : 10 ^ 12 ≤ bitsNumber (((py "00110000000000" ++ List.replicate 82 '1').drop 14).take (prefixBits 12)) := by decide +kernel
example : 10 ^ 1 ≤ bitsNumber (((py "00110000000000" ++ List.replicate 40 '0' ++ List.replicate 42 '1').drop 54).take 4) := by decide +kernel

end Epc
