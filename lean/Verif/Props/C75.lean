/-
C75: the texts `from_binary` takes.  A binary is announced as a string of zeros and ones, but the fields are read by Python's `int(text, 2)`, so every
class takes other texts as well.  The strongest true form: a field is seen only through its number, so `from_binary` answers as it does for the text
in which every number is written out in zeros and ones.
Generated by tools/gen_c75.py.
-/
import Verif.Lemmas.FieldsAll

namespace Epc
open Spec

/-! ### The claim is false of every class -/

theorem C75_sgtin_claim_false : ¬ ∀ b x, SGTIN.fromBinary b = .ok x → Bits b := by
  intro h
  have hx : (SGTIN.fromBinary (py "00110000+011011001000101000111111101010000001100000011100100000000000000000000000001001001100111")).toBool = true := by decide +kernel
  cases e : SGTIN.fromBinary (py "00110000+011011001000101000111111101010000001100000011100100000000000000000000000001001001100111") with
  | error _ => rw [e] at hx; exact Bool.noConfusion hx
  | ok x => exact absurd (h _ x e) (by decide +kernel)

theorem C75_sscc_claim_false : ¬ ∀ b x, SSCC.fromBinary b = .ok x → Bits b := by
  intro h
  have hx : (SSCC.fromBinary (py "00110001+011011001000101000111111101010001001001100101100000001011010010000000000000000000000000")).toBool = true := by decide +kernel
  cases e : SSCC.fromBinary (py "00110001+011011001000101000111111101010001001001100101100000001011010010000000000000000000000000") with
  | error _ => rw [e] at hx; exact Bool.noConfusion hx
  | ok x => exact absurd (h _ x e) (by decide +kernel)

theorem C75_sgln_claim_false : ¬ ∀ b x, SGLN.fromBinary b = .ok x → Bits b := by
  intro h
  have hx : (SGLN.fromBinary (py "00110010+011011001000101000111111101010001100000011100100000000000000000000000000001001001100111")).toBool = true := by decide +kernel
  cases e : SGLN.fromBinary (py "00110010+011011001000101000111111101010001100000011100100000000000000000000000000001001001100111") with
  | error _ => rw [e] at hx; exact Bool.noConfusion hx
  | ok x => exact absurd (h _ x e) (by decide +kernel)

theorem C75_grai_claim_false : ¬ ∀ b x, GRAI.fromBinary b = .ok x → Bits b := by
  intro h
  have hx : (GRAI.fromBinary (py "00110011+011011001000101000111111101010000001100000011100100000000000000000000000001001001100111")).toBool = true := by decide +kernel
  cases e : GRAI.fromBinary (py "00110011+011011001000101000111111101010000001100000011100100000000000000000000000001001001100111") with
  | error _ => rw [e] at hx; exact Bool.noConfusion hx
  | ok x => exact absurd (h _ x e) (by decide +kernel)

theorem C75_giai_claim_false : ¬ ∀ b x, GIAI.fromBinary b = .ok x → Bits b := by
  intro h
  have hx : (GIAI.fromBinary (py "00110100+011011001000101000111111101010000000000000000000000000000000000000000000001001001100111")).toBool = true := by decide +kernel
  cases e : GIAI.fromBinary (py "00110100+011011001000101000111111101010000000000000000000000000000000000000000000001001001100111") with
  | error _ => rw [e] at hx; exact Bool.noConfusion hx
  | ok x => exact absurd (h _ x e) (by decide +kernel)

theorem C75_gsrn_claim_false : ¬ ∀ b x, GSRN.fromBinary b = .ok x → Bits b := by
  intro h
  have hx : (GSRN.fromBinary (py "00101101+011011001000101000111111101010001001001100101100000001011010010000000000000000000000000")).toBool = true := by decide +kernel
  cases e : GSRN.fromBinary (py "00101101+011011001000101000111111101010001001001100101100000001011010010000000000000000000000000") with
  | error _ => rw [e] at hx; exact Bool.noConfusion hx
  | ok x => exact absurd (h _ x e) (by decide +kernel)

theorem C75_gsrnp_claim_false : ¬ ∀ b x, GSRNP.fromBinary b = .ok x → Bits b := by
  intro h
  have hx : (GSRNP.fromBinary (py "00101110+011011001000101000111111101010001001001100101100000001011010010000000000000000000000000")).toBool = true := by decide +kernel
  cases e : GSRNP.fromBinary (py "00101110+011011001000101000111111101010001001001100101100000001011010010000000000000000000000000") with
  | error _ => rw [e] at hx; exact Bool.noConfusion hx
  | ok x => exact absurd (h _ x e) (by decide +kernel)

theorem C75_gdti_claim_false : ¬ ∀ b x, GDTI.fromBinary b = .ok x → Bits b := by
  intro h
  have hx : (GDTI.fromBinary (py "00101100+011011001000101000111111101010001100000011100100000000000000000000000000001001001100111")).toBool = true := by decide +kernel
  cases e : GDTI.fromBinary (py "00101100+011011001000101000111111101010001100000011100100000000000000000000000000001001001100111") with
  | error _ => rw [e] at hx; exact Bool.noConfusion hx
  | ok x => exact absurd (h _ x e) (by decide +kernel)

theorem C75_cpi_claim_false : ¬ ∀ b x, CPI.fromBinary b = .ok x → Bits b := by
  intro h
  have hx : (CPI.fromBinary (py "00111100+011011001000101000111111101010000000000110000001110011010000000000000000011000000111001")).toBool = true := by decide +kernel
  cases e : CPI.fromBinary (py "00111100+011011001000101000111111101010000000000110000001110011010000000000000000011000000111001") with
  | error _ => rw [e] at hx; exact Bool.noConfusion hx
  | ok x => exact absurd (h _ x e) (by decide +kernel)

theorem C75_sgcn_claim_false : ¬ ∀ b x, SGCN.fromBinary b = .ok x → Bits b := by
  intro h
  have hx : (SGCN.fromBinary (py "00111111+011011001000101000111111101011000010010011001000000000000000000000000011001100100000111")).toBool = true := by decide +kernel
  cases e : SGCN.fromBinary (py "00111111+011011001000101000111111101011000010010011001000000000000000000000000011001100100000111") with
  | error _ => rw [e] at hx; exact Bool.noConfusion hx
  | ok x => exact absurd (h _ x e) (by decide +kernel)

theorem C75_itip_claim_false : ¬ ∀ b x, ITIP.fromBinary b = .ok x → Bits b := by
  intro h
  have hx : (ITIP.fromBinary (py "01000000+01101100100010100011111110101000000110000001110010000010000010000000000000000000000000000001111010101")).toBool = true := by decide +kernel
  cases e : ITIP.fromBinary (py "01000000+01101100100010100011111110101000000110000001110010000010000010000000000000000000000000000001111010101") with
  | error _ => rw [e] at hx; exact Bool.noConfusion hx
  | ok x => exact absurd (h _ x e) (by decide +kernel)

theorem C75_gid_claim_false : ¬ ∀ b x, GID.fromBinary b = .ok x → Bits b := by
  intro h
  have hx : (GID.fromBinary (py "00110101+000000011101000011011111000000000000000101010011110000000000000000000000000010110000110")).toBool = true := by decide +kernel
  cases e : GID.fromBinary (py "00110101+000000011101000011011111000000000000000101010011110000000000000000000000000010110000110") with
  | error _ => rw [e] at hx; exact Bool.noConfusion hx
  | ok x => exact absurd (h _ x e) (by decide +kernel)

theorem C75_usdod_claim_false : ¬ ∀ b x, USDOD.fromBinary b = .ok x → Bits b := by
  intro h
  have hx : (USDOD.fromBinary (py "00101111+001001000000100001101000001010001110100010101011001000000000000000000000001011000101110")).toBool = true := by decide +kernel
  cases e : USDOD.fromBinary (py "00101111+001001000000100001101000001010001110100010101011001000000000000000000000001011000101110") with
  | error _ => rw [e] at hx; exact Bool.noConfusion hx
  | ok x => exact absurd (h _ x e) (by decide +kernel)

theorem C75_adi_claim_false : ¬ ∀ b x, ADI.fromBinary b = .ok x → Bits b := by
  intro h
  have hx : (ADI.fromBinary (py "00111011+00001010111111000110001011000111001000011110011001011001100111001111000110100010000011000110001000000110010010111001101000001101101110101110010000000")).toBool = true := by decide +kernel
  cases e : ADI.fromBinary (py "00111011+00001010111111000110001011000111001000011110011001011001100111001111000110100010000011000110001000000110010010111001101000001101101110101110010000000") with
  | error _ => rw [e] at hx; exact Bool.noConfusion hx
  | ok x => exact absurd (h _ x e) (by decide +kernel)

/-! ### What holds of every text -/

/-- The rewritten text consists of zeros and ones when the header does and every field is a number that is not negative. -/
theorem C75_bits_partial {b : Str} {ws : List Nat} (hh : Bits (b.take 8)) (hl : b.length = 8 + ws.sum)
    (hr : ∀ pre w post, ws = pre ++ w :: post → ∃ n, Reads ((b.drop (8 + pre.sum)).take w) n) : Bits (b.take 8 ++ fieldsBits (b.drop 8) ws) :=
  Bits_append.2 ⟨hh, Bits_fieldsBits ws _ (by rw [List.length_drop]; omega) fun pre w post e => by
    obtain ⟨n, hn⟩ := hr pre w post e
    rw [← List.drop_drop] at hn
    exact ⟨n, hn⟩⟩

/-- SGTIN-96: filter value, partition value, company prefix, reference and serial. -/
theorem C75_sgtin96_partial {b : Str} {p : Nat} (hb : b.take 8 = py "00110000") (hl : 96 ≤ b.length) (hP : Reads ((b.drop 11).take 3) p) :
    SGTIN.fromBinary b = SGTIN.fromBinary (b.take 8 ++ fieldsBits (b.drop 8) (3 :: keyWidths 47 p ++ [38])) :=
  SGTIN.same_sgtin96 hb
    (by rw [take_behind (by omega)]; exact hb)
    hl
    (by rw [length_behind]; exact hl)
    (same_at [] (3) [3, prefixBits (12 - p), 47 - 3 - prefixBits (12 - p), 38] (by have := prefixBits_le_40 (12 - p); simp <;> omega) (by have := prefixBits_le_40 (12 - p); omega))
    (key_same (by decide : StdTable SGTIN.table) (by decide) (by decide) (by decide) hP (same_at [3] (3) [prefixBits (12 - p), 47 - 3 - prefixBits (12 - p), 38] (by have := prefixBits_le_40 (12 - p); simp <;> omega) (by have := prefixBits_le_40 (12 - p); omega)) (same_at [3, 3] (prefixBits (12 - p)) [47 - 3 - prefixBits (12 - p), 38] (by have := prefixBits_le_40 (12 - p); simp <;> omega) (by have := prefixBits_le_40 (12 - p); omega)) (same_at [3, 3, prefixBits (12 - p)] (47 - 3 - prefixBits (12 - p)) [38] (by have := prefixBits_le_40 (12 - p); simp <;> omega) (by have := prefixBits_le_40 (12 - p); omega)))
    (same_at [3, 3, prefixBits (12 - p), 47 - 3 - prefixBits (12 - p)] (38) [] (by have := prefixBits_le_40 (12 - p); simp <;> omega) (by have := prefixBits_le_40 (12 - p); omega))

/-- SGTIN-198: filter value, partition value, company prefix and reference (the characters of the serial are kept). -/
theorem C75_sgtin198_partial {b : Str} {p : Nat} (hb : b.take 8 = py "00110110") (hl : 198 ≤ b.length) (hP : Reads ((b.drop 11).take 3) p) :
    SGTIN.fromBinary b = SGTIN.fromBinary (b.take 8 ++ fieldsBits (b.drop 8) (3 :: keyWidths 47 p)) :=
  SGTIN.same_sgtin198 hb
    (by rw [take_behind (by omega)]; exact hb)
    hl
    (by rw [length_behind]; exact hl)
    (same_at [] (3) [3, prefixBits (12 - p), 47 - 3 - prefixBits (12 - p)] (by have := prefixBits_le_40 (12 - p); simp <;> omega) (by have := prefixBits_le_40 (12 - p); omega))
    (key_same (by decide : StdTable SGTIN.table) (by decide) (by decide) (by decide) hP (same_at [3] (3) [prefixBits (12 - p), 47 - 3 - prefixBits (12 - p)] (by have := prefixBits_le_40 (12 - p); simp <;> omega) (by have := prefixBits_le_40 (12 - p); omega)) (same_at [3, 3] (prefixBits (12 - p)) [47 - 3 - prefixBits (12 - p)] (by have := prefixBits_le_40 (12 - p); simp <;> omega) (by have := prefixBits_le_40 (12 - p); omega)) (same_at [3, 3, prefixBits (12 - p)] (47 - 3 - prefixBits (12 - p)) [] (by have := prefixBits_le_40 (12 - p); simp <;> omega) (by have := prefixBits_le_40 (12 - p); omega)))
    (drop_behind (by have := prefixBits_le_40 (12 - p); simp [keyWidths] <;> omega) (by have := prefixBits_le_40 (12 - p); omega)).symm

/-- SSCC-96: filter value, partition value, company prefix and reference. -/
theorem C75_sscc96_partial {b : Str} {p : Nat} (hb : b.take 8 = py "00110001") (hl : 96 ≤ b.length) (hP : Reads ((b.drop 11).take 3) p) :
    SSCC.fromBinary b = SSCC.fromBinary (b.take 8 ++ fieldsBits (b.drop 8) (3 :: keyWidths 61 p)) :=
  SSCC.same_sscc96 hb
    (by rw [take_behind (by omega)]; exact hb)
    hl
    (by rw [length_behind]; exact hl)
    (same_at [] (3) [3, prefixBits (12 - p), 61 - 3 - prefixBits (12 - p)] (by have := prefixBits_le_40 (12 - p); simp <;> omega) (by have := prefixBits_le_40 (12 - p); omega))
    (key_same (by decide : StdTable SSCC.table) (by decide) (by decide) (by decide) hP (same_at [3] (3) [prefixBits (12 - p), 61 - 3 - prefixBits (12 - p)] (by have := prefixBits_le_40 (12 - p); simp <;> omega) (by have := prefixBits_le_40 (12 - p); omega)) (same_at [3, 3] (prefixBits (12 - p)) [61 - 3 - prefixBits (12 - p)] (by have := prefixBits_le_40 (12 - p); simp <;> omega) (by have := prefixBits_le_40 (12 - p); omega)) (same_at [3, 3, prefixBits (12 - p)] (61 - 3 - prefixBits (12 - p)) [] (by have := prefixBits_le_40 (12 - p); simp <;> omega) (by have := prefixBits_le_40 (12 - p); omega)))

/-- SGLN-96: filter value, partition value, company prefix, reference and serial. -/
theorem C75_sgln96_partial {b : Str} {p : Nat} (hb : b.take 8 = py "00110010") (hl : 96 ≤ b.length) (hP : Reads ((b.drop 11).take 3) p) :
    SGLN.fromBinary b = SGLN.fromBinary (b.take 8 ++ fieldsBits (b.drop 8) (3 :: keyWidths 44 p ++ [41])) :=
  SGLN.same_sgln96 hb
    (by rw [take_behind (by omega)]; exact hb)
    hl
    (by rw [length_behind]; exact hl)
    (same_at [] (3) [3, prefixBits (12 - p), 44 - 3 - prefixBits (12 - p), 41] (by have := prefixBits_le_40 (12 - p); simp <;> omega) (by have := prefixBits_le_40 (12 - p); omega))
    (key_same (by decide : StdTable SGLN.table) (by decide) (by decide) (by decide) hP (same_at [3] (3) [prefixBits (12 - p), 44 - 3 - prefixBits (12 - p), 41] (by have := prefixBits_le_40 (12 - p); simp <;> omega) (by have := prefixBits_le_40 (12 - p); omega)) (same_at [3, 3] (prefixBits (12 - p)) [44 - 3 - prefixBits (12 - p), 41] (by have := prefixBits_le_40 (12 - p); simp <;> omega) (by have := prefixBits_le_40 (12 - p); omega)) (same_at [3, 3, prefixBits (12 - p)] (44 - 3 - prefixBits (12 - p)) [41] (by have := prefixBits_le_40 (12 - p); simp <;> omega) (by have := prefixBits_le_40 (12 - p); omega)))
    (same_at [3, 3, prefixBits (12 - p), 44 - 3 - prefixBits (12 - p)] (41) [] (by have := prefixBits_le_40 (12 - p); simp <;> omega) (by have := prefixBits_le_40 (12 - p); omega))

/-- SGLN-195: filter value, partition value, company prefix and reference (the characters of the serial are kept). -/
theorem C75_sgln195_partial {b : Str} {p : Nat} (hb : b.take 8 = py "00111001") (hl : 195 ≤ b.length) (hP : Reads ((b.drop 11).take 3) p) :
    SGLN.fromBinary b = SGLN.fromBinary (b.take 8 ++ fieldsBits (b.drop 8) (3 :: keyWidths 44 p)) :=
  SGLN.same_sgln195 hb
    (by rw [take_behind (by omega)]; exact hb)
    hl
    (by rw [length_behind]; exact hl)
    (same_at [] (3) [3, prefixBits (12 - p), 44 - 3 - prefixBits (12 - p)] (by have := prefixBits_le_40 (12 - p); simp <;> omega) (by have := prefixBits_le_40 (12 - p); omega))
    (key_same (by decide : StdTable SGLN.table) (by decide) (by decide) (by decide) hP (same_at [3] (3) [prefixBits (12 - p), 44 - 3 - prefixBits (12 - p)] (by have := prefixBits_le_40 (12 - p); simp <;> omega) (by have := prefixBits_le_40 (12 - p); omega)) (same_at [3, 3] (prefixBits (12 - p)) [44 - 3 - prefixBits (12 - p)] (by have := prefixBits_le_40 (12 - p); simp <;> omega) (by have := prefixBits_le_40 (12 - p); omega)) (same_at [3, 3, prefixBits (12 - p)] (44 - 3 - prefixBits (12 - p)) [] (by have := prefixBits_le_40 (12 - p); simp <;> omega) (by have := prefixBits_le_40 (12 - p); omega)))
    (drop_behind (by have := prefixBits_le_40 (12 - p); simp [keyWidths] <;> omega) (by have := prefixBits_le_40 (12 - p); omega)).symm

/-- GRAI-96: filter value, partition value, company prefix, reference and serial. -/
theorem C75_grai96_partial {b : Str} {p : Nat} (hb : b.take 8 = py "00110011") (hl : 96 ≤ b.length) (hP : Reads ((b.drop 11).take 3) p) :
    GRAI.fromBinary b = GRAI.fromBinary (b.take 8 ++ fieldsBits (b.drop 8) (3 :: keyWidths 47 p ++ [38])) :=
  GRAI.same_grai96 hb
    (by rw [take_behind (by omega)]; exact hb)
    hl
    (by rw [length_behind]; exact hl)
    (same_at [] (3) [3, prefixBits (12 - p), 47 - 3 - prefixBits (12 - p), 38] (by have := prefixBits_le_40 (12 - p); simp <;> omega) (by have := prefixBits_le_40 (12 - p); omega))
    (key_same (by decide : StdTable GRAI.table) (by decide) (by decide) (by decide) hP (same_at [3] (3) [prefixBits (12 - p), 47 - 3 - prefixBits (12 - p), 38] (by have := prefixBits_le_40 (12 - p); simp <;> omega) (by have := prefixBits_le_40 (12 - p); omega)) (same_at [3, 3] (prefixBits (12 - p)) [47 - 3 - prefixBits (12 - p), 38] (by have := prefixBits_le_40 (12 - p); simp <;> omega) (by have := prefixBits_le_40 (12 - p); omega)) (same_at [3, 3, prefixBits (12 - p)] (47 - 3 - prefixBits (12 - p)) [38] (by have := prefixBits_le_40 (12 - p); simp <;> omega) (by have := prefixBits_le_40 (12 - p); omega)))
    (same_at [3, 3, prefixBits (12 - p), 47 - 3 - prefixBits (12 - p)] (38) [] (by have := prefixBits_le_40 (12 - p); simp <;> omega) (by have := prefixBits_le_40 (12 - p); omega))

/-- GRAI-170: filter value, partition value, company prefix and reference (the characters of the serial are kept). -/
theorem C75_grai170_partial {b : Str} {p : Nat} (hb : b.take 8 = py "00110111") (hl : 170 ≤ b.length) (hP : Reads ((b.drop 11).take 3) p) :
    GRAI.fromBinary b = GRAI.fromBinary (b.take 8 ++ fieldsBits (b.drop 8) (3 :: keyWidths 47 p)) :=
  GRAI.same_grai170 hb
    (by rw [take_behind (by omega)]; exact hb)
    hl
    (by rw [length_behind]; exact hl)
    (same_at [] (3) [3, prefixBits (12 - p), 47 - 3 - prefixBits (12 - p)] (by have := prefixBits_le_40 (12 - p); simp <;> omega) (by have := prefixBits_le_40 (12 - p); omega))
    (key_same (by decide : StdTable GRAI.table) (by decide) (by decide) (by decide) hP (same_at [3] (3) [prefixBits (12 - p), 47 - 3 - prefixBits (12 - p)] (by have := prefixBits_le_40 (12 - p); simp <;> omega) (by have := prefixBits_le_40 (12 - p); omega)) (same_at [3, 3] (prefixBits (12 - p)) [47 - 3 - prefixBits (12 - p)] (by have := prefixBits_le_40 (12 - p); simp <;> omega) (by have := prefixBits_le_40 (12 - p); omega)) (same_at [3, 3, prefixBits (12 - p)] (47 - 3 - prefixBits (12 - p)) [] (by have := prefixBits_le_40 (12 - p); simp <;> omega) (by have := prefixBits_le_40 (12 - p); omega)))
    (drop_behind (by have := prefixBits_le_40 (12 - p); simp [keyWidths] <;> omega) (by have := prefixBits_le_40 (12 - p); omega)).symm

/-- GIAI-96: filter value, partition value, company prefix and reference. -/
theorem C75_giai96_partial {b : Str} {p : Nat} (hb : b.take 8 = py "00110100") (hl : 96 ≤ b.length) (hP : Reads ((b.drop 11).take 3) p) :
    GIAI.fromBinary b = GIAI.fromBinary (b.take 8 ++ fieldsBits (b.drop 8) (3 :: keyWidths 85 p)) :=
  GIAI.same_giai96 hb
    (by rw [take_behind (by omega)]; exact hb)
    hl
    (by rw [length_behind]; exact hl)
    (same_at [] (3) [3, prefixBits (12 - p), 85 - 3 - prefixBits (12 - p)] (by have := prefixBits_le_40 (12 - p); simp <;> omega) (by have := prefixBits_le_40 (12 - p); omega))
    (key_same (by decide : StdTable GIAI.table96) (by decide) (by decide) (by decide) hP (same_at [3] (3) [prefixBits (12 - p), 85 - 3 - prefixBits (12 - p)] (by have := prefixBits_le_40 (12 - p); simp <;> omega) (by have := prefixBits_le_40 (12 - p); omega)) (same_at [3, 3] (prefixBits (12 - p)) [85 - 3 - prefixBits (12 - p)] (by have := prefixBits_le_40 (12 - p); simp <;> omega) (by have := prefixBits_le_40 (12 - p); omega)) (same_at [3, 3, prefixBits (12 - p)] (85 - 3 - prefixBits (12 - p)) [] (by have := prefixBits_le_40 (12 - p); simp <;> omega) (by have := prefixBits_le_40 (12 - p); omega)))

/-- GIAI-202: filter value, partition value and company prefix (the characters of the reference are kept). -/
theorem C75_giai202_partial {b : Str} {p : Nat} (hb : b.take 8 = py "00111000") (hl : 202 ≤ b.length) (hP : Reads ((b.drop 11).take 3) p) :
    GIAI.fromBinary b = GIAI.fromBinary (b.take 8 ++ fieldsBits (b.drop 8) ([3, 3, prefixBits (12 - p)])) :=
  GIAI.same_giai202 hb
    (by rw [take_behind (by omega)]; exact hb)
    hl
    (by rw [length_behind]; exact hl)
    (same_at [] (3) [3, prefixBits (12 - p)] (by have := prefixBits_le_40 (12 - p); simp <;> omega) (by have := prefixBits_le_40 (12 - p); omega))
    (key_same_text (by decide : StdTable GIAI.table202) (by rw [List.take_take]; exact hP) (same_inner (by decide) (same_at [3] (3) [prefixBits (12 - p)] (by have := prefixBits_le_40 (12 - p); simp <;> omega) (by have := prefixBits_le_40 (12 - p); omega))) (same_inner (by have := prefixBits_le_40 (12 - p); omega) (same_at [3, 3] (prefixBits (12 - p)) [] (by have := prefixBits_le_40 (12 - p); simp <;> omega) (by have := prefixBits_le_40 (12 - p); omega)))
      (by rw [List.drop_take, List.drop_take, List.drop_drop, List.drop_drop, drop_behind (by have := prefixBits_le_40 (12 - p); simp <;> omega) (by have := prefixBits_le_40 (12 - p); omega)]))

/-- GSRN-96: filter value, partition value, company prefix and reference. -/
theorem C75_gsrn96_partial {b : Str} {p : Nat} (hb : b.take 8 = py "00101101") (hl : 96 ≤ b.length) (hP : Reads ((b.drop 11).take 3) p) :
    GSRN.fromBinary b = GSRN.fromBinary (b.take 8 ++ fieldsBits (b.drop 8) (3 :: keyWidths 61 p)) :=
  GSRN.same_gsrn96 hb
    (by rw [take_behind (by omega)]; exact hb)
    hl
    (by rw [length_behind]; exact hl)
    (same_at [] (3) [3, prefixBits (12 - p), 61 - 3 - prefixBits (12 - p)] (by have := prefixBits_le_40 (12 - p); simp <;> omega) (by have := prefixBits_le_40 (12 - p); omega))
    (key_same (by decide : StdTable GSRN.table) (by decide) (by decide) (by decide) hP (same_at [3] (3) [prefixBits (12 - p), 61 - 3 - prefixBits (12 - p)] (by have := prefixBits_le_40 (12 - p); simp <;> omega) (by have := prefixBits_le_40 (12 - p); omega)) (same_at [3, 3] (prefixBits (12 - p)) [61 - 3 - prefixBits (12 - p)] (by have := prefixBits_le_40 (12 - p); simp <;> omega) (by have := prefixBits_le_40 (12 - p); omega)) (same_at [3, 3, prefixBits (12 - p)] (61 - 3 - prefixBits (12 - p)) [] (by have := prefixBits_le_40 (12 - p); simp <;> omega) (by have := prefixBits_le_40 (12 - p); omega)))

/-- GSRNP-96: filter value, partition value, company prefix and reference. -/
theorem C75_gsrnp96_partial {b : Str} {p : Nat} (hb : b.take 8 = py "00101110") (hl : 96 ≤ b.length) (hP : Reads ((b.drop 11).take 3) p) :
    GSRNP.fromBinary b = GSRNP.fromBinary (b.take 8 ++ fieldsBits (b.drop 8) (3 :: keyWidths 61 p)) :=
  GSRNP.same_gsrnp96 hb
    (by rw [take_behind (by omega)]; exact hb)
    hl
    (by rw [length_behind]; exact hl)
    (same_at [] (3) [3, prefixBits (12 - p), 61 - 3 - prefixBits (12 - p)] (by have := prefixBits_le_40 (12 - p); simp <;> omega) (by have := prefixBits_le_40 (12 - p); omega))
    (key_same (by decide : StdTable GSRNP.table) (by decide) (by decide) (by decide) hP (same_at [3] (3) [prefixBits (12 - p), 61 - 3 - prefixBits (12 - p)] (by have := prefixBits_le_40 (12 - p); simp <;> omega) (by have := prefixBits_le_40 (12 - p); omega)) (same_at [3, 3] (prefixBits (12 - p)) [61 - 3 - prefixBits (12 - p)] (by have := prefixBits_le_40 (12 - p); simp <;> omega) (by have := prefixBits_le_40 (12 - p); omega)) (same_at [3, 3, prefixBits (12 - p)] (61 - 3 - prefixBits (12 - p)) [] (by have := prefixBits_le_40 (12 - p); simp <;> omega) (by have := prefixBits_le_40 (12 - p); omega)))

/-- GDTI-96: filter value, partition value, company prefix, reference and serial. -/
theorem C75_gdti96_partial {b : Str} {p : Nat} (hb : b.take 8 = py "00101100") (hl : 96 ≤ b.length) (hP : Reads ((b.drop 11).take 3) p) :
    GDTI.fromBinary b = GDTI.fromBinary (b.take 8 ++ fieldsBits (b.drop 8) (3 :: keyWidths 44 p ++ [41])) :=
  GDTI.same_gdti96 hb
    (by rw [take_behind (by omega)]; exact hb)
    hl
    (by rw [length_behind]; exact hl)
    (same_at [] (3) [3, prefixBits (12 - p), 44 - 3 - prefixBits (12 - p), 41] (by have := prefixBits_le_40 (12 - p); simp <;> omega) (by have := prefixBits_le_40 (12 - p); omega))
    (key_same (by decide : StdTable GDTI.table) (by decide) (by decide) (by decide) hP (same_at [3] (3) [prefixBits (12 - p), 44 - 3 - prefixBits (12 - p), 41] (by have := prefixBits_le_40 (12 - p); simp <;> omega) (by have := prefixBits_le_40 (12 - p); omega)) (same_at [3, 3] (prefixBits (12 - p)) [44 - 3 - prefixBits (12 - p), 41] (by have := prefixBits_le_40 (12 - p); simp <;> omega) (by have := prefixBits_le_40 (12 - p); omega)) (same_at [3, 3, prefixBits (12 - p)] (44 - 3 - prefixBits (12 - p)) [41] (by have := prefixBits_le_40 (12 - p); simp <;> omega) (by have := prefixBits_le_40 (12 - p); omega)))
    (same_at [3, 3, prefixBits (12 - p), 44 - 3 - prefixBits (12 - p)] (41) [] (by have := prefixBits_le_40 (12 - p); simp <;> omega) (by have := prefixBits_le_40 (12 - p); omega))

/-- GDTI-174: filter value, partition value, company prefix and reference (the characters of the serial are kept). -/
theorem C75_gdti174_partial {b : Str} {p : Nat} (hb : b.take 8 = py "00111110") (hl : 174 ≤ b.length) (hP : Reads ((b.drop 11).take 3) p) :
    GDTI.fromBinary b = GDTI.fromBinary (b.take 8 ++ fieldsBits (b.drop 8) (3 :: keyWidths 44 p)) :=
  GDTI.same_gdti174 hb
    (by rw [take_behind (by omega)]; exact hb)
    hl
    (by rw [length_behind]; exact hl)
    (same_at [] (3) [3, prefixBits (12 - p), 44 - 3 - prefixBits (12 - p)] (by have := prefixBits_le_40 (12 - p); simp <;> omega) (by have := prefixBits_le_40 (12 - p); omega))
    (key_same (by decide : StdTable GDTI.table) (by decide) (by decide) (by decide) hP (same_at [3] (3) [prefixBits (12 - p), 44 - 3 - prefixBits (12 - p)] (by have := prefixBits_le_40 (12 - p); simp <;> omega) (by have := prefixBits_le_40 (12 - p); omega)) (same_at [3, 3] (prefixBits (12 - p)) [44 - 3 - prefixBits (12 - p)] (by have := prefixBits_le_40 (12 - p); simp <;> omega) (by have := prefixBits_le_40 (12 - p); omega)) (same_at [3, 3, prefixBits (12 - p)] (44 - 3 - prefixBits (12 - p)) [] (by have := prefixBits_le_40 (12 - p); simp <;> omega) (by have := prefixBits_le_40 (12 - p); omega)))
    (drop_behind (by have := prefixBits_le_40 (12 - p); simp [keyWidths] <;> omega) (by have := prefixBits_le_40 (12 - p); omega)).symm

/-- CPI-96: filter value, partition value, company prefix, reference and serial. -/
theorem C75_cpi96_partial {b : Str} {p : Nat} (hb : b.take 8 = py "00111100") (hl : 96 ≤ b.length) (hP : Reads ((b.drop 11).take 3) p) :
    CPI.fromBinary b = CPI.fromBinary (b.take 8 ++ fieldsBits (b.drop 8) (3 :: keyWidths 54 p ++ [31])) :=
  CPI.same_cpi96 hb
    (by rw [take_behind (by omega)]; exact hb)
    hl
    (by rw [length_behind]; exact hl)
    (same_at [] (3) [3, prefixBits (12 - p), 54 - 3 - prefixBits (12 - p), 31] (by have := prefixBits_le_40 (12 - p); simp <;> omega) (by have := prefixBits_le_40 (12 - p); omega))
    (key_same (by decide : StdTable CPI.table96) (by decide) (by decide) (by decide) hP (same_at [3] (3) [prefixBits (12 - p), 54 - 3 - prefixBits (12 - p), 31] (by have := prefixBits_le_40 (12 - p); simp <;> omega) (by have := prefixBits_le_40 (12 - p); omega)) (same_at [3, 3] (prefixBits (12 - p)) [54 - 3 - prefixBits (12 - p), 31] (by have := prefixBits_le_40 (12 - p); simp <;> omega) (by have := prefixBits_le_40 (12 - p); omega)) (same_at [3, 3, prefixBits (12 - p)] (54 - 3 - prefixBits (12 - p)) [31] (by have := prefixBits_le_40 (12 - p); simp <;> omega) (by have := prefixBits_le_40 (12 - p); omega)))
    (same_at [3, 3, prefixBits (12 - p), 54 - 3 - prefixBits (12 - p)] (31) [] (by have := prefixBits_le_40 (12 - p); simp <;> omega) (by have := prefixBits_le_40 (12 - p); omega))

/-- CPI-var: filter value, partition value and company prefix (the characters behind them are kept). -/
theorem C75_cpiVar_partial {b : Str} {p : Nat} (hb : b.take 8 = py "00111101") (hl : 54 ≤ b.length) (hP : Reads ((b.drop 11).take 3) p) :
    CPI.fromBinary b = CPI.fromBinary (b.take 8 ++ fieldsBits (b.drop 8) [3, 3, prefixBits (12 - p)]) := by
  have h := prefixBits_le_40 (12 - p)
  have h1 : Same b (b.take 8 ++ fieldsBits (b.drop 8) [3, 3, prefixBits (12 - p)]) 11 3 := same_at [3] 3 [prefixBits (12 - p)] rfl (by omega)
  have h2 : Same b (b.take 8 ++ fieldsBits (b.drop 8) [3, 3, prefixBits (12 - p)]) 14 (prefixBits (12 - p)) := same_at [3, 3] (prefixBits (12 - p)) [] rfl (by omega)
  have hd : (b.take 8 ++ fieldsBits (b.drop 8) [3, 3, prefixBits (12 - p)]).drop (14 + prefixBits (12 - p)) = b.drop (14 + prefixBits (12 - p)) :=
    drop_behind (by simp <;> omega) (by omega)
  refine CPI.same_cpiVar hb (by rw [take_behind (by omega)]; exact hb) hP (same_at [] 3 [3, prefixBits (12 - p)] rfl (by omega)) h1
    (key_same_text (by decide) hP ?_ ?_ ?_) hd.symm
  · unfold Same at *
    rw [List.drop_zero, List.drop_zero]
    exact h1
  · unfold Same at *
    rw [List.drop_drop, List.drop_drop]
    exact h2
  · rw [List.drop_drop, List.drop_drop, ← Nat.add_assoc]
    exact hd.symm

/-- SGCN-96: filter value, partition value, company prefix, reference and serial. -/
theorem C75_sgcn96_partial {b : Str} {p : Nat} (hb : b.take 8 = py "00111111") (hl : 96 ≤ b.length) (hP : Reads ((b.drop 11).take 3) p) :
    SGCN.fromBinary b = SGCN.fromBinary (b.take 8 ++ fieldsBits (b.drop 8) (3 :: keyWidths 44 p ++ [41])) :=
  SGCN.same_sgcn96 hb
    (by rw [take_behind (by omega)]; exact hb)
    hl
    (by rw [length_behind]; exact hl)
    (same_at [] (3) [3, prefixBits (12 - p), 44 - 3 - prefixBits (12 - p), 41] (by have := prefixBits_le_40 (12 - p); simp <;> omega) (by have := prefixBits_le_40 (12 - p); omega))
    (key_same (by decide : StdTable SGCN.table) (by decide) (by decide) (by decide) hP (same_at [3] (3) [prefixBits (12 - p), 44 - 3 - prefixBits (12 - p), 41] (by have := prefixBits_le_40 (12 - p); simp <;> omega) (by have := prefixBits_le_40 (12 - p); omega)) (same_at [3, 3] (prefixBits (12 - p)) [44 - 3 - prefixBits (12 - p), 41] (by have := prefixBits_le_40 (12 - p); simp <;> omega) (by have := prefixBits_le_40 (12 - p); omega)) (same_at [3, 3, prefixBits (12 - p)] (44 - 3 - prefixBits (12 - p)) [41] (by have := prefixBits_le_40 (12 - p); simp <;> omega) (by have := prefixBits_le_40 (12 - p); omega)))
    (same_at [3, 3, prefixBits (12 - p), 44 - 3 - prefixBits (12 - p)] (41) [] (by have := prefixBits_le_40 (12 - p); simp <;> omega) (by have := prefixBits_le_40 (12 - p); omega))

/-- ITIP-110: filter value, partition value, company prefix, reference, piece, total and serial. -/
theorem C75_itip110_partial {b : Str} {p : Nat} (hb : b.take 8 = py "01000000") (hl : 110 ≤ b.length) (hP : Reads ((b.drop 11).take 3) p) :
    ITIP.fromBinary b = ITIP.fromBinary (b.take 8 ++ fieldsBits (b.drop 8) (3 :: keyWidths 47 p ++ [7, 7, 38])) :=
  ITIP.same_itip110 hb
    (by rw [take_behind (by omega)]; exact hb)
    hl
    (by rw [length_behind]; exact hl)
    (same_at [] (3) [3, prefixBits (12 - p), 47 - 3 - prefixBits (12 - p), 7, 7, 38] (by have := prefixBits_le_40 (12 - p); simp <;> omega) (by have := prefixBits_le_40 (12 - p); omega))
    (key_same (by decide : StdTable ITIP.table) (by decide) (by decide) (by decide) hP (same_at [3] (3) [prefixBits (12 - p), 47 - 3 - prefixBits (12 - p), 7, 7, 38] (by have := prefixBits_le_40 (12 - p); simp <;> omega) (by have := prefixBits_le_40 (12 - p); omega)) (same_at [3, 3] (prefixBits (12 - p)) [47 - 3 - prefixBits (12 - p), 7, 7, 38] (by have := prefixBits_le_40 (12 - p); simp <;> omega) (by have := prefixBits_le_40 (12 - p); omega)) (same_at [3, 3, prefixBits (12 - p)] (47 - 3 - prefixBits (12 - p)) [7, 7, 38] (by have := prefixBits_le_40 (12 - p); simp <;> omega) (by have := prefixBits_le_40 (12 - p); omega)))
    (same_at [3, 3, prefixBits (12 - p), 47 - 3 - prefixBits (12 - p)] (7) [7, 38] (by have := prefixBits_le_40 (12 - p); simp <;> omega) (by have := prefixBits_le_40 (12 - p); omega))
    (same_at [3, 3, prefixBits (12 - p), 47 - 3 - prefixBits (12 - p), 7] (7) [38] (by have := prefixBits_le_40 (12 - p); simp <;> omega) (by have := prefixBits_le_40 (12 - p); omega))
    (same_at [3, 3, prefixBits (12 - p), 47 - 3 - prefixBits (12 - p), 7, 7] (38) [] (by have := prefixBits_le_40 (12 - p); simp <;> omega) (by have := prefixBits_le_40 (12 - p); omega))

/-- ITIP-212: filter value, partition value, company prefix and reference, piece, total (the characters of the serial are kept). -/
theorem C75_itip212_partial {b : Str} {p : Nat} (hb : b.take 8 = py "01000001") (hl : 212 ≤ b.length) (hP : Reads ((b.drop 11).take 3) p) :
    ITIP.fromBinary b = ITIP.fromBinary (b.take 8 ++ fieldsBits (b.drop 8) (3 :: keyWidths 47 p ++ [7, 7])) :=
  ITIP.same_itip212 hb
    (by rw [take_behind (by omega)]; exact hb)
    hl
    (by rw [length_behind]; exact hl)
    (same_at [] (3) [3, prefixBits (12 - p), 47 - 3 - prefixBits (12 - p), 7, 7] (by have := prefixBits_le_40 (12 - p); simp <;> omega) (by have := prefixBits_le_40 (12 - p); omega))
    (key_same (by decide : StdTable ITIP.table) (by decide) (by decide) (by decide) hP (same_at [3] (3) [prefixBits (12 - p), 47 - 3 - prefixBits (12 - p), 7, 7] (by have := prefixBits_le_40 (12 - p); simp <;> omega) (by have := prefixBits_le_40 (12 - p); omega)) (same_at [3, 3] (prefixBits (12 - p)) [47 - 3 - prefixBits (12 - p), 7, 7] (by have := prefixBits_le_40 (12 - p); simp <;> omega) (by have := prefixBits_le_40 (12 - p); omega)) (same_at [3, 3, prefixBits (12 - p)] (47 - 3 - prefixBits (12 - p)) [7, 7] (by have := prefixBits_le_40 (12 - p); simp <;> omega) (by have := prefixBits_le_40 (12 - p); omega)))
    (same_at [3, 3, prefixBits (12 - p), 47 - 3 - prefixBits (12 - p)] (7) [7] (by have := prefixBits_le_40 (12 - p); simp <;> omega) (by have := prefixBits_le_40 (12 - p); omega))
    (same_at [3, 3, prefixBits (12 - p), 47 - 3 - prefixBits (12 - p), 7] (7) [] (by have := prefixBits_le_40 (12 - p); simp <;> omega) (by have := prefixBits_le_40 (12 - p); omega))
    (drop_behind (by have := prefixBits_le_40 (12 - p); simp [keyWidths] <;> omega) (by have := prefixBits_le_40 (12 - p); omega)).symm

/-- GID-96: manager, class and serial. -/
theorem C75_gid96_partial {b : Str} (hb : b.take 8 = py "00110101") (hl : 96 ≤ b.length) :
    GID.fromBinary b = GID.fromBinary (b.take 8 ++ fieldsBits (b.drop 8) [28, 24, 36]) :=
  GID.same_gid96 hb (by rw [take_behind (by omega)]; exact hb) hl (by rw [length_behind]; exact hl)
    (same_at [] 28 [24, 36] rfl (by omega)) (same_at [28] 24 [36] rfl (by omega)) (same_at [28, 24] 36 [] rfl (by omega))

/-- USDOD-96: filter value and serial (the CAGE code is kept). -/
theorem C75_usdod96_partial {b : Str} (hb : b.take 8 = py "00101111") (hl : 96 ≤ b.length) :
    USDOD.fromBinary b = USDOD.fromBinary (b.take 8 ++ (fieldBits ((b.drop 8).take 4) ++ ((b.drop 12).take 48 ++ fieldsBits (b.drop 60) [36]))) := by
  have h8 : (b.take 8).length = 8 := by rw [List.length_take]; omega
  have h4 : (fieldBits ((b.drop 8).take 4)).length = 4 := by rw [length_fieldBits, List.length_take, List.length_drop]; omega
  have h48 : ((b.drop 12).take 48).length = 48 := by rw [List.length_take, List.length_drop]; omega
  have h36 := length_fieldsBits [36] (b.drop 60)
  rw [List.length_drop] at h36
  refine USDOD.same_usdod96 hb (by rw [List.take_left' h8, hb]) hl (by simp only [List.length_append]; omega) ?_ ?_ ?_
  · unfold Same
    rw [List.drop_left' h8, List.take_left' h4, pyInt_fieldBits]
  · rw [show 12 = 8 + 4 from rfl, ← List.drop_drop (l := _ ++ _), List.drop_left' h8, List.drop_left' h4, List.take_left' h48]
  · have := same_fields [] 36 [] (b.drop 60) (by rw [List.length_drop, List.sum_nil]; omega)
    unfold Same at *
    rw [List.drop_drop] at this
    rw [show 60 = 8 + (4 + 48) from rfl, ← List.drop_drop (l := _ ++ _), List.drop_left' h8, ← List.drop_drop (l := _ ++ _), List.drop_left' h4, List.drop_left' h48]
    exact this

/-- ADI-var: the filter value (the characters behind it are kept). -/
theorem C75_adiVar_partial {b : Str} (hb : b.take 8 = py "00111011") (hl : 14 ≤ b.length) :
    ADI.fromBinary b = ADI.fromBinary (b.take 8 ++ fieldsBits (b.drop 8) [6]) :=
  ADI.same_adiVar hb (by rw [take_behind (by omega)]; exact hb) (same_at [] 6 [] rfl (by omega)) (drop_behind (b := b) (lo := 14) (ws := [6]) rfl (by omega)).symm

/-! ### Non-vacuity -/

/-- Filter value `+01`, item reference `+0_0_011000000111001`, serial ` 0b000…1001001100111`: every field is a number, and the rewritten text is the
tag's bit string. -/
example :
    (py "00110000+01101100100010100011111110101+0_0_011000000111001 0b00000000000000000000001001001100111").take 8 = py "00110000" ∧ 96 ≤ (py "00110000+01101100100010100011111110101+0_0_011000000111001 0b00000000000000000000001001001100111").length ∧
    Reads (((py "00110000+01101100100010100011111110101+0_0_011000000111001 0b00000000000000000000001001001100111").drop 11).take 3) 5 ∧
    (py "00110000+01101100100010100011111110101+0_0_011000000111001 0b00000000000000000000001001001100111").take 8 ++
        fieldsBits ((py "00110000+01101100100010100011111110101+0_0_011000000111001 0b00000000000000000000001001001100111").drop 8) (3 :: keyWidths 47 5 ++ [38]) =
      py "001100000011011001000101000111111101010000001100000011100100000000000000000000000001001001100111" :=
  ⟨by decide, by decide, by unfold Reads; decide +kernel, by decide +kernel⟩

/-- A field may also be a negative number: here the serial is read as `-5`, and encoding the object again yields the same text, minus sign included. -/
example : (SGTIN.fromBinary (py "0011000000110110010001010001111111010100000011000000111001-0000000000000000000000000000000000101")).map (·.serial) = .ok (py "-5") ∧
    (SGTIN.fromBinary (py "0011000000110110010001010001111111010100000011000000111001-0000000000000000000000000000000000101") >>= fun x => x.binary .sgtin96 1) = .ok (py "0011000000110110010001010001111111010100000011000000111001-0000000000000000000000000000000000101") := by decide +kernel

end Epc
