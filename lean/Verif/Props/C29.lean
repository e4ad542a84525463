/-
C29: unknown headers are rejected with `ConvertException` by `binary_to_tag_encodable`.

False for the `from_binary` methods of the classes: they raise `KeyError`.
Generated by tools/gen_c27.py.
-/
import Verif.Lemmas.BinOk
import Verif.Model.Parsers

namespace Epc
open Spec Re

theorem lookup_none {κ : Type} {ks : List Str} {k : Str} (hk : k ∉ ks) : ∀ {hs : List (Str × κ)}, (∀ a ∈ hs.map (·.1), a ∈ ks) →
    hs.lookup k = Option.none
  | [], _ => rfl
  | (a, b) :: t, h => by
    rw [List.map_cons, List.forall_mem_cons] at h
    rw [List.lookup_cons, show (k == a) = false by rw [beq_eq_false_iff_ne]; rintro rfl; exact hk h.1]
    exact lookup_none hk h.2

/-- The 21 headers. -/
def allHeaders : List Str := [py "00110000", py "00110110", py "00110001", py "00110010", py "00111001", py "00110011", py "00110111", py "00110100", py "00111000", py "00101101", py "00101110", py "00101100", py "00111110", py "00111100", py "00111101", py "00111111", py "01000000", py "01000001", py "00110101", py "00101111", py "00111011"]

/-- `binary_to_tag_encodable` raises `ConvertException` for every other header, and for strings shorter than a header. -/
theorem C29_parser_partial (b : Str) (hb : b.take 8 ∉ allHeaders) : binaryToTagEncodable b = .error .convert := by
  unfold binaryToTagEncodable
  rw [lookup_none hb (by decide +kernel)]

example : (py "11110000").take 8 ∉ allHeaders ∧ (py "0011").take 8 ∉ allHeaders := by decide

/-- The claim about the class methods. -/
def C29_claim : Prop := ∀ b : Str, b.take 8 ∉ [py "00110000", py "00110110"] → SGTIN.fromBinary b = .error .convert

theorem C29_claim_false : ¬ C29_claim := fun h => absurd (h (py "11110000") (by decide)) (by decide +kernel)

/-- What the class method does instead: `KeyError`. -/
theorem C29_sgtin_key (b : Str) (hb : b.take 8 ∉ [py "00110000", py "00110110"]) : SGTIN.fromBinary b = .error .key := by
  unfold SGTIN.fromBinary parseHeader
  rw [lookup_none hb (by decide), error_bind]

/-- What the class method does instead: `KeyError`. -/
theorem C29_sscc_key (b : Str) (hb : b.take 8 ∉ [py "00110001"]) : SSCC.fromBinary b = .error .key := by
  unfold SSCC.fromBinary parseHeader
  rw [lookup_none hb (by decide), error_bind]

/-- What the class method does instead: `KeyError`. -/
theorem C29_sgln_key (b : Str) (hb : b.take 8 ∉ [py "00110010", py "00111001"]) : SGLN.fromBinary b = .error .key := by
  unfold SGLN.fromBinary parseHeader
  rw [lookup_none hb (by decide), error_bind]

/-- What the class method does instead: `KeyError`. -/
theorem C29_grai_key (b : Str) (hb : b.take 8 ∉ [py "00110011", py "00110111"]) : GRAI.fromBinary b = .error .key := by
  unfold GRAI.fromBinary parseHeader
  rw [lookup_none hb (by decide), error_bind]

/-- What the class method does instead: `KeyError`. -/
theorem C29_giai_key (b : Str) (hb : b.take 8 ∉ [py "00110100", py "00111000"]) : GIAI.fromBinary b = .error .key := by
  unfold GIAI.fromBinary parseHeader
  rw [lookup_none hb (by decide), error_bind]

/-- What the class method does instead: `KeyError`. -/
theorem C29_gsrn_key (b : Str) (hb : b.take 8 ∉ [py "00101101"]) : GSRN.fromBinary b = .error .key := by
  unfold GSRN.fromBinary parseHeader
  rw [lookup_none hb (by decide), error_bind]

/-- What the class method does instead: `KeyError`. -/
theorem C29_gsrnp_key (b : Str) (hb : b.take 8 ∉ [py "00101110"]) : GSRNP.fromBinary b = .error .key := by
  unfold GSRNP.fromBinary parseHeader
  rw [lookup_none hb (by decide), error_bind]

/-- What the class method does instead: `KeyError`. -/
theorem C29_gdti_key (b : Str) (hb : b.take 8 ∉ [py "00101100", py "00111110"]) : GDTI.fromBinary b = .error .key := by
  unfold GDTI.fromBinary parseHeader
  rw [lookup_none hb (by decide), error_bind]

/-- What the class method does instead: `KeyError`. -/
theorem C29_cpi_key (b : Str) (hb : b.take 8 ∉ [py "00111100", py "00111101"]) : CPI.fromBinary b = .error .key := by
  unfold CPI.fromBinary parseHeader
  rw [lookup_none hb (by decide), error_bind]

/-- What the class method does instead: `KeyError`. -/
theorem C29_sgcn_key (b : Str) (hb : b.take 8 ∉ [py "00111111"]) : SGCN.fromBinary b = .error .key := by
  unfold SGCN.fromBinary parseHeader
  rw [lookup_none hb (by decide), error_bind]

/-- What the class method does instead: `KeyError`. -/
theorem C29_itip_key (b : Str) (hb : b.take 8 ∉ [py "01000000", py "01000001"]) : ITIP.fromBinary b = .error .key := by
  unfold ITIP.fromBinary parseHeader
  rw [lookup_none hb (by decide), error_bind]

/-- What the class method does instead: `KeyError`. -/
theorem C29_gid_key (b : Str) (hb : b.take 8 ∉ [py "00110101"]) : GID.fromBinary b = .error .key := by
  unfold GID.fromBinary parseHeader
  rw [lookup_none hb (by decide), error_bind]

/-- What the class method does instead: `KeyError`. -/
theorem C29_usdod_key (b : Str) (hb : b.take 8 ∉ [py "00101111"]) : USDOD.fromBinary b = .error .key := by
  unfold USDOD.fromBinary parseHeader
  rw [lookup_none hb (by decide), error_bind]

/-- What the class method does instead: `KeyError`. -/
theorem C29_adi_key (b : Str) (hb : b.take 8 ∉ [py "00111011"]) : ADI.fromBinary b = .error .key := by
  unfold ADI.fromBinary parseHeader
  rw [lookup_none hb (by decide), error_bind]

end Epc
