/-
C13: constructors reject bad input with ConvertException only.

True for the twelve schemes without an alphanumeric serial.  False for the nine others: `verify_gs3a3_component` lets `ValueError` and
`OverflowError` out.  For those: the exceptions that can occur, and ConvertException only if there is no percent sign.
-/
import Verif.Lemmas.Verify

namespace Epc
open Spec Re

/-- SSCC. -/
theorem C13_sscc (u : Str) (e : Err) (h : SSCC.new u = .error e) : e = .convert := SSCC.new_error h

/-- GSRN. -/
theorem C13_gsrn (u : Str) (e : Err) (h : GSRN.new u = .error e) : e = .convert := GSRN.new_error h

/-- GSRNP. -/
theorem C13_gsrnp (u : Str) (e : Err) (h : GSRNP.new u = .error e) : e = .convert := GSRNP.new_error h

/-- GSIN. -/
theorem C13_gsin (u : Str) (e : Err) (h : GSIN.new u = .error e) : e = .convert := GSIN.new_error h

/-- PGLN. -/
theorem C13_pgln (u : Str) (e : Err) (h : PGLN.new u = .error e) : e = .convert := PGLN.new_error h

/-- SGCN. -/
theorem C13_sgcn (u : Str) (e : Err) (h : SGCN.new u = .error e) : e = .convert := SGCN.new_error h

/-- CPI. -/
theorem C13_cpi (u : Str) (e : Err) (h : CPI.new u = .error e) : e = .convert := CPI.new_error h

/-- GID. -/
theorem C13_gid (u : Str) (e : Err) (h : GID.new u = .error e) : e = .convert := GID.new_error h

/-- USDOD. -/
theorem C13_usdod (u : Str) (e : Err) (h : USDOD.new u = .error e) : e = .convert := USDOD.new_error h

/-- ADI. -/
theorem C13_adi (u : Str) (e : Err) (h : ADI.new u = .error e) : e = .convert := ADI.new_error h

/-- BIC. -/
theorem C13_bic (u : Str) (e : Err) (h : BIC.new u = .error e) : e = .convert := BIC.new_error h

/-- IMOVN. -/
theorem C13_imovn (u : Str) (e : Err) (h : IMOVN.new u = .error e) : e = .convert := IMOVN.new_error h

/-- Bad input exists, and it is rejected. -/
example : SSCC.new (py "urn:epc:id:sscc:9521141.x") = .error .convert ∧ GID.new (py "urn:epc:id:gid:1.2.99999999999") = .error .convert ∧
    ADI.new (py "urn:epc:id:adi:W81X9C.3KL984PX1.%23") = .error .convert := by decide +kernel

/-- The claim is false: an SGTIN with the perfectly conformant serial `/xyz` makes the constructor raise `ValueError`, and a serial
starting with `%2F` followed by hexadecimal digits makes it raise `OverflowError`. -/
theorem C13_claim_false : ¬ ∀ (u : Str) (e : Err), SGTIN.new u = .error e → e = .convert := by
  intro h
  have h1 : SGTIN.new (py "urn:epc:id:sgtin:9521141.012345.%2Fxyz") = .error .value := by decide +kernel
  exact absurd (h _ _ h1) (by decide)

/-- `OverflowError` occurs too. -/
theorem C13_overflow_witness : SGTIN.new (py "urn:epc:id:sgtin:9521141.012345.%2F0000000") = .error .overflow := by decide +kernel

/-- SGTIN: no other exception than `ConvertException`, `ValueError`, `OverflowError`. -/
theorem C13_sgtin_exceptions_partial (u : Str) (e : Err) (h : SGTIN.new u = .error e) : e = .convert ∨ e = .value ∨ e = .overflow := by
  rcases SGTIN.new_error h with rfl | ⟨C, D, S, _, _, hv⟩
  · exact .inl rfl
  · exact verify_error hv

/-- SGTIN: only `ConvertException` for a string without percent sign. -/
theorem C13_sgtin_partial (u : Str) (e : Err) (hp : '%' ∉ u) (h : SGTIN.new u = .error e) : e = .convert := by
  rcases SGTIN.new_error h with rfl | ⟨C, D, S, _, rfl, hv⟩
  · rfl
  · refine verify_noPercent ?_ hv
    simp only [List.mem_append, List.mem_cons, not_or] at hp
    exact hp.2.2.2.2.2.2

/-- SGLN: no other exception than `ConvertException`, `ValueError`, `OverflowError`. -/
theorem C13_sgln_exceptions_partial (u : Str) (e : Err) (h : SGLN.new u = .error e) : e = .convert ∨ e = .value ∨ e = .overflow := by
  rcases SGLN.new_error h with rfl | ⟨C, D, S, _, _, hv⟩
  · exact .inl rfl
  · exact verify_error hv

/-- SGLN: only `ConvertException` for a string without percent sign. -/
theorem C13_sgln_partial (u : Str) (e : Err) (hp : '%' ∉ u) (h : SGLN.new u = .error e) : e = .convert := by
  rcases SGLN.new_error h with rfl | ⟨C, D, S, _, rfl, hv⟩
  · rfl
  · refine verify_noPercent ?_ hv
    simp only [List.mem_append, List.mem_cons, not_or] at hp
    exact hp.2.2.2.2.2.2

/-- GRAI: no other exception than `ConvertException`, `ValueError`, `OverflowError`. -/
theorem C13_grai_exceptions_partial (u : Str) (e : Err) (h : GRAI.new u = .error e) : e = .convert ∨ e = .value ∨ e = .overflow := by
  rcases GRAI.new_error h with rfl | ⟨C, D, S, _, _, hv⟩
  · exact .inl rfl
  · exact verify_error hv

/-- GRAI: only `ConvertException` for a string without percent sign. -/
theorem C13_grai_partial (u : Str) (e : Err) (hp : '%' ∉ u) (h : GRAI.new u = .error e) : e = .convert := by
  rcases GRAI.new_error h with rfl | ⟨C, D, S, _, rfl, hv⟩
  · rfl
  · refine verify_noPercent ?_ hv
    simp only [List.mem_append, List.mem_cons, not_or] at hp
    exact hp.2.2.2.2.2.2

/-- GDTI: no other exception than `ConvertException`, `ValueError`, `OverflowError`. -/
theorem C13_gdti_exceptions_partial (u : Str) (e : Err) (h : GDTI.new u = .error e) : e = .convert ∨ e = .value ∨ e = .overflow := by
  rcases GDTI.new_error h with rfl | ⟨C, D, S, _, _, hv⟩
  · exact .inl rfl
  · exact verify_error hv

/-- GDTI: only `ConvertException` for a string without percent sign. -/
theorem C13_gdti_partial (u : Str) (e : Err) (hp : '%' ∉ u) (h : GDTI.new u = .error e) : e = .convert := by
  rcases GDTI.new_error h with rfl | ⟨C, D, S, _, rfl, hv⟩
  · rfl
  · refine verify_noPercent ?_ hv
    simp only [List.mem_append, List.mem_cons, not_or] at hp
    exact hp.2.2.2.2.2.2

/-- GIAI: no other exception than `ConvertException`, `ValueError`, `OverflowError`. -/
theorem C13_giai_exceptions_partial (u : Str) (e : Err) (h : GIAI.new u = .error e) : e = .convert ∨ e = .value ∨ e = .overflow := by
  rcases GIAI.new_error h with rfl | ⟨C, S, _, _, hv⟩
  · exact .inl rfl
  · exact verify_error hv

/-- GIAI: only `ConvertException` for a string without percent sign. -/
theorem C13_giai_partial (u : Str) (e : Err) (hp : '%' ∉ u) (h : GIAI.new u = .error e) : e = .convert := by
  rcases GIAI.new_error h with rfl | ⟨C, S, _, rfl, hv⟩
  · rfl
  · refine verify_noPercent ?_ hv
    simp only [List.mem_append, List.mem_cons, not_or] at hp
    exact fun h => hp.2.2.2.2 (headD_split_mem h)

/-- GINC: no other exception than `ConvertException`, `ValueError`, `OverflowError`. -/
theorem C13_ginc_exceptions_partial (u : Str) (e : Err) (h : GINC.new u = .error e) : e = .convert ∨ e = .value ∨ e = .overflow := by
  rcases GINC.new_error h with rfl | ⟨C, S, _, _, hv⟩
  · exact .inl rfl
  · exact verify_error hv

/-- GINC: only `ConvertException` for a string without percent sign. -/
theorem C13_ginc_partial (u : Str) (e : Err) (hp : '%' ∉ u) (h : GINC.new u = .error e) : e = .convert := by
  rcases GINC.new_error h with rfl | ⟨C, S, _, rfl, hv⟩
  · rfl
  · refine verify_noPercent ?_ hv
    simp only [List.mem_append, List.mem_cons, not_or] at hp
    exact hp.2.2.2.2

/-- UPUI: no other exception than `ConvertException`, `ValueError`, `OverflowError`. -/
theorem C13_upui_exceptions_partial (u : Str) (e : Err) (h : UPUI.new u = .error e) : e = .convert ∨ e = .value ∨ e = .overflow := by
  rcases UPUI.new_error h with rfl | ⟨C, D, S, _, _, hv⟩
  · exact .inl rfl
  · exact verify_error hv

/-- UPUI: only `ConvertException` for a string without percent sign. -/
theorem C13_upui_partial (u : Str) (e : Err) (hp : '%' ∉ u) (h : UPUI.new u = .error e) : e = .convert := by
  rcases UPUI.new_error h with rfl | ⟨C, D, S, _, rfl, hv⟩
  · rfl
  · refine verify_noPercent ?_ hv
    simp only [List.mem_append, List.mem_cons, not_or] at hp
    exact hp.2.2.2.2.2.2

/-- LGTIN: no other exception than `ConvertException`, `ValueError`, `OverflowError`. -/
theorem C13_lgtin_exceptions_partial (u : Str) (e : Err) (h : LGTIN.new u = .error e) : e = .convert ∨ e = .value ∨ e = .overflow := by
  rcases LGTIN.new_error h with rfl | ⟨C, D, S, _, _, hv⟩
  · exact .inl rfl
  · exact verify_error hv

/-- LGTIN: only `ConvertException` for a string without percent sign. -/
theorem C13_lgtin_partial (u : Str) (e : Err) (hp : '%' ∉ u) (h : LGTIN.new u = .error e) : e = .convert := by
  rcases LGTIN.new_error h with rfl | ⟨C, D, S, _, rfl, hv⟩
  · rfl
  · refine verify_noPercent ?_ hv
    simp only [List.mem_append, List.mem_cons, not_or] at hp
    exact hp.2.2.2.2.2.2

/-- ITIP: no other exception than `ConvertException`, `ValueError`, `OverflowError`. -/
theorem C13_itip_exceptions_partial (u : Str) (e : Err) (h : ITIP.new u = .error e) : e = .convert ∨ e = .value ∨ e = .overflow := by
  rcases ITIP.new_error h with rfl | ⟨C, I, A, B, S, _, _, hv⟩
  · exact .inl rfl
  · exact verify_error hv

/-- ITIP: only `ConvertException` for a string without percent sign. -/
theorem C13_itip_partial (u : Str) (e : Err) (hp : '%' ∉ u) (h : ITIP.new u = .error e) : e = .convert := by
  rcases ITIP.new_error h with rfl | ⟨C, I, A, B, S, _, rfl, hv⟩
  · rfl
  · refine verify_noPercent ?_ hv
    simp only [List.mem_append, List.mem_cons, not_or] at hp
    exact hp.2.2.2.2.2.2.2.2.2.2

example : SGTIN.new (py "urn:epc:id:sgtin:9521141.012345.x{y}") = .error .convert ∧
    GIAI.new (py "urn:epc:id:giai:95211.12345400") = .error .convert := by decide +kernel

end Epc
