/-
C92: the methods of EPC objects, executed from the source: tag_uri, binary, hex, base64, gs1_key, gs1_element_string, gtin and ==.
Generated by tools/gen_source_props.py.
-/
import Verif.Lemmas.Source
set_option linter.unusedVariables false

namespace Epc.Src

/-- `x.gs1_element_string()`, for the objects of the 16 classes that have it. -/
theorem C92_element_strings (x : Scheme) (h : x.cls.isGs1Element = true) :
    invoke (objScheme x) .gs1_element_string [] [] = outcome .str x.gs1ElementString := by
  rw [← lift_outcome, invoke, read, attr_elem (level 24) x h]
  exact sem_elem 14 x h

/-- `x.gs1_key(**kw)`, for the objects of the 13 classes that have it, with and without the keyword `gtin_type`. -/
theorem C92_keys (x : Scheme) (t : Option GtinType) (h : x.cls.isGs1Keyed = true) :
    invoke (objScheme x) .gs1_key [] (keyKw t) = outcome .str (x.gs1Key t) := by
  rw [← lift_outcome, invoke, read, attr_key (level 24) x h]
  exact sem_key 14 x t h

/-- `x.gtin(gtin_type=t)` of SGTIN and LGTIN. -/
theorem C92_gtin (x : Epc.SGTIN) (y : Epc.LGTIN) (t : GtinType) :
    invoke (objSGTIN x) .gtin [] [(.gtin_type, .int t.toNat)] = outcome .str (x.gtin t) ∧
    invoke (objLGTIN y) .gtin [] [(.gtin_type, .int t.toNat)] = outcome .str (y.gtin t) := by
  refine ⟨?_, ?_⟩ <;> rw [← lift_outcome]
  · exact invoke_eq rfl (fun _ => rfl) (sem_SGTIN_gtin 15 x t)
  · exact invoke_eq rfl (fun _ => rfl) (sem_LGTIN_gtin 15 y t)

/-- `x == y`, and `x == v` for anything that is no EPC object. -/
theorem C92_eq (x y : Scheme) (v : Val) (hv : ∀ c attrs, v ≠ .obj c attrs) :
    invoke (objScheme x) .__eq__ [objScheme y] [] = .ok (.bool (x.eq y)) ∧
    invoke (objScheme x) .__eq__ [v] [] = .ok (.bool false) := by
  refine ⟨?_, ?_⟩ <;> rw [invoke, read, attr_eq]
  · exact sem_eq 23 x y
  · exact sem_eq_other 23 x v (isinstance_other v hv)

/-- The writers of tags of `SGTIN`; whatever is passed to `hex` and `base64` by position is ignored. -/
theorem C92_sgtin (x : Epc.SGTIN) (cs : Epc.SGTIN.Coding) (f : Fin 8) (v : Val) (hv : IsFilter f v) (args : List Val) :
    invoke (objSGTIN x) .tag_uri [] [(.binary_coding_scheme, codSGTIN cs), (.filter_value, v)] = outcome .str (x.tagUri cs f) ∧
    invoke (objSGTIN x) .binary [] [(.binary_coding_scheme, codSGTIN cs), (.filter_value, v)] = outcome .str (x.binary cs f) ∧
    invoke (objSGTIN x) .hex args [(.binary_coding_scheme, codSGTIN cs), (.filter_value, v)] = outcome .str (x.hex cs f) ∧
    invoke (objSGTIN x) .base64 args [(.binary_coding_scheme, codSGTIN cs), (.filter_value, v)] = outcome .str (x.base64 cs f) := by
  obtain ⟨o, e, m, nm, rfl⟩ := hv
  refine ⟨?_, ?_, ?_, ?_⟩ <;> rw [← lift_outcome]
  · exact invoke_eq rfl (fun _ => rfl) (sem_SGTIN_tag_uri 14 x cs f o e m nm)
  · exact invoke_eq rfl (fun _ => rfl) (sem_SGTIN_binary 14 x cs f o e m nm)
  · exact invoke_eq rfl (fun _ => rfl) (hex_args 13 args (fun _ => rfl) rfl (sem_SGTIN_binary 13 x cs f o e m nm))
  · exact invoke_eq rfl (fun _ => rfl) (base64_args 12 args (fun _ => rfl) rfl (sem_SGTIN_hex 12 x cs f o e m nm))

/-- The writers of tags of `SSCC`; whatever is passed to `hex` and `base64` by position is ignored. -/
theorem C92_sscc (x : Epc.SSCC) (cs : Epc.SSCC.Coding) (f : Fin 8) (v : Val) (hv : IsFilter f v) (args : List Val) :
    invoke (objSSCC x) .tag_uri [] [(.binary_coding_scheme, codSSCC cs), (.filter_value, v)] = outcome .str (x.tagUri cs f) ∧
    invoke (objSSCC x) .binary [] [(.binary_coding_scheme, codSSCC cs), (.filter_value, v)] = outcome .str (x.binary cs f) ∧
    invoke (objSSCC x) .hex args [(.binary_coding_scheme, codSSCC cs), (.filter_value, v)] = outcome .str (x.hex cs f) ∧
    invoke (objSSCC x) .base64 args [(.binary_coding_scheme, codSSCC cs), (.filter_value, v)] = outcome .str (x.base64 cs f) := by
  obtain ⟨o, e, m, nm, rfl⟩ := hv
  refine ⟨?_, ?_, ?_, ?_⟩ <;> rw [← lift_outcome]
  · exact invoke_eq rfl (fun _ => rfl) (sem_SSCC_tag_uri 14 x cs f o e m nm)
  · exact invoke_eq rfl (fun _ => rfl) (sem_SSCC_binary 14 x cs f o e m nm)
  · exact invoke_eq rfl (fun _ => rfl) (hex_args 13 args (fun _ => rfl) rfl (sem_SSCC_binary 13 x cs f o e m nm))
  · exact invoke_eq rfl (fun _ => rfl) (base64_args 12 args (fun _ => rfl) rfl (sem_SSCC_hex 12 x cs f o e m nm))

/-- The writers of tags of `SGLN`; whatever is passed to `hex` and `base64` by position is ignored. -/
theorem C92_sgln (x : Epc.SGLN) (cs : Epc.SGLN.Coding) (f : Fin 8) (v : Val) (hv : IsFilter f v) (args : List Val) :
    invoke (objSGLN x) .tag_uri [] [(.binary_coding_scheme, codSGLN cs), (.filter_value, v)] = outcome .str (x.tagUri cs f) ∧
    invoke (objSGLN x) .binary [] [(.binary_coding_scheme, codSGLN cs), (.filter_value, v)] = outcome .str (x.binary cs f) ∧
    invoke (objSGLN x) .hex args [(.binary_coding_scheme, codSGLN cs), (.filter_value, v)] = outcome .str (x.hex cs f) ∧
    invoke (objSGLN x) .base64 args [(.binary_coding_scheme, codSGLN cs), (.filter_value, v)] = outcome .str (x.base64 cs f) := by
  obtain ⟨o, e, m, nm, rfl⟩ := hv
  refine ⟨?_, ?_, ?_, ?_⟩ <;> rw [← lift_outcome]
  · exact invoke_eq rfl (fun _ => rfl) (sem_SGLN_tag_uri 14 x cs f o e m nm)
  · exact invoke_eq rfl (fun _ => rfl) (sem_SGLN_binary 14 x cs f o e m nm)
  · exact invoke_eq rfl (fun _ => rfl) (hex_args 13 args (fun _ => rfl) rfl (sem_SGLN_binary 13 x cs f o e m nm))
  · exact invoke_eq rfl (fun _ => rfl) (base64_args 12 args (fun _ => rfl) rfl (sem_SGLN_hex 12 x cs f o e m nm))

/-- The writers of tags of `GRAI`; whatever is passed to `hex` and `base64` by position is ignored. -/
theorem C92_grai (x : Epc.GRAI) (cs : Epc.GRAI.Coding) (f : Fin 8) (v : Val) (hv : IsFilter f v) (args : List Val) :
    invoke (objGRAI x) .tag_uri [] [(.binary_coding_scheme, codGRAI cs), (.filter_value, v)] = outcome .str (x.tagUri cs f) ∧
    invoke (objGRAI x) .binary [] [(.binary_coding_scheme, codGRAI cs), (.filter_value, v)] = outcome .str (x.binary cs f) ∧
    invoke (objGRAI x) .hex args [(.binary_coding_scheme, codGRAI cs), (.filter_value, v)] = outcome .str (x.hex cs f) ∧
    invoke (objGRAI x) .base64 args [(.binary_coding_scheme, codGRAI cs), (.filter_value, v)] = outcome .str (x.base64 cs f) := by
  obtain ⟨o, e, m, nm, rfl⟩ := hv
  refine ⟨?_, ?_, ?_, ?_⟩ <;> rw [← lift_outcome]
  · exact invoke_eq rfl (fun _ => rfl) (sem_GRAI_tag_uri 14 x cs f o e m nm)
  · exact invoke_eq rfl (fun _ => rfl) (sem_GRAI_binary 14 x cs f o e m nm)
  · exact invoke_eq rfl (fun _ => rfl) (hex_args 13 args (fun _ => rfl) rfl (sem_GRAI_binary 13 x cs f o e m nm))
  · exact invoke_eq rfl (fun _ => rfl) (base64_args 12 args (fun _ => rfl) rfl (sem_GRAI_hex 12 x cs f o e m nm))

/-- The writers of tags of `GIAI`; whatever is passed to `hex` and `base64` by position is ignored. -/
theorem C92_giai (x : Epc.GIAI) (cs : Epc.GIAI.Coding) (f : Fin 8) (v : Val) (hv : IsFilter f v) (args : List Val) :
    invoke (objGIAI x) .tag_uri [] [(.binary_coding_scheme, codGIAI cs), (.filter_value, v)] = outcome .str (x.tagUri cs f) ∧
    invoke (objGIAI x) .binary [] [(.binary_coding_scheme, codGIAI cs), (.filter_value, v)] = outcome .str (x.binary cs f) ∧
    invoke (objGIAI x) .hex args [(.binary_coding_scheme, codGIAI cs), (.filter_value, v)] = outcome .str (x.hex cs f) ∧
    invoke (objGIAI x) .base64 args [(.binary_coding_scheme, codGIAI cs), (.filter_value, v)] = outcome .str (x.base64 cs f) := by
  obtain ⟨o, e, m, nm, rfl⟩ := hv
  refine ⟨?_, ?_, ?_, ?_⟩ <;> rw [← lift_outcome]
  · exact invoke_eq rfl (fun _ => rfl) (sem_GIAI_tag_uri 14 x cs f o e m nm)
  · exact invoke_eq rfl (fun _ => rfl) (sem_GIAI_binary 14 x cs f o e m nm)
  · exact invoke_eq rfl (fun _ => rfl) (hex_args 13 args (fun _ => rfl) rfl (sem_GIAI_binary 13 x cs f o e m nm))
  · exact invoke_eq rfl (fun _ => rfl) (base64_args 12 args (fun _ => rfl) rfl (sem_GIAI_hex 12 x cs f o e m nm))

/-- The writers of tags of `GSRN`; whatever is passed to `hex` and `base64` by position is ignored. -/
theorem C92_gsrn (x : Epc.GSRN) (cs : Epc.GSRN.Coding) (f : Fin 8) (v : Val) (hv : IsFilter f v) (args : List Val) :
    invoke (objGSRN x) .tag_uri [] [(.binary_coding_scheme, codGSRN cs), (.filter_value, v)] = outcome .str (x.tagUri cs f) ∧
    invoke (objGSRN x) .binary [] [(.binary_coding_scheme, codGSRN cs), (.filter_value, v)] = outcome .str (x.binary cs f) ∧
    invoke (objGSRN x) .hex args [(.binary_coding_scheme, codGSRN cs), (.filter_value, v)] = outcome .str (x.hex cs f) ∧
    invoke (objGSRN x) .base64 args [(.binary_coding_scheme, codGSRN cs), (.filter_value, v)] = outcome .str (x.base64 cs f) := by
  obtain ⟨o, e, m, nm, rfl⟩ := hv
  refine ⟨?_, ?_, ?_, ?_⟩ <;> rw [← lift_outcome]
  · exact invoke_eq rfl (fun _ => rfl) (sem_GSRN_tag_uri 14 x cs f o e m nm)
  · exact invoke_eq rfl (fun _ => rfl) (sem_GSRN_binary 14 x cs f o e m nm)
  · exact invoke_eq rfl (fun _ => rfl) (hex_args 13 args (fun _ => rfl) rfl (sem_GSRN_binary 13 x cs f o e m nm))
  · exact invoke_eq rfl (fun _ => rfl) (base64_args 12 args (fun _ => rfl) rfl (sem_GSRN_hex 12 x cs f o e m nm))

/-- The writers of tags of `GSRNP`; whatever is passed to `hex` and `base64` by position is ignored. -/
theorem C92_gsrnp (x : Epc.GSRNP) (cs : Epc.GSRNP.Coding) (f : Fin 8) (v : Val) (hv : IsFilter f v) (args : List Val) :
    invoke (objGSRNP x) .tag_uri [] [(.binary_coding_scheme, codGSRNP cs), (.filter_value, v)] = outcome .str (x.tagUri cs f) ∧
    invoke (objGSRNP x) .binary [] [(.binary_coding_scheme, codGSRNP cs), (.filter_value, v)] = outcome .str (x.binary cs f) ∧
    invoke (objGSRNP x) .hex args [(.binary_coding_scheme, codGSRNP cs), (.filter_value, v)] = outcome .str (x.hex cs f) ∧
    invoke (objGSRNP x) .base64 args [(.binary_coding_scheme, codGSRNP cs), (.filter_value, v)] = outcome .str (x.base64 cs f) := by
  obtain ⟨o, e, m, nm, rfl⟩ := hv
  refine ⟨?_, ?_, ?_, ?_⟩ <;> rw [← lift_outcome]
  · exact invoke_eq rfl (fun _ => rfl) (sem_GSRNP_tag_uri 14 x cs f o e m nm)
  · exact invoke_eq rfl (fun _ => rfl) (sem_GSRNP_binary 14 x cs f o e m nm)
  · exact invoke_eq rfl (fun _ => rfl) (hex_args 13 args (fun _ => rfl) rfl (sem_GSRNP_binary 13 x cs f o e m nm))
  · exact invoke_eq rfl (fun _ => rfl) (base64_args 12 args (fun _ => rfl) rfl (sem_GSRNP_hex 12 x cs f o e m nm))

/-- The writers of tags of `GDTI`; whatever is passed to `hex` and `base64` by position is ignored. -/
theorem C92_gdti (x : Epc.GDTI) (cs : Epc.GDTI.Coding) (f : Fin 8) (v : Val) (hv : IsFilter f v) (args : List Val) :
    invoke (objGDTI x) .tag_uri [] [(.binary_coding_scheme, codGDTI cs), (.filter_value, v)] = outcome .str (x.tagUri cs f) ∧
    invoke (objGDTI x) .binary [] [(.binary_coding_scheme, codGDTI cs), (.filter_value, v)] = outcome .str (x.binary cs f) ∧
    invoke (objGDTI x) .hex args [(.binary_coding_scheme, codGDTI cs), (.filter_value, v)] = outcome .str (x.hex cs f) ∧
    invoke (objGDTI x) .base64 args [(.binary_coding_scheme, codGDTI cs), (.filter_value, v)] = outcome .str (x.base64 cs f) := by
  obtain ⟨o, e, m, nm, rfl⟩ := hv
  refine ⟨?_, ?_, ?_, ?_⟩ <;> rw [← lift_outcome]
  · exact invoke_eq rfl (fun _ => rfl) (sem_GDTI_tag_uri 14 x cs f o e m nm)
  · exact invoke_eq rfl (fun _ => rfl) (sem_GDTI_binary 14 x cs f o e m nm)
  · exact invoke_eq rfl (fun _ => rfl) (hex_args 13 args (fun _ => rfl) rfl (sem_GDTI_binary 13 x cs f o e m nm))
  · exact invoke_eq rfl (fun _ => rfl) (base64_args 12 args (fun _ => rfl) rfl (sem_GDTI_hex 12 x cs f o e m nm))

/-- The writers of tags of `SGCN`; whatever is passed to `hex` and `base64` by position is ignored. -/
theorem C92_sgcn (x : Epc.SGCN) (cs : Epc.SGCN.Coding) (f : Fin 8) (v : Val) (hv : IsFilter f v) (args : List Val) :
    invoke (objSGCN x) .tag_uri [] [(.binary_coding_scheme, codSGCN cs), (.filter_value, v)] = outcome .str (x.tagUri cs f) ∧
    invoke (objSGCN x) .binary [] [(.binary_coding_scheme, codSGCN cs), (.filter_value, v)] = outcome .str (x.binary cs f) ∧
    invoke (objSGCN x) .hex args [(.binary_coding_scheme, codSGCN cs), (.filter_value, v)] = outcome .str (x.hex cs f) ∧
    invoke (objSGCN x) .base64 args [(.binary_coding_scheme, codSGCN cs), (.filter_value, v)] = outcome .str (x.base64 cs f) := by
  obtain ⟨o, e, m, nm, rfl⟩ := hv
  refine ⟨?_, ?_, ?_, ?_⟩ <;> rw [← lift_outcome]
  · exact invoke_eq rfl (fun _ => rfl) (sem_SGCN_tag_uri 14 x cs f o e m nm)
  · exact invoke_eq rfl (fun _ => rfl) (sem_SGCN_binary 14 x cs f o e m nm)
  · exact invoke_eq rfl (fun _ => rfl) (hex_args 13 args (fun _ => rfl) rfl (sem_SGCN_binary 13 x cs f o e m nm))
  · exact invoke_eq rfl (fun _ => rfl) (base64_args 12 args (fun _ => rfl) rfl (sem_SGCN_hex 12 x cs f o e m nm))

/-- The writers of tags of `CPI`; whatever is passed to `hex` and `base64` by position is ignored. -/
theorem C92_cpi (x : Epc.CPI) (cs : Epc.CPI.Coding) (f : Fin 8) (v : Val) (hv : IsFilter f v) (args : List Val) :
    invoke (objCPI x) .tag_uri [] [(.binary_coding_scheme, codCPI cs), (.filter_value, v)] = outcome .str (x.tagUri cs f) ∧
    invoke (objCPI x) .binary [] [(.binary_coding_scheme, codCPI cs), (.filter_value, v)] = outcome .str (x.binary cs f) ∧
    invoke (objCPI x) .hex args [(.binary_coding_scheme, codCPI cs), (.filter_value, v)] = outcome .str (x.hex cs f) ∧
    invoke (objCPI x) .base64 args [(.binary_coding_scheme, codCPI cs), (.filter_value, v)] = outcome .str (x.base64 cs f) := by
  obtain ⟨o, e, m, nm, rfl⟩ := hv
  refine ⟨?_, ?_, ?_, ?_⟩ <;> rw [← lift_outcome]
  · exact invoke_eq rfl (fun _ => rfl) (sem_CPI_tag_uri 14 x cs f o e m nm)
  · exact invoke_eq rfl (fun _ => rfl) (sem_CPI_binary 14 x cs f o e m nm)
  · exact invoke_eq rfl (fun _ => rfl) (hex_args 13 args (fun _ => rfl) rfl (sem_CPI_binary 13 x cs f o e m nm))
  · exact invoke_eq rfl (fun _ => rfl) (base64_args 12 args (fun _ => rfl) rfl (sem_CPI_hex 12 x cs f o e m nm))

/-- The writers of tags of `ITIP`; whatever is passed to `hex` and `base64` by position is ignored. -/
theorem C92_itip (x : Epc.ITIP) (cs : Epc.ITIP.Coding) (f : Fin 8) (v : Val) (hv : IsFilter f v) (args : List Val) :
    invoke (objITIP x) .tag_uri [] [(.binary_coding_scheme, codITIP cs), (.filter_value, v)] = outcome .str (x.tagUri cs f) ∧
    invoke (objITIP x) .binary [] [(.binary_coding_scheme, codITIP cs), (.filter_value, v)] = outcome .str (x.binary cs f) ∧
    invoke (objITIP x) .hex args [(.binary_coding_scheme, codITIP cs), (.filter_value, v)] = outcome .str (x.hex cs f) ∧
    invoke (objITIP x) .base64 args [(.binary_coding_scheme, codITIP cs), (.filter_value, v)] = outcome .str (x.base64 cs f) := by
  obtain ⟨o, e, m, nm, rfl⟩ := hv
  refine ⟨?_, ?_, ?_, ?_⟩ <;> rw [← lift_outcome]
  · exact invoke_eq rfl (fun _ => rfl) (sem_ITIP_tag_uri 14 x cs f o e m nm)
  · exact invoke_eq rfl (fun _ => rfl) (sem_ITIP_binary 14 x cs f o e m nm)
  · exact invoke_eq rfl (fun _ => rfl) (hex_args 13 args (fun _ => rfl) rfl (sem_ITIP_binary 13 x cs f o e m nm))
  · exact invoke_eq rfl (fun _ => rfl) (base64_args 12 args (fun _ => rfl) rfl (sem_ITIP_hex 12 x cs f o e m nm))

/-- The writers of tags of `USDOD`; whatever is passed to `hex` and `base64` by position is ignored. -/
theorem C92_usdod (x : Epc.USDOD) (cs : Epc.USDOD.Coding) (f : Fin 16) (v : Val) (hv : IsFilter f v) (args : List Val) :
    invoke (objUSDOD x) .tag_uri [] [(.binary_coding_scheme, codUSDOD cs), (.filter_value, v)] = outcome .str (x.tagUri cs f) ∧
    invoke (objUSDOD x) .binary [] [(.binary_coding_scheme, codUSDOD cs), (.filter_value, v)] = outcome .str (x.binary cs f) ∧
    invoke (objUSDOD x) .hex args [(.binary_coding_scheme, codUSDOD cs), (.filter_value, v)] = outcome .str (x.hex cs f) ∧
    invoke (objUSDOD x) .base64 args [(.binary_coding_scheme, codUSDOD cs), (.filter_value, v)] = outcome .str (x.base64 cs f) := by
  obtain ⟨o, e, m, nm, rfl⟩ := hv
  refine ⟨?_, ?_, ?_, ?_⟩ <;> rw [← lift_outcome]
  · exact invoke_eq rfl (fun _ => rfl) (sem_USDOD_tag_uri 14 x cs f o e m nm)
  · exact invoke_eq rfl (fun _ => rfl) (sem_USDOD_binary 14 x cs f o e m nm)
  · exact invoke_eq rfl (fun _ => rfl) (hex_args 13 args (fun _ => rfl) rfl (sem_USDOD_binary 13 x cs f o e m nm))
  · exact invoke_eq rfl (fun _ => rfl) (base64_args 12 args (fun _ => rfl) rfl (sem_USDOD_hex 12 x cs f o e m nm))

/-- The writers of tags of `ADI`; whatever is passed to `hex` and `base64` by position is ignored. -/
theorem C92_adi (x : Epc.ADI) (cs : Epc.ADI.Coding) (f : Fin 64) (v : Val) (hv : IsFilter f v) (args : List Val) :
    invoke (objADI x) .tag_uri [] [(.binary_coding_scheme, codADI cs), (.filter_value, v)] = outcome .str (x.tagUri cs f) ∧
    invoke (objADI x) .binary [] [(.binary_coding_scheme, codADI cs), (.filter_value, v)] = outcome .str (x.binary cs f) ∧
    invoke (objADI x) .hex args [(.binary_coding_scheme, codADI cs), (.filter_value, v)] = outcome .str (x.hex cs f) ∧
    invoke (objADI x) .base64 args [(.binary_coding_scheme, codADI cs), (.filter_value, v)] = outcome .str (x.base64 cs f) := by
  obtain ⟨o, e, m, nm, rfl⟩ := hv
  refine ⟨?_, ?_, ?_, ?_⟩ <;> rw [← lift_outcome]
  · exact invoke_eq rfl (fun _ => rfl) (sem_ADI_tag_uri 14 x cs f o e m nm)
  · exact invoke_eq rfl (fun _ => rfl) (sem_ADI_binary 14 x cs f o e m nm)
  · exact invoke_eq rfl (fun _ => rfl) (hex_args 13 args (fun _ => rfl) rfl (sem_ADI_binary 13 x cs f o e m nm))
  · exact invoke_eq rfl (fun _ => rfl) (base64_args 12 args (fun _ => rfl) rfl (sem_ADI_hex 12 x cs f o e m nm))

/-- The writers of tags of `GID`, which has no filter values. -/
theorem C92_gid (x : Epc.GID) (cs : Epc.GID.Coding) (args : List Val) :
    invoke (objGID x) .tag_uri [] [(.binary_coding_scheme, codGID cs)] = outcome .str (x.tagUri cs) ∧
    invoke (objGID x) .binary [] [(.binary_coding_scheme, codGID cs)] = outcome .str (x.binary cs) ∧
    invoke (objGID x) .hex args [(.binary_coding_scheme, codGID cs)] = outcome .str (x.hex cs) ∧
    invoke (objGID x) .base64 args [(.binary_coding_scheme, codGID cs)] = outcome .str (x.base64 cs) := by
  refine ⟨?_, ?_, ?_, ?_⟩ <;> rw [← lift_outcome]
  · exact invoke_eq rfl (fun _ => rfl) (sem_GID_tag_uri 14 x cs)
  · exact invoke_eq rfl (fun _ => rfl) (sem_GID_binary 14 x cs)
  · exact invoke_eq rfl (fun _ => rfl) (hex_args 13 args (fun _ => rfl) rfl (sem_GID_binary 13 x cs))
  · exact invoke_eq rfl (fun _ => rfl) (base64_args 12 args (fun _ => rfl) rfl (sem_GID_hex 12 x cs))

/-- `[m.value for m in c]` for an enumeration of filter values. -/
def filters (c : Cl) : List (M Val) := (clsDict c).map (fun p => read (.cls c) p.1 >>= fun m => read m .value)

/-- The filter values a user can pass: the members of the enumerations of the source. -/
theorem C92_filters : filters .SGTINFilterValue = (List.range 8).map (fun k => .ok (.str (filterStr k))) ∧
    filters .SSCCFilterValue = (List.range 8).map (fun k => .ok (.str (filterStr k))) ∧
    filters .SGLNFilterValue = (List.range 8).map (fun k => .ok (.str (filterStr k))) ∧
    filters .GRAIFilterValue = (List.range 8).map (fun k => .ok (.str (filterStr k))) ∧
    filters .GIAIFilterValue = (List.range 8).map (fun k => .ok (.str (filterStr k))) ∧
    filters .GSRNFilterValue = (List.range 8).map (fun k => .ok (.str (filterStr k))) ∧
    filters .GSRNPFilterValue = (List.range 8).map (fun k => .ok (.str (filterStr k))) ∧
    filters .GDTIFilterValue = (List.range 8).map (fun k => .ok (.str (filterStr k))) ∧
    filters .SGCNFilterValue = (List.range 8).map (fun k => .ok (.str (filterStr k))) ∧
    filters .CPIFilterValue = (List.range 8).map (fun k => .ok (.str (filterStr k))) ∧
    filters .ITIPFilterValue = (List.range 8).map (fun k => .ok (.str (filterStr k))) ∧
    filters .USDODFilterValue = (List.range 16).map (fun k => .ok (.str (filterStr k))) ∧
    filters .ADIFilterValue = (List.range 64).map (fun k => .ok (.str (filterStr k))) := by
  refine ⟨?_, ?_, ?_, ?_, ?_, ?_, ?_, ?_, ?_, ?_, ?_, ?_, ?_⟩ <;> rfl

end Epc.Src
