/-
C95: an argument means the same whether it is passed by position or by keyword, and a missing one is the documented default.
Generated by tools/gen_source_props.py.
-/
import Verif.Lemmas.Source
set_option linter.unusedVariables false

namespace Epc.Src

/-- `SGTIN.tag_uri(binary_coding_scheme, filter_value)`: both by position, the second by keyword, or both by keyword in either order, whatever the values. -/
theorem C95_sgtin_tag_uri (x : Epc.SGTIN) (a b : Val) :
    invoke (objSGTIN x) .tag_uri [a, b] [] = invoke (objSGTIN x) .tag_uri [] [(.binary_coding_scheme, a), (.filter_value, b)] ∧
    invoke (objSGTIN x) .tag_uri [a] [(.filter_value, b)] = invoke (objSGTIN x) .tag_uri [] [(.binary_coding_scheme, a), (.filter_value, b)] ∧
    invoke (objSGTIN x) .tag_uri [] [(.filter_value, b), (.binary_coding_scheme, a)] = invoke (objSGTIN x) .tag_uri [] [(.binary_coding_scheme, a), (.filter_value, b)] := ⟨rfl, rfl, rfl⟩

/-- `SGTIN.binary(binary_coding_scheme, filter_value)`: both by position, the second by keyword, or both by keyword in either order, whatever the values. -/
theorem C95_sgtin_binary (x : Epc.SGTIN) (a b : Val) :
    invoke (objSGTIN x) .binary [a, b] [] = invoke (objSGTIN x) .binary [] [(.binary_coding_scheme, a), (.filter_value, b)] ∧
    invoke (objSGTIN x) .binary [a] [(.filter_value, b)] = invoke (objSGTIN x) .binary [] [(.binary_coding_scheme, a), (.filter_value, b)] ∧
    invoke (objSGTIN x) .binary [] [(.filter_value, b), (.binary_coding_scheme, a)] = invoke (objSGTIN x) .binary [] [(.binary_coding_scheme, a), (.filter_value, b)] := ⟨rfl, rfl, rfl⟩

/-- `SSCC.tag_uri(filter_value, binary_coding_scheme)`: both by position, the second by keyword, or both by keyword in either order, whatever the values. -/
theorem C95_sscc_tag_uri (x : Epc.SSCC) (a b : Val) :
    invoke (objSSCC x) .tag_uri [a, b] [] = invoke (objSSCC x) .tag_uri [] [(.filter_value, a), (.binary_coding_scheme, b)] ∧
    invoke (objSSCC x) .tag_uri [a] [(.binary_coding_scheme, b)] = invoke (objSSCC x) .tag_uri [] [(.filter_value, a), (.binary_coding_scheme, b)] ∧
    invoke (objSSCC x) .tag_uri [] [(.binary_coding_scheme, b), (.filter_value, a)] = invoke (objSSCC x) .tag_uri [] [(.filter_value, a), (.binary_coding_scheme, b)] := ⟨rfl, rfl, rfl⟩

/-- `SSCC.tag_uri` without coding scheme. -/
theorem C95_sscc_tag_uri_default (x : Epc.SSCC) (b : Val) :
    invoke (objSSCC x) .tag_uri [] [(.filter_value, b)] = invoke (objSSCC x) .tag_uri [] [(.binary_coding_scheme, codSSCC .sscc96), (.filter_value, b)] := rfl

/-- `SSCC.binary(filter_value, binary_coding_scheme)`: both by position, the second by keyword, or both by keyword in either order, whatever the values. -/
theorem C95_sscc_binary (x : Epc.SSCC) (a b : Val) :
    invoke (objSSCC x) .binary [a, b] [] = invoke (objSSCC x) .binary [] [(.filter_value, a), (.binary_coding_scheme, b)] ∧
    invoke (objSSCC x) .binary [a] [(.binary_coding_scheme, b)] = invoke (objSSCC x) .binary [] [(.filter_value, a), (.binary_coding_scheme, b)] ∧
    invoke (objSSCC x) .binary [] [(.binary_coding_scheme, b), (.filter_value, a)] = invoke (objSSCC x) .binary [] [(.filter_value, a), (.binary_coding_scheme, b)] := ⟨rfl, rfl, rfl⟩

/-- `SSCC.binary` without coding scheme. -/
theorem C95_sscc_binary_default (x : Epc.SSCC) (b : Val) :
    invoke (objSSCC x) .binary [] [(.filter_value, b)] = invoke (objSSCC x) .binary [] [(.binary_coding_scheme, codSSCC .sscc96), (.filter_value, b)] := rfl

/-- `SGLN.tag_uri(binary_coding_scheme, filter_value)`: both by position, the second by keyword, or both by keyword in either order, whatever the values. -/
theorem C95_sgln_tag_uri (x : Epc.SGLN) (a b : Val) :
    invoke (objSGLN x) .tag_uri [a, b] [] = invoke (objSGLN x) .tag_uri [] [(.binary_coding_scheme, a), (.filter_value, b)] ∧
    invoke (objSGLN x) .tag_uri [a] [(.filter_value, b)] = invoke (objSGLN x) .tag_uri [] [(.binary_coding_scheme, a), (.filter_value, b)] ∧
    invoke (objSGLN x) .tag_uri [] [(.filter_value, b), (.binary_coding_scheme, a)] = invoke (objSGLN x) .tag_uri [] [(.binary_coding_scheme, a), (.filter_value, b)] := ⟨rfl, rfl, rfl⟩

/-- `SGLN.binary(binary_coding_scheme, filter_value)`: both by position, the second by keyword, or both by keyword in either order, whatever the values. -/
theorem C95_sgln_binary (x : Epc.SGLN) (a b : Val) :
    invoke (objSGLN x) .binary [a, b] [] = invoke (objSGLN x) .binary [] [(.binary_coding_scheme, a), (.filter_value, b)] ∧
    invoke (objSGLN x) .binary [a] [(.filter_value, b)] = invoke (objSGLN x) .binary [] [(.binary_coding_scheme, a), (.filter_value, b)] ∧
    invoke (objSGLN x) .binary [] [(.filter_value, b), (.binary_coding_scheme, a)] = invoke (objSGLN x) .binary [] [(.binary_coding_scheme, a), (.filter_value, b)] := ⟨rfl, rfl, rfl⟩

/-- `GRAI.tag_uri(binary_coding_scheme, filter_value)`: both by position, the second by keyword, or both by keyword in either order, whatever the values. -/
theorem C95_grai_tag_uri (x : Epc.GRAI) (a b : Val) :
    invoke (objGRAI x) .tag_uri [a, b] [] = invoke (objGRAI x) .tag_uri [] [(.binary_coding_scheme, a), (.filter_value, b)] ∧
    invoke (objGRAI x) .tag_uri [a] [(.filter_value, b)] = invoke (objGRAI x) .tag_uri [] [(.binary_coding_scheme, a), (.filter_value, b)] ∧
    invoke (objGRAI x) .tag_uri [] [(.filter_value, b), (.binary_coding_scheme, a)] = invoke (objGRAI x) .tag_uri [] [(.binary_coding_scheme, a), (.filter_value, b)] := ⟨rfl, rfl, rfl⟩

/-- `GRAI.binary(binary_coding_scheme, filter_value)`: both by position, the second by keyword, or both by keyword in either order, whatever the values. -/
theorem C95_grai_binary (x : Epc.GRAI) (a b : Val) :
    invoke (objGRAI x) .binary [a, b] [] = invoke (objGRAI x) .binary [] [(.binary_coding_scheme, a), (.filter_value, b)] ∧
    invoke (objGRAI x) .binary [a] [(.filter_value, b)] = invoke (objGRAI x) .binary [] [(.binary_coding_scheme, a), (.filter_value, b)] ∧
    invoke (objGRAI x) .binary [] [(.filter_value, b), (.binary_coding_scheme, a)] = invoke (objGRAI x) .binary [] [(.binary_coding_scheme, a), (.filter_value, b)] := ⟨rfl, rfl, rfl⟩

/-- `GIAI.tag_uri(binary_coding_scheme, filter_value)`: both by position, the second by keyword, or both by keyword in either order, whatever the values. -/
theorem C95_giai_tag_uri (x : Epc.GIAI) (a b : Val) :
    invoke (objGIAI x) .tag_uri [a, b] [] = invoke (objGIAI x) .tag_uri [] [(.binary_coding_scheme, a), (.filter_value, b)] ∧
    invoke (objGIAI x) .tag_uri [a] [(.filter_value, b)] = invoke (objGIAI x) .tag_uri [] [(.binary_coding_scheme, a), (.filter_value, b)] ∧
    invoke (objGIAI x) .tag_uri [] [(.filter_value, b), (.binary_coding_scheme, a)] = invoke (objGIAI x) .tag_uri [] [(.binary_coding_scheme, a), (.filter_value, b)] := ⟨rfl, rfl, rfl⟩

/-- `GIAI.binary(binary_coding_scheme, filter_value)`: both by position, the second by keyword, or both by keyword in either order, whatever the values. -/
theorem C95_giai_binary (x : Epc.GIAI) (a b : Val) :
    invoke (objGIAI x) .binary [a, b] [] = invoke (objGIAI x) .binary [] [(.binary_coding_scheme, a), (.filter_value, b)] ∧
    invoke (objGIAI x) .binary [a] [(.filter_value, b)] = invoke (objGIAI x) .binary [] [(.binary_coding_scheme, a), (.filter_value, b)] ∧
    invoke (objGIAI x) .binary [] [(.filter_value, b), (.binary_coding_scheme, a)] = invoke (objGIAI x) .binary [] [(.binary_coding_scheme, a), (.filter_value, b)] := ⟨rfl, rfl, rfl⟩

/-- `GSRN.tag_uri(binary_coding_scheme, filter_value)`: both by position, the second by keyword, or both by keyword in either order, whatever the values. -/
theorem C95_gsrn_tag_uri (x : Epc.GSRN) (a b : Val) :
    invoke (objGSRN x) .tag_uri [a, b] [] = invoke (objGSRN x) .tag_uri [] [(.binary_coding_scheme, a), (.filter_value, b)] ∧
    invoke (objGSRN x) .tag_uri [a] [(.filter_value, b)] = invoke (objGSRN x) .tag_uri [] [(.binary_coding_scheme, a), (.filter_value, b)] ∧
    invoke (objGSRN x) .tag_uri [] [(.filter_value, b), (.binary_coding_scheme, a)] = invoke (objGSRN x) .tag_uri [] [(.binary_coding_scheme, a), (.filter_value, b)] := ⟨rfl, rfl, rfl⟩

/-- `GSRN.tag_uri` without coding scheme. -/
theorem C95_gsrn_tag_uri_default (x : Epc.GSRN) (b : Val) :
    invoke (objGSRN x) .tag_uri [] [(.filter_value, b)] = invoke (objGSRN x) .tag_uri [] [(.binary_coding_scheme, codGSRN .gsrn96), (.filter_value, b)] := rfl

/-- `GSRN.tag_uri` without filter value. -/
theorem C95_gsrn_tag_uri_default_filter (x : Epc.GSRN) : ∃ v, IsFilter (0 : Fin 8) v ∧ ∀ a,
    invoke (objGSRN x) .tag_uri [] [(.binary_coding_scheme, a)] = invoke (objGSRN x) .tag_uri [] [(.binary_coding_scheme, a), (.filter_value, v)] :=
  ⟨_, ⟨.GSRNFilterValue, .IMPLICIT, .ALL_OTHERS, py "ALL_OTHERS", rfl⟩, fun _ => rfl⟩

/-- `GSRN.binary(binary_coding_scheme, filter_value)`: both by position, the second by keyword, or both by keyword in either order, whatever the values. -/
theorem C95_gsrn_binary (x : Epc.GSRN) (a b : Val) :
    invoke (objGSRN x) .binary [a, b] [] = invoke (objGSRN x) .binary [] [(.binary_coding_scheme, a), (.filter_value, b)] ∧
    invoke (objGSRN x) .binary [a] [(.filter_value, b)] = invoke (objGSRN x) .binary [] [(.binary_coding_scheme, a), (.filter_value, b)] ∧
    invoke (objGSRN x) .binary [] [(.filter_value, b), (.binary_coding_scheme, a)] = invoke (objGSRN x) .binary [] [(.binary_coding_scheme, a), (.filter_value, b)] := ⟨rfl, rfl, rfl⟩

/-- `GSRN.binary` without coding scheme. -/
theorem C95_gsrn_binary_default (x : Epc.GSRN) (b : Val) :
    invoke (objGSRN x) .binary [] [(.filter_value, b)] = invoke (objGSRN x) .binary [] [(.binary_coding_scheme, codGSRN .gsrn96), (.filter_value, b)] := rfl

/-- `GSRN.binary` without filter value. -/
theorem C95_gsrn_binary_default_filter (x : Epc.GSRN) : ∃ v, IsFilter (0 : Fin 8) v ∧ ∀ a,
    invoke (objGSRN x) .binary [] [(.binary_coding_scheme, a)] = invoke (objGSRN x) .binary [] [(.binary_coding_scheme, a), (.filter_value, v)] :=
  ⟨_, ⟨.GSRNFilterValue, .IMPLICIT, .ALL_OTHERS, py "ALL_OTHERS", rfl⟩, fun _ => rfl⟩

/-- `GSRNP.tag_uri(binary_coding_scheme, filter_value)`: both by position, the second by keyword, or both by keyword in either order, whatever the values. -/
theorem C95_gsrnp_tag_uri (x : Epc.GSRNP) (a b : Val) :
    invoke (objGSRNP x) .tag_uri [a, b] [] = invoke (objGSRNP x) .tag_uri [] [(.binary_coding_scheme, a), (.filter_value, b)] ∧
    invoke (objGSRNP x) .tag_uri [a] [(.filter_value, b)] = invoke (objGSRNP x) .tag_uri [] [(.binary_coding_scheme, a), (.filter_value, b)] ∧
    invoke (objGSRNP x) .tag_uri [] [(.filter_value, b), (.binary_coding_scheme, a)] = invoke (objGSRNP x) .tag_uri [] [(.binary_coding_scheme, a), (.filter_value, b)] := ⟨rfl, rfl, rfl⟩

/-- `GSRNP.tag_uri` without coding scheme. -/
theorem C95_gsrnp_tag_uri_default (x : Epc.GSRNP) (b : Val) :
    invoke (objGSRNP x) .tag_uri [] [(.filter_value, b)] = invoke (objGSRNP x) .tag_uri [] [(.binary_coding_scheme, codGSRNP .gsrnp96), (.filter_value, b)] := rfl

/-- `GSRNP.tag_uri` without filter value. -/
theorem C95_gsrnp_tag_uri_default_filter (x : Epc.GSRNP) : ∃ v, IsFilter (0 : Fin 8) v ∧ ∀ a,
    invoke (objGSRNP x) .tag_uri [] [(.binary_coding_scheme, a)] = invoke (objGSRNP x) .tag_uri [] [(.binary_coding_scheme, a), (.filter_value, v)] :=
  ⟨_, ⟨.GSRNPFilterValue, .IMPLICIT, .ALL_OTHERS, py "ALL_OTHERS", rfl⟩, fun _ => rfl⟩

/-- `GSRNP.binary(binary_coding_scheme, filter_value)`: both by position, the second by keyword, or both by keyword in either order, whatever the values. -/
theorem C95_gsrnp_binary (x : Epc.GSRNP) (a b : Val) :
    invoke (objGSRNP x) .binary [a, b] [] = invoke (objGSRNP x) .binary [] [(.binary_coding_scheme, a), (.filter_value, b)] ∧
    invoke (objGSRNP x) .binary [a] [(.filter_value, b)] = invoke (objGSRNP x) .binary [] [(.binary_coding_scheme, a), (.filter_value, b)] ∧
    invoke (objGSRNP x) .binary [] [(.filter_value, b), (.binary_coding_scheme, a)] = invoke (objGSRNP x) .binary [] [(.binary_coding_scheme, a), (.filter_value, b)] := ⟨rfl, rfl, rfl⟩

/-- `GSRNP.binary` without coding scheme. -/
theorem C95_gsrnp_binary_default (x : Epc.GSRNP) (b : Val) :
    invoke (objGSRNP x) .binary [] [(.filter_value, b)] = invoke (objGSRNP x) .binary [] [(.binary_coding_scheme, codGSRNP .gsrnp96), (.filter_value, b)] := rfl

/-- `GSRNP.binary` without filter value. -/
theorem C95_gsrnp_binary_default_filter (x : Epc.GSRNP) : ∃ v, IsFilter (0 : Fin 8) v ∧ ∀ a,
    invoke (objGSRNP x) .binary [] [(.binary_coding_scheme, a)] = invoke (objGSRNP x) .binary [] [(.binary_coding_scheme, a), (.filter_value, v)] :=
  ⟨_, ⟨.GSRNPFilterValue, .IMPLICIT, .ALL_OTHERS, py "ALL_OTHERS", rfl⟩, fun _ => rfl⟩

/-- `GDTI.tag_uri(binary_coding_scheme, filter_value)`: both by position, the second by keyword, or both by keyword in either order, whatever the values. -/
theorem C95_gdti_tag_uri (x : Epc.GDTI) (a b : Val) :
    invoke (objGDTI x) .tag_uri [a, b] [] = invoke (objGDTI x) .tag_uri [] [(.binary_coding_scheme, a), (.filter_value, b)] ∧
    invoke (objGDTI x) .tag_uri [a] [(.filter_value, b)] = invoke (objGDTI x) .tag_uri [] [(.binary_coding_scheme, a), (.filter_value, b)] ∧
    invoke (objGDTI x) .tag_uri [] [(.filter_value, b), (.binary_coding_scheme, a)] = invoke (objGDTI x) .tag_uri [] [(.binary_coding_scheme, a), (.filter_value, b)] := ⟨rfl, rfl, rfl⟩

/-- `GDTI.binary(binary_coding_scheme, filter_value)`: both by position, the second by keyword, or both by keyword in either order, whatever the values. -/
theorem C95_gdti_binary (x : Epc.GDTI) (a b : Val) :
    invoke (objGDTI x) .binary [a, b] [] = invoke (objGDTI x) .binary [] [(.binary_coding_scheme, a), (.filter_value, b)] ∧
    invoke (objGDTI x) .binary [a] [(.filter_value, b)] = invoke (objGDTI x) .binary [] [(.binary_coding_scheme, a), (.filter_value, b)] ∧
    invoke (objGDTI x) .binary [] [(.filter_value, b), (.binary_coding_scheme, a)] = invoke (objGDTI x) .binary [] [(.binary_coding_scheme, a), (.filter_value, b)] := ⟨rfl, rfl, rfl⟩

/-- `SGCN.tag_uri(filter_value, binary_coding_scheme)`: both by position, the second by keyword, or both by keyword in either order, whatever the values. -/
theorem C95_sgcn_tag_uri (x : Epc.SGCN) (a b : Val) :
    invoke (objSGCN x) .tag_uri [a, b] [] = invoke (objSGCN x) .tag_uri [] [(.filter_value, a), (.binary_coding_scheme, b)] ∧
    invoke (objSGCN x) .tag_uri [a] [(.binary_coding_scheme, b)] = invoke (objSGCN x) .tag_uri [] [(.filter_value, a), (.binary_coding_scheme, b)] ∧
    invoke (objSGCN x) .tag_uri [] [(.binary_coding_scheme, b), (.filter_value, a)] = invoke (objSGCN x) .tag_uri [] [(.filter_value, a), (.binary_coding_scheme, b)] := ⟨rfl, rfl, rfl⟩

/-- `SGCN.tag_uri` without coding scheme. -/
theorem C95_sgcn_tag_uri_default (x : Epc.SGCN) (b : Val) :
    invoke (objSGCN x) .tag_uri [] [(.filter_value, b)] = invoke (objSGCN x) .tag_uri [] [(.binary_coding_scheme, codSGCN .sgcn96), (.filter_value, b)] := rfl

/-- `SGCN.binary(filter_value, binary_coding_scheme)`: both by position, the second by keyword, or both by keyword in either order, whatever the values. -/
theorem C95_sgcn_binary (x : Epc.SGCN) (a b : Val) :
    invoke (objSGCN x) .binary [a, b] [] = invoke (objSGCN x) .binary [] [(.filter_value, a), (.binary_coding_scheme, b)] ∧
    invoke (objSGCN x) .binary [a] [(.binary_coding_scheme, b)] = invoke (objSGCN x) .binary [] [(.filter_value, a), (.binary_coding_scheme, b)] ∧
    invoke (objSGCN x) .binary [] [(.binary_coding_scheme, b), (.filter_value, a)] = invoke (objSGCN x) .binary [] [(.filter_value, a), (.binary_coding_scheme, b)] := ⟨rfl, rfl, rfl⟩

/-- `SGCN.binary` without coding scheme. -/
theorem C95_sgcn_binary_default (x : Epc.SGCN) (b : Val) :
    invoke (objSGCN x) .binary [] [(.filter_value, b)] = invoke (objSGCN x) .binary [] [(.binary_coding_scheme, codSGCN .sgcn96), (.filter_value, b)] := rfl

/-- `CPI.tag_uri(binary_coding_scheme, filter_value)`: both by position, the second by keyword, or both by keyword in either order, whatever the values. -/
theorem C95_cpi_tag_uri (x : Epc.CPI) (a b : Val) :
    invoke (objCPI x) .tag_uri [a, b] [] = invoke (objCPI x) .tag_uri [] [(.binary_coding_scheme, a), (.filter_value, b)] ∧
    invoke (objCPI x) .tag_uri [a] [(.filter_value, b)] = invoke (objCPI x) .tag_uri [] [(.binary_coding_scheme, a), (.filter_value, b)] ∧
    invoke (objCPI x) .tag_uri [] [(.filter_value, b), (.binary_coding_scheme, a)] = invoke (objCPI x) .tag_uri [] [(.binary_coding_scheme, a), (.filter_value, b)] := ⟨rfl, rfl, rfl⟩

/-- `CPI.binary(binary_coding_scheme, filter_value)`: both by position, the second by keyword, or both by keyword in either order, whatever the values. -/
theorem C95_cpi_binary (x : Epc.CPI) (a b : Val) :
    invoke (objCPI x) .binary [a, b] [] = invoke (objCPI x) .binary [] [(.binary_coding_scheme, a), (.filter_value, b)] ∧
    invoke (objCPI x) .binary [a] [(.filter_value, b)] = invoke (objCPI x) .binary [] [(.binary_coding_scheme, a), (.filter_value, b)] ∧
    invoke (objCPI x) .binary [] [(.filter_value, b), (.binary_coding_scheme, a)] = invoke (objCPI x) .binary [] [(.binary_coding_scheme, a), (.filter_value, b)] := ⟨rfl, rfl, rfl⟩

/-- `ITIP.tag_uri(binary_coding_scheme, filter_value)`: both by position, the second by keyword, or both by keyword in either order, whatever the values. -/
theorem C95_itip_tag_uri (x : Epc.ITIP) (a b : Val) :
    invoke (objITIP x) .tag_uri [a, b] [] = invoke (objITIP x) .tag_uri [] [(.binary_coding_scheme, a), (.filter_value, b)] ∧
    invoke (objITIP x) .tag_uri [a] [(.filter_value, b)] = invoke (objITIP x) .tag_uri [] [(.binary_coding_scheme, a), (.filter_value, b)] ∧
    invoke (objITIP x) .tag_uri [] [(.filter_value, b), (.binary_coding_scheme, a)] = invoke (objITIP x) .tag_uri [] [(.binary_coding_scheme, a), (.filter_value, b)] := ⟨rfl, rfl, rfl⟩

/-- `ITIP.binary(filter_value, binary_coding_scheme)`: both by position, the second by keyword, or both by keyword in either order, whatever the values. -/
theorem C95_itip_binary (x : Epc.ITIP) (a b : Val) :
    invoke (objITIP x) .binary [a, b] [] = invoke (objITIP x) .binary [] [(.filter_value, a), (.binary_coding_scheme, b)] ∧
    invoke (objITIP x) .binary [a] [(.binary_coding_scheme, b)] = invoke (objITIP x) .binary [] [(.filter_value, a), (.binary_coding_scheme, b)] ∧
    invoke (objITIP x) .binary [] [(.binary_coding_scheme, b), (.filter_value, a)] = invoke (objITIP x) .binary [] [(.filter_value, a), (.binary_coding_scheme, b)] := ⟨rfl, rfl, rfl⟩

/-- `USDOD.tag_uri(filter_value, binary_coding_scheme)`: both by position, the second by keyword, or both by keyword in either order, whatever the values. -/
theorem C95_usdod_tag_uri (x : Epc.USDOD) (a b : Val) :
    invoke (objUSDOD x) .tag_uri [a, b] [] = invoke (objUSDOD x) .tag_uri [] [(.filter_value, a), (.binary_coding_scheme, b)] ∧
    invoke (objUSDOD x) .tag_uri [a] [(.binary_coding_scheme, b)] = invoke (objUSDOD x) .tag_uri [] [(.filter_value, a), (.binary_coding_scheme, b)] ∧
    invoke (objUSDOD x) .tag_uri [] [(.binary_coding_scheme, b), (.filter_value, a)] = invoke (objUSDOD x) .tag_uri [] [(.filter_value, a), (.binary_coding_scheme, b)] := ⟨rfl, rfl, rfl⟩

/-- `USDOD.tag_uri` without coding scheme. -/
theorem C95_usdod_tag_uri_default (x : Epc.USDOD) (b : Val) :
    invoke (objUSDOD x) .tag_uri [] [(.filter_value, b)] = invoke (objUSDOD x) .tag_uri [] [(.binary_coding_scheme, codUSDOD .usdod96), (.filter_value, b)] := rfl

/-- `USDOD.binary(filter_value, binary_coding_scheme)`: both by position, the second by keyword, or both by keyword in either order, whatever the values. -/
theorem C95_usdod_binary (x : Epc.USDOD) (a b : Val) :
    invoke (objUSDOD x) .binary [a, b] [] = invoke (objUSDOD x) .binary [] [(.filter_value, a), (.binary_coding_scheme, b)] ∧
    invoke (objUSDOD x) .binary [a] [(.binary_coding_scheme, b)] = invoke (objUSDOD x) .binary [] [(.filter_value, a), (.binary_coding_scheme, b)] ∧
    invoke (objUSDOD x) .binary [] [(.binary_coding_scheme, b), (.filter_value, a)] = invoke (objUSDOD x) .binary [] [(.filter_value, a), (.binary_coding_scheme, b)] := ⟨rfl, rfl, rfl⟩

/-- `USDOD.binary` without coding scheme. -/
theorem C95_usdod_binary_default (x : Epc.USDOD) (b : Val) :
    invoke (objUSDOD x) .binary [] [(.filter_value, b)] = invoke (objUSDOD x) .binary [] [(.binary_coding_scheme, codUSDOD .usdod96), (.filter_value, b)] := rfl

/-- `ADI.tag_uri(filter_value, binary_coding_scheme)`: both by position, the second by keyword, or both by keyword in either order, whatever the values. -/
theorem C95_adi_tag_uri (x : Epc.ADI) (a b : Val) :
    invoke (objADI x) .tag_uri [a, b] [] = invoke (objADI x) .tag_uri [] [(.filter_value, a), (.binary_coding_scheme, b)] ∧
    invoke (objADI x) .tag_uri [a] [(.binary_coding_scheme, b)] = invoke (objADI x) .tag_uri [] [(.filter_value, a), (.binary_coding_scheme, b)] ∧
    invoke (objADI x) .tag_uri [] [(.binary_coding_scheme, b), (.filter_value, a)] = invoke (objADI x) .tag_uri [] [(.filter_value, a), (.binary_coding_scheme, b)] := ⟨rfl, rfl, rfl⟩

/-- `ADI.tag_uri` without coding scheme. -/
theorem C95_adi_tag_uri_default (x : Epc.ADI) (b : Val) :
    invoke (objADI x) .tag_uri [] [(.filter_value, b)] = invoke (objADI x) .tag_uri [] [(.binary_coding_scheme, codADI .adiVar), (.filter_value, b)] := rfl

/-- `ADI.binary(filter_value, binary_coding_scheme)`: both by position, the second by keyword, or both by keyword in either order, whatever the values. -/
theorem C95_adi_binary (x : Epc.ADI) (a b : Val) :
    invoke (objADI x) .binary [a, b] [] = invoke (objADI x) .binary [] [(.filter_value, a), (.binary_coding_scheme, b)] ∧
    invoke (objADI x) .binary [a] [(.binary_coding_scheme, b)] = invoke (objADI x) .binary [] [(.filter_value, a), (.binary_coding_scheme, b)] ∧
    invoke (objADI x) .binary [] [(.binary_coding_scheme, b), (.filter_value, a)] = invoke (objADI x) .binary [] [(.filter_value, a), (.binary_coding_scheme, b)] := ⟨rfl, rfl, rfl⟩

/-- `ADI.binary` without coding scheme. -/
theorem C95_adi_binary_default (x : Epc.ADI) (b : Val) :
    invoke (objADI x) .binary [] [(.filter_value, b)] = invoke (objADI x) .binary [] [(.binary_coding_scheme, codADI .adiVar), (.filter_value, b)] := rfl

/-- `GID.tag_uri` by position, by keyword and without argument. -/
theorem C95_gid_tag_uri (x : Epc.GID) (a : Val) :
    invoke (objGID x) .tag_uri [a] [] = invoke (objGID x) .tag_uri [] [(.binary_coding_scheme, a)] ∧
    invoke (objGID x) .tag_uri [] [] = invoke (objGID x) .tag_uri [] [(.binary_coding_scheme, codGID .gid96)] := ⟨rfl, rfl⟩

/-- `GID.binary` by position, by keyword and without argument. -/
theorem C95_gid_binary (x : Epc.GID) (a : Val) :
    invoke (objGID x) .binary [a] [] = invoke (objGID x) .binary [] [(.binary_coding_scheme, a)] ∧
    invoke (objGID x) .binary [] [] = invoke (objGID x) .binary [] [(.binary_coding_scheme, codGID .gid96)] := ⟨rfl, rfl⟩

/-- `gtin` and `gs1_key` of SGTIN and LGTIN by position, by keyword and without argument. -/
theorem C95_gtin (x : Epc.SGTIN) (y : Epc.LGTIN) (a : Val) :
    invoke (objSGTIN x) .gtin [a] [] = invoke (objSGTIN x) .gtin [] [(.gtin_type, a)] ∧
    invoke (objSGTIN x) .gtin [] [] = invoke (objSGTIN x) .gtin [] [(.gtin_type, .int 14)] ∧
    invoke (objLGTIN y) .gtin [a] [] = invoke (objLGTIN y) .gtin [] [(.gtin_type, a)] ∧
    invoke (objLGTIN y) .gtin [] [] = invoke (objLGTIN y) .gtin [] [(.gtin_type, .int 14)] ∧
    invoke (objSGTIN x) .gs1_key [a] [] = invoke (objSGTIN x) .gs1_key [] [(.gtin_type, a)] ∧
    invoke (objSGTIN x) .gs1_key [] [] = invoke (objSGTIN x) .gs1_key [] [(.gtin_type, .int 14)] ∧
    invoke (objLGTIN y) .gs1_key [a] [] = invoke (objLGTIN y) .gs1_key [] [(.gtin_type, a)] ∧
    invoke (objLGTIN y) .gs1_key [] [] = invoke (objLGTIN y) .gs1_key [] [(.gtin_type, .int 14)] := ⟨rfl, rfl, rfl, rfl, rfl, rfl, rfl, rfl⟩

/-- `from_tag_uri` and `from_gs1_element_string` by position and by keyword. -/
theorem C95_readers (c : Cls) (s k b : Val) :
    (c.isTagEncodable = true → c ≠ .gid →
      invoke (.cls (clOf c)) .from_tag_uri [s, b] [] = invoke (.cls (clOf c)) .from_tag_uri [] [(.epc_tag_uri, s), (.includes_filter, b)] ∧
      invoke (.cls (clOf c)) .from_tag_uri [s, b] [] = invoke (.cls (clOf c)) .from_tag_uri [s] [(.includes_filter, b)] ∧
      invoke (.cls (clOf c)) .from_tag_uri [s] [] = invoke (.cls (clOf c)) .from_tag_uri [s, .bool true] []) ∧
    (c.isTagEncodable = true →
      invoke (.cls (clOf c)) .from_hex [s] [] = invoke (.cls (clOf c)) .from_hex [] [(.tag_hex_string, s)] ∧
      invoke (.cls (clOf c)) .from_base64 [s] [] = invoke (.cls (clOf c)) .from_base64 [] [(.tag_base64_string, s)]) ∧
    (c.isGs1Element = true →
      invoke (.cls (clOf c)) .from_gs1_element_string [s, k] [] =
        invoke (.cls (clOf c)) .from_gs1_element_string [s] [(.company_prefix_length, k)]) := by
  refine ⟨?_, ?_, ?_⟩ <;> cases c <;> intro h <;> first
    | (cases h; done) | exact fun h => absurd rfl h | exact fun _ => ⟨rfl, rfl, rfl⟩ | exact ⟨rfl, rfl⟩ | exact rfl

/-- `get_gs1_key` by position and by keyword. -/
theorem C95_functions (s k : Val) (kw : List (Nm × Val)) :
    function .get_gs1_key [s, k] [] = function .get_gs1_key [s] [(.company_prefix_length, k)] ∧
    function .get_gs1_key [s] [] = function .get_gs1_key [s, .none] [] := ⟨rfl, rfl⟩

end Epc.Src
