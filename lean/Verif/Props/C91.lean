/-
C91: the readers, executed from the source: constructors, from_epc_uri, from_tag_uri, from_binary, from_hex, from_base64,
from_gs1_element_string and from_gtin_plus_serial end exactly as the model of the other claims says.
Generated by tools/gen_source_props.py.
-/
import Verif.Lemmas.Source
set_option linter.unusedVariables false

namespace Epc.Src

/-- Making an object: `X(u)` and `X.from_epc_uri(u)`, for each of the 21 classes and every text. -/
theorem C91_constructors (c : Cls) (u : Str) :
    construct (clOf c) [.str u] = outcome objScheme (c.new u) ∧
    invoke (.cls (clOf c)) .from_epc_uri [.str u] [] = outcome objScheme (c.new u) := by
  refine ⟨?_, ?_⟩ <;> rw [← lift_outcome]
  · exact sem_new 14 c u
  · rw [invoke, read, attr_from_epc_uri]
    exact sem_from_epc_uri 13 c u

/-- `x.epc_uri` of the object that was made. -/
theorem C91_epc_uri (x : Scheme) : read (objScheme x) .epc_uri = .ok (.str x.epcUri) := read_epc_uri (level 24) x

/-- `X.from_gs1_element_string(s, k)`, for each of the 16 classes that have it, every text and every number. -/
theorem C91_element_strings (c : Cls) (s : Str) (k : Int) (h : c.isGs1Element = true) :
    invoke (.cls (clOf c)) .from_gs1_element_string [.str s, .int k] [] = outcome objScheme (c.fromGs1ElementString s k) := by
  rw [← lift_outcome, invoke, read, attr_from_elem (level 24) c h]
  exact sem_from_elem 13 c s k h

/-- `SGTIN.from_gtin_plus_serial(gtin, serial, k)`. -/
theorem C91_gtin_plus_serial (g s : Str) (k : Int) :
    invoke (.cls .SGTIN) .from_gtin_plus_serial [.str g, .str s, .int k] [] = outcome objSGTIN (Epc.SGTIN.fromGtinPlusSerial g s k) := by
  rw [← lift_outcome]; exact sem_SGTIN_from_gtin_plus_serial 13 g s k

/-- The readers of tags of `SGTIN`. -/
theorem C91_sgtin (t : Str) (b : Bool) :
    invoke (.cls .SGTIN) .from_tag_uri [.str t] [] = outcome objSGTIN (Epc.SGTIN.fromTagUri t) ∧
    invoke (.cls .SGTIN) .from_tag_uri [.str t] [(.includes_filter, .bool b)] = outcome objSGTIN (Epc.fromTagUri Epc.SGTIN.new b t) ∧
    invoke (.cls .SGTIN) .from_binary [.str t] [] = outcome objSGTIN (Epc.SGTIN.fromBinary t) ∧
    invoke (.cls .SGTIN) .from_hex [.str t] [] = outcome objSGTIN (Epc.SGTIN.fromHex t) ∧
    invoke (.cls .SGTIN) .from_base64 [.str t] [] = outcome objSGTIN (Epc.SGTIN.fromBase64 t) := by
  refine ⟨?_, ?_, ?_, ?_, ?_⟩ <;> rw [← lift_outcome]
  · exact invoke_eq rfl (fun _ => rfl) (sem_SGTIN_from_tag_uri 13 t)
  · exact invoke_eq rfl (fun _ => rfl) (sem_from_tag_uri 13 .SGTIN (fun u => sem_SGTIN 13 u) t b)
  · exact invoke_eq rfl (fun _ => rfl) (sem_SGTIN_from_binary 10 t)
  · exact invoke_eq rfl (fun _ => rfl) (sem_SGTIN_from_hex 9 t)
  · exact invoke_eq rfl (fun _ => rfl) (sem_SGTIN_from_base64 8 t)

/-- The readers of tags of `SSCC`. -/
theorem C91_sscc (t : Str) (b : Bool) :
    invoke (.cls .SSCC) .from_tag_uri [.str t] [] = outcome objSSCC (Epc.SSCC.fromTagUri t) ∧
    invoke (.cls .SSCC) .from_tag_uri [.str t] [(.includes_filter, .bool b)] = outcome objSSCC (Epc.fromTagUri Epc.SSCC.new b t) ∧
    invoke (.cls .SSCC) .from_binary [.str t] [] = outcome objSSCC (Epc.SSCC.fromBinary t) ∧
    invoke (.cls .SSCC) .from_hex [.str t] [] = outcome objSSCC (Epc.SSCC.fromHex t) ∧
    invoke (.cls .SSCC) .from_base64 [.str t] [] = outcome objSSCC (Epc.SSCC.fromBase64 t) := by
  refine ⟨?_, ?_, ?_, ?_, ?_⟩ <;> rw [← lift_outcome]
  · exact invoke_eq rfl (fun _ => rfl) (sem_SSCC_from_tag_uri 13 t)
  · exact invoke_eq rfl (fun _ => rfl) (sem_from_tag_uri 13 .SSCC (fun u => sem_SSCC 13 u) t b)
  · exact invoke_eq rfl (fun _ => rfl) (sem_SSCC_from_binary 10 t)
  · exact invoke_eq rfl (fun _ => rfl) (sem_SSCC_from_hex 9 t)
  · exact invoke_eq rfl (fun _ => rfl) (sem_SSCC_from_base64 8 t)

/-- The readers of tags of `SGLN`. -/
theorem C91_sgln (t : Str) (b : Bool) :
    invoke (.cls .SGLN) .from_tag_uri [.str t] [] = outcome objSGLN (Epc.SGLN.fromTagUri t) ∧
    invoke (.cls .SGLN) .from_tag_uri [.str t] [(.includes_filter, .bool b)] = outcome objSGLN (Epc.fromTagUri Epc.SGLN.new b t) ∧
    invoke (.cls .SGLN) .from_binary [.str t] [] = outcome objSGLN (Epc.SGLN.fromBinary t) ∧
    invoke (.cls .SGLN) .from_hex [.str t] [] = outcome objSGLN (Epc.SGLN.fromHex t) ∧
    invoke (.cls .SGLN) .from_base64 [.str t] [] = outcome objSGLN (Epc.SGLN.fromBase64 t) := by
  refine ⟨?_, ?_, ?_, ?_, ?_⟩ <;> rw [← lift_outcome]
  · exact invoke_eq rfl (fun _ => rfl) (sem_SGLN_from_tag_uri 13 t)
  · exact invoke_eq rfl (fun _ => rfl) (sem_from_tag_uri 13 .SGLN (fun u => sem_SGLN 13 u) t b)
  · exact invoke_eq rfl (fun _ => rfl) (sem_SGLN_from_binary 10 t)
  · exact invoke_eq rfl (fun _ => rfl) (sem_SGLN_from_hex 9 t)
  · exact invoke_eq rfl (fun _ => rfl) (sem_SGLN_from_base64 8 t)

/-- The readers of tags of `GRAI`. -/
theorem C91_grai (t : Str) (b : Bool) :
    invoke (.cls .GRAI) .from_tag_uri [.str t] [] = outcome objGRAI (Epc.GRAI.fromTagUri t) ∧
    invoke (.cls .GRAI) .from_tag_uri [.str t] [(.includes_filter, .bool b)] = outcome objGRAI (Epc.fromTagUri Epc.GRAI.new b t) ∧
    invoke (.cls .GRAI) .from_binary [.str t] [] = outcome objGRAI (Epc.GRAI.fromBinary t) ∧
    invoke (.cls .GRAI) .from_hex [.str t] [] = outcome objGRAI (Epc.GRAI.fromHex t) ∧
    invoke (.cls .GRAI) .from_base64 [.str t] [] = outcome objGRAI (Epc.GRAI.fromBase64 t) := by
  refine ⟨?_, ?_, ?_, ?_, ?_⟩ <;> rw [← lift_outcome]
  · exact invoke_eq rfl (fun _ => rfl) (sem_GRAI_from_tag_uri 13 t)
  · exact invoke_eq rfl (fun _ => rfl) (sem_from_tag_uri 13 .GRAI (fun u => sem_GRAI 13 u) t b)
  · exact invoke_eq rfl (fun _ => rfl) (sem_GRAI_from_binary 10 t)
  · exact invoke_eq rfl (fun _ => rfl) (sem_GRAI_from_hex 9 t)
  · exact invoke_eq rfl (fun _ => rfl) (sem_GRAI_from_base64 8 t)

/-- The readers of tags of `GIAI`. -/
theorem C91_giai (t : Str) (b : Bool) :
    invoke (.cls .GIAI) .from_tag_uri [.str t] [] = outcome objGIAI (Epc.GIAI.fromTagUri t) ∧
    invoke (.cls .GIAI) .from_tag_uri [.str t] [(.includes_filter, .bool b)] = outcome objGIAI (Epc.fromTagUri Epc.GIAI.new b t) ∧
    invoke (.cls .GIAI) .from_binary [.str t] [] = outcome objGIAI (Epc.GIAI.fromBinary t) ∧
    invoke (.cls .GIAI) .from_hex [.str t] [] = outcome objGIAI (Epc.GIAI.fromHex t) ∧
    invoke (.cls .GIAI) .from_base64 [.str t] [] = outcome objGIAI (Epc.GIAI.fromBase64 t) := by
  refine ⟨?_, ?_, ?_, ?_, ?_⟩ <;> rw [← lift_outcome]
  · exact invoke_eq rfl (fun _ => rfl) (sem_GIAI_from_tag_uri 13 t)
  · exact invoke_eq rfl (fun _ => rfl) (sem_from_tag_uri 13 .GIAI (fun u => sem_GIAI 13 u) t b)
  · exact invoke_eq rfl (fun _ => rfl) (sem_GIAI_from_binary 10 t)
  · exact invoke_eq rfl (fun _ => rfl) (sem_GIAI_from_hex 9 t)
  · exact invoke_eq rfl (fun _ => rfl) (sem_GIAI_from_base64 8 t)

/-- The readers of tags of `GSRN`. -/
theorem C91_gsrn (t : Str) (b : Bool) :
    invoke (.cls .GSRN) .from_tag_uri [.str t] [] = outcome objGSRN (Epc.GSRN.fromTagUri t) ∧
    invoke (.cls .GSRN) .from_tag_uri [.str t] [(.includes_filter, .bool b)] = outcome objGSRN (Epc.fromTagUri Epc.GSRN.new b t) ∧
    invoke (.cls .GSRN) .from_binary [.str t] [] = outcome objGSRN (Epc.GSRN.fromBinary t) ∧
    invoke (.cls .GSRN) .from_hex [.str t] [] = outcome objGSRN (Epc.GSRN.fromHex t) ∧
    invoke (.cls .GSRN) .from_base64 [.str t] [] = outcome objGSRN (Epc.GSRN.fromBase64 t) := by
  refine ⟨?_, ?_, ?_, ?_, ?_⟩ <;> rw [← lift_outcome]
  · exact invoke_eq rfl (fun _ => rfl) (sem_GSRN_from_tag_uri 13 t)
  · exact invoke_eq rfl (fun _ => rfl) (sem_from_tag_uri 13 .GSRN (fun u => sem_GSRN 13 u) t b)
  · exact invoke_eq rfl (fun _ => rfl) (sem_GSRN_from_binary 10 t)
  · exact invoke_eq rfl (fun _ => rfl) (sem_GSRN_from_hex 9 t)
  · exact invoke_eq rfl (fun _ => rfl) (sem_GSRN_from_base64 8 t)

/-- The readers of tags of `GSRNP`. -/
theorem C91_gsrnp (t : Str) (b : Bool) :
    invoke (.cls .GSRNP) .from_tag_uri [.str t] [] = outcome objGSRNP (Epc.GSRNP.fromTagUri t) ∧
    invoke (.cls .GSRNP) .from_tag_uri [.str t] [(.includes_filter, .bool b)] = outcome objGSRNP (Epc.fromTagUri Epc.GSRNP.new b t) ∧
    invoke (.cls .GSRNP) .from_binary [.str t] [] = outcome objGSRNP (Epc.GSRNP.fromBinary t) ∧
    invoke (.cls .GSRNP) .from_hex [.str t] [] = outcome objGSRNP (Epc.GSRNP.fromHex t) ∧
    invoke (.cls .GSRNP) .from_base64 [.str t] [] = outcome objGSRNP (Epc.GSRNP.fromBase64 t) := by
  refine ⟨?_, ?_, ?_, ?_, ?_⟩ <;> rw [← lift_outcome]
  · exact invoke_eq rfl (fun _ => rfl) (sem_GSRNP_from_tag_uri 13 t)
  · exact invoke_eq rfl (fun _ => rfl) (sem_from_tag_uri 13 .GSRNP (fun u => sem_GSRNP 13 u) t b)
  · exact invoke_eq rfl (fun _ => rfl) (sem_GSRNP_from_binary 10 t)
  · exact invoke_eq rfl (fun _ => rfl) (sem_GSRNP_from_hex 9 t)
  · exact invoke_eq rfl (fun _ => rfl) (sem_GSRNP_from_base64 8 t)

/-- The readers of tags of `GDTI`. -/
theorem C91_gdti (t : Str) (b : Bool) :
    invoke (.cls .GDTI) .from_tag_uri [.str t] [] = outcome objGDTI (Epc.GDTI.fromTagUri t) ∧
    invoke (.cls .GDTI) .from_tag_uri [.str t] [(.includes_filter, .bool b)] = outcome objGDTI (Epc.fromTagUri Epc.GDTI.new b t) ∧
    invoke (.cls .GDTI) .from_binary [.str t] [] = outcome objGDTI (Epc.GDTI.fromBinary t) ∧
    invoke (.cls .GDTI) .from_hex [.str t] [] = outcome objGDTI (Epc.GDTI.fromHex t) ∧
    invoke (.cls .GDTI) .from_base64 [.str t] [] = outcome objGDTI (Epc.GDTI.fromBase64 t) := by
  refine ⟨?_, ?_, ?_, ?_, ?_⟩ <;> rw [← lift_outcome]
  · exact invoke_eq rfl (fun _ => rfl) (sem_GDTI_from_tag_uri 13 t)
  · exact invoke_eq rfl (fun _ => rfl) (sem_from_tag_uri 13 .GDTI (fun u => sem_GDTI 13 u) t b)
  · exact invoke_eq rfl (fun _ => rfl) (sem_GDTI_from_binary 10 t)
  · exact invoke_eq rfl (fun _ => rfl) (sem_GDTI_from_hex 9 t)
  · exact invoke_eq rfl (fun _ => rfl) (sem_GDTI_from_base64 8 t)

/-- The readers of tags of `SGCN`. -/
theorem C91_sgcn (t : Str) (b : Bool) :
    invoke (.cls .SGCN) .from_tag_uri [.str t] [] = outcome objSGCN (Epc.SGCN.fromTagUri t) ∧
    invoke (.cls .SGCN) .from_tag_uri [.str t] [(.includes_filter, .bool b)] = outcome objSGCN (Epc.fromTagUri Epc.SGCN.new b t) ∧
    invoke (.cls .SGCN) .from_binary [.str t] [] = outcome objSGCN (Epc.SGCN.fromBinary t) ∧
    invoke (.cls .SGCN) .from_hex [.str t] [] = outcome objSGCN (Epc.SGCN.fromHex t) ∧
    invoke (.cls .SGCN) .from_base64 [.str t] [] = outcome objSGCN (Epc.SGCN.fromBase64 t) := by
  refine ⟨?_, ?_, ?_, ?_, ?_⟩ <;> rw [← lift_outcome]
  · exact invoke_eq rfl (fun _ => rfl) (sem_SGCN_from_tag_uri 13 t)
  · exact invoke_eq rfl (fun _ => rfl) (sem_from_tag_uri 13 .SGCN (fun u => sem_SGCN 13 u) t b)
  · exact invoke_eq rfl (fun _ => rfl) (sem_SGCN_from_binary 10 t)
  · exact invoke_eq rfl (fun _ => rfl) (sem_SGCN_from_hex 9 t)
  · exact invoke_eq rfl (fun _ => rfl) (sem_SGCN_from_base64 8 t)

/-- The readers of tags of `CPI`. -/
theorem C91_cpi (t : Str) (b : Bool) :
    invoke (.cls .CPI) .from_tag_uri [.str t] [] = outcome objCPI (Epc.CPI.fromTagUri t) ∧
    invoke (.cls .CPI) .from_tag_uri [.str t] [(.includes_filter, .bool b)] = outcome objCPI (Epc.fromTagUri Epc.CPI.new b t) ∧
    invoke (.cls .CPI) .from_binary [.str t] [] = outcome objCPI (Epc.CPI.fromBinary t) ∧
    invoke (.cls .CPI) .from_hex [.str t] [] = outcome objCPI (Epc.CPI.fromHex t) ∧
    invoke (.cls .CPI) .from_base64 [.str t] [] = outcome objCPI (Epc.CPI.fromBase64 t) := by
  refine ⟨?_, ?_, ?_, ?_, ?_⟩ <;> rw [← lift_outcome]
  · exact invoke_eq rfl (fun _ => rfl) (sem_CPI_from_tag_uri 13 t)
  · exact invoke_eq rfl (fun _ => rfl) (sem_from_tag_uri 13 .CPI (fun u => sem_CPI 13 u) t b)
  · exact invoke_eq rfl (fun _ => rfl) (sem_CPI_from_binary 10 t)
  · exact invoke_eq rfl (fun _ => rfl) (sem_CPI_from_hex 9 t)
  · exact invoke_eq rfl (fun _ => rfl) (sem_CPI_from_base64 8 t)

/-- The readers of tags of `ITIP`. -/
theorem C91_itip (t : Str) (b : Bool) :
    invoke (.cls .ITIP) .from_tag_uri [.str t] [] = outcome objITIP (Epc.ITIP.fromTagUri t) ∧
    invoke (.cls .ITIP) .from_tag_uri [.str t] [(.includes_filter, .bool b)] = outcome objITIP (Epc.fromTagUri Epc.ITIP.new b t) ∧
    invoke (.cls .ITIP) .from_binary [.str t] [] = outcome objITIP (Epc.ITIP.fromBinary t) ∧
    invoke (.cls .ITIP) .from_hex [.str t] [] = outcome objITIP (Epc.ITIP.fromHex t) ∧
    invoke (.cls .ITIP) .from_base64 [.str t] [] = outcome objITIP (Epc.ITIP.fromBase64 t) := by
  refine ⟨?_, ?_, ?_, ?_, ?_⟩ <;> rw [← lift_outcome]
  · exact invoke_eq rfl (fun _ => rfl) (sem_ITIP_from_tag_uri 13 t)
  · exact invoke_eq rfl (fun _ => rfl) (sem_from_tag_uri 13 .ITIP (fun u => sem_ITIP 13 u) t b)
  · exact invoke_eq rfl (fun _ => rfl) (sem_ITIP_from_binary 10 t)
  · exact invoke_eq rfl (fun _ => rfl) (sem_ITIP_from_hex 9 t)
  · exact invoke_eq rfl (fun _ => rfl) (sem_ITIP_from_base64 8 t)

/-- The readers of tags of `USDOD`. -/
theorem C91_usdod (t : Str) (b : Bool) :
    invoke (.cls .USDOD) .from_tag_uri [.str t] [] = outcome objUSDOD (Epc.USDOD.fromTagUri t) ∧
    invoke (.cls .USDOD) .from_tag_uri [.str t] [(.includes_filter, .bool b)] = outcome objUSDOD (Epc.fromTagUri Epc.USDOD.new b t) ∧
    invoke (.cls .USDOD) .from_binary [.str t] [] = outcome objUSDOD (Epc.USDOD.fromBinary t) ∧
    invoke (.cls .USDOD) .from_hex [.str t] [] = outcome objUSDOD (Epc.USDOD.fromHex t) ∧
    invoke (.cls .USDOD) .from_base64 [.str t] [] = outcome objUSDOD (Epc.USDOD.fromBase64 t) := by
  refine ⟨?_, ?_, ?_, ?_, ?_⟩ <;> rw [← lift_outcome]
  · exact invoke_eq rfl (fun _ => rfl) (sem_USDOD_from_tag_uri 13 t)
  · exact invoke_eq rfl (fun _ => rfl) (sem_from_tag_uri 13 .USDOD (fun u => sem_USDOD 13 u) t b)
  · exact invoke_eq rfl (fun _ => rfl) (sem_USDOD_from_binary 10 t)
  · exact invoke_eq rfl (fun _ => rfl) (sem_USDOD_from_hex 9 t)
  · exact invoke_eq rfl (fun _ => rfl) (sem_USDOD_from_base64 8 t)

/-- The readers of tags of `ADI`. -/
theorem C91_adi (t : Str) (b : Bool) :
    invoke (.cls .ADI) .from_tag_uri [.str t] [] = outcome objADI (Epc.ADI.fromTagUri t) ∧
    invoke (.cls .ADI) .from_tag_uri [.str t] [(.includes_filter, .bool b)] = outcome objADI (Epc.fromTagUri Epc.ADI.new b t) ∧
    invoke (.cls .ADI) .from_binary [.str t] [] = outcome objADI (Epc.ADI.fromBinary t) ∧
    invoke (.cls .ADI) .from_hex [.str t] [] = outcome objADI (Epc.ADI.fromHex t) ∧
    invoke (.cls .ADI) .from_base64 [.str t] [] = outcome objADI (Epc.ADI.fromBase64 t) := by
  refine ⟨?_, ?_, ?_, ?_, ?_⟩ <;> rw [← lift_outcome]
  · exact invoke_eq rfl (fun _ => rfl) (sem_ADI_from_tag_uri 13 t)
  · exact invoke_eq rfl (fun _ => rfl) (sem_from_tag_uri 13 .ADI (fun u => sem_ADI 13 u) t b)
  · exact invoke_eq rfl (fun _ => rfl) (sem_ADI_from_binary 10 t)
  · exact invoke_eq rfl (fun _ => rfl) (sem_ADI_from_hex 9 t)
  · exact invoke_eq rfl (fun _ => rfl) (sem_ADI_from_base64 8 t)

/-- The readers of tags of `GID`. -/
theorem C91_gid (t : Str) (b : Bool) :
    invoke (.cls .GID) .from_tag_uri [.str t] [] = outcome objGID (Epc.GID.fromTagUri t) ∧
    invoke (.cls .GID) .from_tag_uri [.str t] [(.includes_filter, .bool b)] = outcome objGID (Epc.fromTagUri Epc.GID.new b t) ∧
    invoke (.cls .GID) .from_binary [.str t] [] = outcome objGID (Epc.GID.fromBinary t) ∧
    invoke (.cls .GID) .from_hex [.str t] [] = outcome objGID (Epc.GID.fromHex t) ∧
    invoke (.cls .GID) .from_base64 [.str t] [] = outcome objGID (Epc.GID.fromBase64 t) := by
  refine ⟨?_, ?_, ?_, ?_, ?_⟩ <;> rw [← lift_outcome]
  · exact invoke_eq rfl (fun _ => rfl) (sem_GID_from_tag_uri 12 t)
  · exact invoke_eq rfl (fun _ => rfl) (sem_GID_from_tag_uri_filter 12 t b)
  · exact invoke_eq rfl (fun _ => rfl) (sem_GID_from_binary 10 t)
  · exact invoke_eq rfl (fun _ => rfl) (sem_GID_from_hex 9 t)
  · exact invoke_eq rfl (fun _ => rfl) (sem_GID_from_base64 8 t)

/-- An object made from the source, and its attributes. -/
example : returnsStr (construct .SGTIN [.str (py "urn:epc:id:sgtin:0614141.812345.6789")] >>= (fun x => read x .epc_uri))
    (py "urn:epc:id:sgtin:0614141.812345.6789") := by decide +kernel
example : raises (construct .SGTIN [.str (py "urn:epc:id:sgtin:0614141.81234.6789")]) (.err .convert) := by decide +kernel

end Epc.Src
