/-
`tag_uri`, `binary`, `hex` and `base64` of GDTI, executed from the source with a coding scheme and a filter value of any class.
Generated by tools/gen_foreign_src.py.
-/
import Verif.Refine.Schemes
set_option linter.unusedSimpArgs false

namespace Epc.Src
open Epc.Spec

theorem any_GDTI_tag_uri (n : Nat) (x : Epc.GDTI) (cs : AnyCoding) (f : Fin 64) (o : Cl) (e m : Nm) (nm : Str) :
    (level (n + 10)).app (.bound GDTI.tag_uri (objGDTI x)) [] [(.binary_coding_scheme, codAny cs), (.filter_value, .member o e m nm (filterStr f))] =
      (lift (x.tagUriAny cs f)).map .str := by
  rw [app_bound]
  rcases cs with cs | cs | cs | cs | cs | cs | cs | cs | cs | cs | cs | cs | cs | cs <;> cases cs
  all_goals exe [GDTI.tag_uri, Epc.GDTI.tagUriAny, objGDTI, tagAttrs, del, codAny, AnyCoding.value, codSGTIN, Epc.SGTIN.Coding.value, codSSCC, Epc.SSCC.Coding.value, codSGLN, Epc.SGLN.Coding.value, codGRAI, Epc.GRAI.Coding.value, codGIAI, Epc.GIAI.Coding.value, codGSRN, Epc.GSRN.Coding.value, codGSRNP, Epc.GSRNP.Coding.value, codGDTI, Epc.GDTI.Coding.value, codCPI, Epc.CPI.Coding.value, codSGCN, Epc.SGCN.Coding.value, codITIP, Epc.ITIP.Coding.value, codGID, Epc.GID.Coding.value, codUSDOD, Epc.USDOD.Coding.value, codADI, Epc.ADI.Coding.value, Epc.GDTI.Coding.header, Epc.GDTI.badSerial]

theorem any_GDTI_binary (n : Nat) (x : Epc.GDTI) (cs : AnyCoding) (f : Fin 64) (o : Cl) (e m : Nm) (nm : Str) :
    (level (n + 10)).app (.bound GDTI.binary (objGDTI x)) [] [(.binary_coding_scheme, codAny cs), (.filter_value, .member o e m nm (filterStr f))] =
      (lift (x.binaryAny cs f)).map .str := by
  rw [app_bound]
  rcases cs with cs | cs | cs | cs | cs | cs | cs | cs | cs | cs | cs | cs | cs | cs <;> cases cs
  all_goals exe [GDTI.binary, Epc.GDTI.binaryAny, objGDTI, tagAttrs, del, codAny, AnyCoding.value, codSGTIN, Epc.SGTIN.Coding.value, codSSCC, Epc.SSCC.Coding.value, codSGLN, Epc.SGLN.Coding.value, codGRAI, Epc.GRAI.Coding.value, codGIAI, Epc.GIAI.Coding.value, codGSRN, Epc.GSRN.Coding.value, codGSRNP, Epc.GSRNP.Coding.value, codGDTI, Epc.GDTI.Coding.value, codCPI, Epc.CPI.Coding.value, codSGCN, Epc.SGCN.Coding.value, codITIP, Epc.ITIP.Coding.value, codGID, Epc.GID.Coding.value, codUSDOD, Epc.USDOD.Coding.value, codADI, Epc.ADI.Coding.value, Epc.GDTI.Coding.header]
  all_goals rfl

theorem any_GDTI_hex (n : Nat) (x : Epc.GDTI) (cs : AnyCoding) (f : Fin 64) (o : Cl) (e m : Nm) (nm : Str) :
    (level (n + 11)).app (.bound TagEncodable.hex (objGDTI x)) [] [(.binary_coding_scheme, codAny cs), (.filter_value, .member o e m nm (filterStr f))] =
      (lift (x.hexAny cs f)).map .str :=
  sem_hex n (fun _ => rfl) rfl (any_GDTI_binary n x cs f o e m nm)

theorem any_GDTI_base64 (n : Nat) (x : Epc.GDTI) (cs : AnyCoding) (f : Fin 64) (o : Cl) (e m : Nm) (nm : Str) :
    (level (n + 12)).app (.bound TagEncodable.base64 (objGDTI x)) [] [(.binary_coding_scheme, codAny cs), (.filter_value, .member o e m nm (filterStr f))] =
      (lift (x.base64Any cs f)).map .str :=
  sem_base64 n (fun _ => rfl) rfl (any_GDTI_hex n x cs f o e m nm)

end Epc.Src
