/-
`tag_uri`, `binary`, `hex` and `base64` of GID, executed from the source with a coding scheme and a filter value of any class.
Generated by tools/gen_foreign_src.py.
-/
import Verif.Refine.Schemes
set_option linter.unusedSimpArgs false

namespace Epc.Src
open Epc.Spec

theorem any_GID_tag_uri (n : Nat) (x : Epc.GID) (cs : AnyCoding) :
    (level (n + 10)).app (.bound GID.tag_uri (objGID x)) [] [(.binary_coding_scheme, codAny cs)] =
      (lift (x.tagUriAny cs)).map .str := by
  rw [app_bound]
  rcases cs with cs | cs | cs | cs | cs | cs | cs | cs | cs | cs | cs | cs | cs | cs <;> cases cs
  all_goals exe [GID.tag_uri, Epc.GID.tagUriAny, objGID, tagAttrs, del, codAny, AnyCoding.value, codSGTIN, Epc.SGTIN.Coding.value, codSSCC, Epc.SSCC.Coding.value, codSGLN, Epc.SGLN.Coding.value, codGRAI, Epc.GRAI.Coding.value, codGIAI, Epc.GIAI.Coding.value, codGSRN, Epc.GSRN.Coding.value, codGSRNP, Epc.GSRNP.Coding.value, codGDTI, Epc.GDTI.Coding.value, codCPI, Epc.CPI.Coding.value, codSGCN, Epc.SGCN.Coding.value, codITIP, Epc.ITIP.Coding.value, codGID, Epc.GID.Coding.value, codUSDOD, Epc.USDOD.Coding.value, codADI, Epc.ADI.Coding.value, Epc.GID.Coding.header]

theorem any_GID_binary (n : Nat) (x : Epc.GID) (cs : AnyCoding) :
    (level (n + 10)).app (.bound GID.binary (objGID x)) [] [(.binary_coding_scheme, codAny cs)] =
      (lift (x.binaryAny cs)).map .str := by
  rw [app_bound]
  rcases cs with cs | cs | cs | cs | cs | cs | cs | cs | cs | cs | cs | cs | cs | cs <;> cases cs
  all_goals exe [GID.binary, Epc.GID.binaryAny, objGID, tagAttrs, del, codAny, AnyCoding.value, codSGTIN, Epc.SGTIN.Coding.value, codSSCC, Epc.SSCC.Coding.value, codSGLN, Epc.SGLN.Coding.value, codGRAI, Epc.GRAI.Coding.value, codGIAI, Epc.GIAI.Coding.value, codGSRN, Epc.GSRN.Coding.value, codGSRNP, Epc.GSRNP.Coding.value, codGDTI, Epc.GDTI.Coding.value, codCPI, Epc.CPI.Coding.value, codSGCN, Epc.SGCN.Coding.value, codITIP, Epc.ITIP.Coding.value, codGID, Epc.GID.Coding.value, codUSDOD, Epc.USDOD.Coding.value, codADI, Epc.ADI.Coding.value, Epc.GID.Coding.header]
  all_goals rfl

theorem any_GID_hex (n : Nat) (x : Epc.GID) (cs : AnyCoding) :
    (level (n + 11)).app (.bound TagEncodable.hex (objGID x)) [] [(.binary_coding_scheme, codAny cs)] =
      (lift (x.hexAny cs)).map .str :=
  sem_hex n (fun _ => rfl) rfl (any_GID_binary n x cs)

theorem any_GID_base64 (n : Nat) (x : Epc.GID) (cs : AnyCoding) :
    (level (n + 12)).app (.bound TagEncodable.base64 (objGID x)) [] [(.binary_coding_scheme, codAny cs)] =
      (lift (x.base64Any cs)).map .str :=
  sem_base64 n (fun _ => rfl) rfl (any_GID_hex n x cs)

end Epc.Src
