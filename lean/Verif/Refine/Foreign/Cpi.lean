/-
`tag_uri`, `binary`, `hex` and `base64` of CPI, executed from the source with a coding scheme and a filter value of any class.
Generated by tools/gen_foreign_src.py.
-/
import Verif.Refine.Schemes
set_option linter.unusedSimpArgs false

namespace Epc.Src
open Epc.Spec

theorem any_CPI_tag_uri (n : Nat) (x : Epc.CPI) (cs : AnyCoding) (f : Fin 64) (o : Cl) (e m : Nm) (nm : Str) :
    (level (n + 10)).app (.bound CPI.tag_uri (objCPI x)) [] [(.binary_coding_scheme, codAny cs), (.filter_value, .member o e m nm (filterStr f))] =
      (lift (x.tagUriAny cs f)).map .str := by
  rw [app_bound]
  rcases cs with cs | cs | cs | cs | cs | cs | cs | cs | cs | cs | cs | cs | cs | cs <;> cases cs
  all_goals exe [CPI.tag_uri, Epc.CPI.tagUriAny, objCPI, tagAttrs, del, codAny, AnyCoding.value, codSGTIN, Epc.SGTIN.Coding.value, codSSCC, Epc.SSCC.Coding.value, codSGLN, Epc.SGLN.Coding.value, codGRAI, Epc.GRAI.Coding.value, codGIAI, Epc.GIAI.Coding.value, codGSRN, Epc.GSRN.Coding.value, codGSRNP, Epc.GSRNP.Coding.value, codGDTI, Epc.GDTI.Coding.value, codCPI, Epc.CPI.Coding.value, codSGCN, Epc.SGCN.Coding.value, codITIP, Epc.ITIP.Coding.value, codGID, Epc.GID.Coding.value, codUSDOD, Epc.USDOD.Coding.value, codADI, Epc.ADI.Coding.value, Epc.CPI.Coding.header, cpi_bad96, cpi_badVar]
  rename_i hn
  rw [Bool.not_eq_true] at hn
  rw [hn, Bool.false_or]

theorem any_CPI_binary (n : Nat) (x : Epc.CPI) (cs : AnyCoding) (f : Fin 64) (o : Cl) (e m : Nm) (nm : Str) :
    (level (n + 10)).app (.bound CPI.binary (objCPI x)) [] [(.binary_coding_scheme, codAny cs), (.filter_value, .member o e m nm (filterStr f))] =
      (lift (x.binaryAny cs f)).map .str := by
  rw [app_bound]
  rcases cs with cs | cs | cs | cs | cs | cs | cs | cs | cs | cs | cs | cs | cs | cs <;> cases cs
  all_goals exe [CPI.binary, Epc.CPI.binaryAny, objCPI, tagAttrs, del, codAny, AnyCoding.value, codSGTIN, Epc.SGTIN.Coding.value, codSSCC, Epc.SSCC.Coding.value, codSGLN, Epc.SGLN.Coding.value, codGRAI, Epc.GRAI.Coding.value, codGIAI, Epc.GIAI.Coding.value, codGSRN, Epc.GSRN.Coding.value, codGSRNP, Epc.GSRNP.Coding.value, codGDTI, Epc.GDTI.Coding.value, codCPI, Epc.CPI.Coding.value, codSGCN, Epc.SGCN.Coding.value, codITIP, Epc.ITIP.Coding.value, codGID, Epc.GID.Coding.value, codUSDOD, Epc.USDOD.Coding.value, codADI, Epc.ADI.Coding.value, Epc.CPI.Coding.header]
  all_goals rfl

theorem any_CPI_hex (n : Nat) (x : Epc.CPI) (cs : AnyCoding) (f : Fin 64) (o : Cl) (e m : Nm) (nm : Str) :
    (level (n + 11)).app (.bound TagEncodable.hex (objCPI x)) [] [(.binary_coding_scheme, codAny cs), (.filter_value, .member o e m nm (filterStr f))] =
      (lift (x.hexAny cs f)).map .str :=
  sem_hex n (fun _ => rfl) rfl (any_CPI_binary n x cs f o e m nm)

theorem any_CPI_base64 (n : Nat) (x : Epc.CPI) (cs : AnyCoding) (f : Fin 64) (o : Cl) (e m : Nm) (nm : Str) :
    (level (n + 12)).app (.bound TagEncodable.base64 (objCPI x)) [] [(.binary_coding_scheme, codAny cs), (.filter_value, .member o e m nm (filterStr f))] =
      (lift (x.base64Any cs f)).map .str :=
  sem_base64 n (fun _ => rfl) rfl (any_CPI_hex n x cs f o e m nm)

end Epc.Src
