/-
/repo/epcpy/epc_schemes/gdti.py
-/
import Verif.Refine.Base
import Verif.Model.Gdti
set_option linter.unusedSimpArgs false

namespace Epc.Src
open Epc.Spec

theorem sem_GDTI (n : Nat) (u : Str) : (level (n + 10)).app (.cls .GDTI) [.str u] [] = (lift (Epc.GDTI.new u)).map objGDTI := by
  rw [app_cls (by rw [mro_GDTI, chain_GDTI]) rfl (by decide)]
  exe [runInit, GDTI.__init__, Epc.GDTI.new, init_TagKeyed, objGDTI, tagAttrs, gdti.GDTI_URI_REGEX]

theorem sem_GDTI_gs1_key (n : Nat) (x : Epc.GDTI) :
    (level (n + 10)).app (.bound GDTI.gs1_key (objGDTI x)) [] [] = .ok (.str x.gs1Key) := rfl

theorem sem_GDTI_gs1_element_string (n : Nat) (x : Epc.GDTI) :
    (level (n + 10)).app (.bound GDTI.gs1_element_string (objGDTI x)) [] [] = (lift x.gs1ElementString).map .str := by
  rw [app_bound]
  exe [GDTI.gs1_element_string, Epc.GDTI.gs1ElementString, objGDTI, tagAttrs]

theorem sem_GDTI_from_gs1_element_string (n : Nat) (s : Str) (k : Int) :
    (level (n + 11)).app (.bound GDTI.from_gs1_element_string (.cls .GDTI)) [.str s, .int k] [] =
      (lift (Epc.GDTI.fromGs1ElementString s k)).map objGDTI := by
  rw [app_bound]
  exe [GDTI.from_gs1_element_string, Epc.GDTI.fromGs1ElementString, sem_GDTI]

@[src high] theorem tableP_GDTI (n : Nat) : (level (n + 3)).const .gdti [] gdti.PARTITION_TABLE_P = .ok (tableP Epc.GDTI.table) := rfl

@[src high] theorem tableL_GDTI (n : Nat) : (level (n + 3)).const .gdti [] gdti.PARTITION_TABLE_L = .ok (tableL Epc.GDTI.table) := rfl

theorem sem_GDTI_tag_uri (n : Nat) (x : Epc.GDTI) (cs : Epc.GDTI.Coding) (f : Fin 8) (o : Cl) (e m : Nm) (nm : Str) :
    (level (n + 10)).app (.bound GDTI.tag_uri (objGDTI x)) [] [(.binary_coding_scheme, codGDTI cs), (.filter_value, .member o e m nm (filterStr f))] =
      (lift (x.tagUri cs f)).map .str := by
  rw [app_bound]
  cases cs
  all_goals exe [GDTI.tag_uri, Epc.GDTI.tagUri, objGDTI, tagAttrs, codGDTI, Epc.GDTI.Coding.value, Epc.GDTI.Coding.header, del, Epc.GDTI.badSerial]

theorem sem_GDTI_binary (n : Nat) (x : Epc.GDTI) (cs : Epc.GDTI.Coding) (f : Fin 8) (o : Cl) (e m : Nm) (nm : Str) :
    (level (n + 10)).app (.bound GDTI.binary (objGDTI x)) [] [(.binary_coding_scheme, codGDTI cs), (.filter_value, .member o e m nm (filterStr f))] =
      (lift (x.binary cs f)).map .str := by
  rw [app_bound]
  cases cs
  all_goals exe [GDTI.binary, Epc.GDTI.binary, objGDTI, tagAttrs, codGDTI, Epc.GDTI.Coding.value, Epc.GDTI.Coding.header, del]

theorem sem_GDTI_headers (n : Nat) : (level (n + 4)).app (.bound TagEncodable.header_to_schemes (.cls .GDTI)) [] [] =
    .ok (.dict (Epc.GDTI.headers.map (fun p => (.str p.1, codGDTI p.2)))) := rfl

theorem parse_GDTI (n : Nat) (b : Str) :
    (level (n + 2)).app (.func common.parse_header_and_truncate_binary) [.str b, .dict (Epc.GDTI.headers.map (fun p => (.str p.1, codGDTI p.2)))] [] =
      (lift (parseHeader Epc.GDTI.headers Epc.GDTI.Coding.value b)).map (fun r => .list [codGDTI r.1, .str r.2]) :=
  sem_parse_header n codGDTI _ (by intro k; cases k <;> exact ⟨_, _, _, _, rfl⟩) _ b

theorem sem_GDTI_from_tag_uri (n : Nat) (t : Str) :
    (level (n + 11)).app (.bound TagEncodable.from_tag_uri (.cls .GDTI)) [.str t] [] = (lift (Epc.GDTI.fromTagUri t)).map objGDTI := by
  rw [from_tag_uri_default, sem_from_tag_uri n .GDTI (fun u => sem_GDTI n u), Epc.GDTI.fromTagUri]

theorem sem_GDTI_from_binary (n : Nat) (b : Str) :
    (level (n + 14)).app (.bound GDTI.from_binary (.cls .GDTI)) [.str b] [] = (lift (Epc.GDTI.fromBinary b)).map objGDTI := by
  rw [app_bound]
  run [GDTI.from_binary, Epc.GDTI.fromBinary, sem_GDTI_headers, parse_GDTI]
  refine same_step2 fun cs b _ => ?_
  cases cs
  all_goals exe [codGDTI, Epc.GDTI.Coding.value, Epc.GDTI.Coding.header, binIntStr, sem_GDTI_from_tag_uri]

theorem sem_GDTI_hex (n : Nat) (x : Epc.GDTI) (cs : Epc.GDTI.Coding) (f : Fin 8) (o : Cl) (e m : Nm) (nm : Str) :
    (level (n + 11)).app (.bound TagEncodable.hex (objGDTI x)) [] [(.binary_coding_scheme, codGDTI cs), (.filter_value, .member o e m nm (filterStr f))] =
      (lift (x.hex cs f)).map .str := sem_hex n (fun _ => rfl) rfl (sem_GDTI_binary n x cs f o e m nm)

theorem sem_GDTI_base64 (n : Nat) (x : Epc.GDTI) (cs : Epc.GDTI.Coding) (f : Fin 8) (o : Cl) (e m : Nm) (nm : Str) :
    (level (n + 12)).app (.bound TagEncodable.base64 (objGDTI x)) [] [(.binary_coding_scheme, codGDTI cs), (.filter_value, .member o e m nm (filterStr f))] =
      (lift (x.base64 cs f)).map .str := sem_base64 n (fun _ => rfl) rfl (sem_GDTI_hex n x cs f o e m nm)

theorem sem_GDTI_from_hex (n : Nat) (s : Str) :
    (level (n + 15)).app (.bound TagEncodable.from_hex (.cls .GDTI)) [.str s] [] = (lift (Epc.GDTI.fromHex s)).map objGDTI :=
  sem_from_hex n (fun _ => rfl) (sem_GDTI_from_binary n) s

theorem sem_GDTI_from_base64 (n : Nat) (s : Str) :
    (level (n + 16)).app (.bound TagEncodable.from_base64 (.cls .GDTI)) [.str s] [] = (lift (Epc.GDTI.fromBase64 s)).map objGDTI :=
  sem_from_base64 n (fun _ => rfl) (sem_GDTI_from_hex n) s

end Epc.Src
