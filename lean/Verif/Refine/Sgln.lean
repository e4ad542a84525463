/-
/repo/epcpy/epc_schemes/sgln.py
-/
import Verif.Refine.Base
import Verif.Model.Sgln
set_option linter.unusedSimpArgs false

namespace Epc.Src
open Epc.Spec

theorem sem_SGLN (n : Nat) (u : Str) : (level (n + 10)).app (.cls .SGLN) [.str u] [] = (lift (Epc.SGLN.new u)).map objSGLN := by
  rw [app_cls (by rw [mro_SGLN, chain_SGLN]) rfl (by decide)]
  exe [runInit, SGLN.__init__, Epc.SGLN.new, init_TagKeyed, objSGLN, tagAttrs, sgln.SGLN_URI_REGEX]

theorem sem_SGLN_gs1_key (n : Nat) (x : Epc.SGLN) :
    (level (n + 10)).app (.bound SGLN.gs1_key (objSGLN x)) [] [] = .ok (.str x.gs1Key) := rfl

theorem sem_SGLN_gs1_element_string (n : Nat) (x : Epc.SGLN) :
    (level (n + 10)).app (.bound SGLN.gs1_element_string (objSGLN x)) [] [] = (lift x.gs1ElementString).map .str := by
  rw [app_bound]
  exe [SGLN.gs1_element_string, Epc.SGLN.gs1ElementString, objSGLN, tagAttrs]

theorem sem_SGLN_from_gs1_element_string (n : Nat) (s : Str) (k : Int) :
    (level (n + 11)).app (.bound SGLN.from_gs1_element_string (.cls .SGLN)) [.str s, .int k] [] =
      (lift (Epc.SGLN.fromGs1ElementString s k)).map objSGLN := by
  rw [app_bound]
  exe [SGLN.from_gs1_element_string, Epc.SGLN.fromGs1ElementString, sem_SGLN]

@[src high] theorem tableP_SGLN (n : Nat) : (level (n + 3)).const .sgln [] sgln.PARTITION_TABLE_P = .ok (tableP Epc.SGLN.table) := rfl

@[src high] theorem tableL_SGLN (n : Nat) : (level (n + 3)).const .sgln [] sgln.PARTITION_TABLE_L = .ok (tableL Epc.SGLN.table) := rfl

theorem sem_SGLN_tag_uri (n : Nat) (x : Epc.SGLN) (cs : Epc.SGLN.Coding) (f : Fin 8) (o : Cl) (e m : Nm) (nm : Str) :
    (level (n + 10)).app (.bound SGLN.tag_uri (objSGLN x)) [] [(.binary_coding_scheme, codSGLN cs), (.filter_value, .member o e m nm (filterStr f))] =
      (lift (x.tagUri cs f)).map .str := by
  rw [app_bound]
  cases cs
  all_goals exe [SGLN.tag_uri, Epc.SGLN.tagUri, objSGLN, tagAttrs, codSGLN, Epc.SGLN.Coding.value, Epc.SGLN.Coding.header, del, Epc.SGLN.badSerial]

theorem sem_SGLN_binary (n : Nat) (x : Epc.SGLN) (cs : Epc.SGLN.Coding) (f : Fin 8) (o : Cl) (e m : Nm) (nm : Str) :
    (level (n + 10)).app (.bound SGLN.binary (objSGLN x)) [] [(.binary_coding_scheme, codSGLN cs), (.filter_value, .member o e m nm (filterStr f))] =
      (lift (x.binary cs f)).map .str := by
  rw [app_bound]
  cases cs
  all_goals exe [SGLN.binary, Epc.SGLN.binary, objSGLN, tagAttrs, codSGLN, Epc.SGLN.Coding.value, Epc.SGLN.Coding.header, del]

theorem sem_SGLN_headers (n : Nat) : (level (n + 4)).app (.bound TagEncodable.header_to_schemes (.cls .SGLN)) [] [] =
    .ok (.dict (Epc.SGLN.headers.map (fun p => (.str p.1, codSGLN p.2)))) := rfl

theorem parse_SGLN (n : Nat) (b : Str) :
    (level (n + 2)).app (.func common.parse_header_and_truncate_binary) [.str b, .dict (Epc.SGLN.headers.map (fun p => (.str p.1, codSGLN p.2)))] [] =
      (lift (parseHeader Epc.SGLN.headers Epc.SGLN.Coding.value b)).map (fun r => .list [codSGLN r.1, .str r.2]) :=
  sem_parse_header n codSGLN _ (by intro k; cases k <;> exact ⟨_, _, _, _, rfl⟩) _ b

theorem sem_SGLN_from_tag_uri (n : Nat) (t : Str) :
    (level (n + 11)).app (.bound TagEncodable.from_tag_uri (.cls .SGLN)) [.str t] [] = (lift (Epc.SGLN.fromTagUri t)).map objSGLN := by
  rw [from_tag_uri_default, sem_from_tag_uri n .SGLN (fun u => sem_SGLN n u), Epc.SGLN.fromTagUri]

theorem sem_SGLN_from_binary (n : Nat) (b : Str) :
    (level (n + 14)).app (.bound SGLN.from_binary (.cls .SGLN)) [.str b] [] = (lift (Epc.SGLN.fromBinary b)).map objSGLN := by
  rw [app_bound]
  run [SGLN.from_binary, Epc.SGLN.fromBinary, sem_SGLN_headers, parse_SGLN]
  refine same_step2 fun cs b _ => ?_
  cases cs
  all_goals exe [codSGLN, Epc.SGLN.Coding.value, Epc.SGLN.Coding.header, binIntStr, sem_SGLN_from_tag_uri]

theorem sem_SGLN_hex (n : Nat) (x : Epc.SGLN) (cs : Epc.SGLN.Coding) (f : Fin 8) (o : Cl) (e m : Nm) (nm : Str) :
    (level (n + 11)).app (.bound TagEncodable.hex (objSGLN x)) [] [(.binary_coding_scheme, codSGLN cs), (.filter_value, .member o e m nm (filterStr f))] =
      (lift (x.hex cs f)).map .str := sem_hex n (fun _ => rfl) rfl (sem_SGLN_binary n x cs f o e m nm)

theorem sem_SGLN_base64 (n : Nat) (x : Epc.SGLN) (cs : Epc.SGLN.Coding) (f : Fin 8) (o : Cl) (e m : Nm) (nm : Str) :
    (level (n + 12)).app (.bound TagEncodable.base64 (objSGLN x)) [] [(.binary_coding_scheme, codSGLN cs), (.filter_value, .member o e m nm (filterStr f))] =
      (lift (x.base64 cs f)).map .str := sem_base64 n (fun _ => rfl) rfl (sem_SGLN_hex n x cs f o e m nm)

theorem sem_SGLN_from_hex (n : Nat) (s : Str) :
    (level (n + 15)).app (.bound TagEncodable.from_hex (.cls .SGLN)) [.str s] [] = (lift (Epc.SGLN.fromHex s)).map objSGLN :=
  sem_from_hex n (fun _ => rfl) (sem_SGLN_from_binary n) s

theorem sem_SGLN_from_base64 (n : Nat) (s : Str) :
    (level (n + 16)).app (.bound TagEncodable.from_base64 (.cls .SGLN)) [.str s] [] = (lift (Epc.SGLN.fromBase64 s)).map objSGLN :=
  sem_from_base64 n (fun _ => rfl) (sem_SGLN_from_hex n) s

end Epc.Src
