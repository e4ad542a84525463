/-
/repo/epcpy/epc_schemes/sgcn.py
-/
import Verif.Refine.Base
import Verif.Model.Sgcn
set_option linter.unusedSimpArgs false

namespace Epc.Src
open Epc.Spec

theorem sem_SGCN (n : Nat) (u : Str) : (level (n + 10)).app (.cls .SGCN) [.str u] [] = (lift (Epc.SGCN.new u)).map objSGCN := by
  rw [app_cls (by rw [mro_SGCN, chain_SGCN]) rfl (by decide)]
  exe [runInit, SGCN.__init__, Epc.SGCN.new, init_TagKeyed, objSGCN, tagAttrs, sgcn.SGCN_URI_REGEX]

theorem sem_SGCN_gs1_key (n : Nat) (x : Epc.SGCN) :
    (level (n + 10)).app (.bound SGCN.gs1_key (objSGCN x)) [] [] = .ok (.str x.gs1Key) := rfl

theorem sem_SGCN_gs1_element_string (n : Nat) (x : Epc.SGCN) :
    (level (n + 10)).app (.bound SGCN.gs1_element_string (objSGCN x)) [] [] = (lift x.gs1ElementString).map .str := by
  rw [app_bound]
  exe [SGCN.gs1_element_string, Epc.SGCN.gs1ElementString, objSGCN, tagAttrs]

theorem sem_SGCN_from_gs1_element_string (n : Nat) (s : Str) (k : Int) :
    (level (n + 11)).app (.bound SGCN.from_gs1_element_string (.cls .SGCN)) [.str s, .int k] [] =
      (lift (Epc.SGCN.fromGs1ElementString s k)).map objSGCN := by
  rw [app_bound]
  exe [SGCN.from_gs1_element_string, Epc.SGCN.fromGs1ElementString, sem_SGCN]

@[src high] theorem tableP_SGCN (n : Nat) : (level (n + 3)).const .sgcn [] sgcn.PARTITION_TABLE_P = .ok (tableP Epc.SGCN.table) := rfl

@[src high] theorem tableL_SGCN (n : Nat) : (level (n + 3)).const .sgcn [] sgcn.PARTITION_TABLE_L = .ok (tableL Epc.SGCN.table) := rfl

theorem sem_SGCN_tag_uri (n : Nat) (x : Epc.SGCN) (cs : Epc.SGCN.Coding) (f : Fin 8) (o : Cl) (e m : Nm) (nm : Str) :
    (level (n + 10)).app (.bound SGCN.tag_uri (objSGCN x)) [] [(.binary_coding_scheme, codSGCN cs), (.filter_value, .member o e m nm (filterStr f))] =
      (lift (x.tagUri cs f)).map .str := by
  rw [app_bound]
  cases cs
  all_goals exe [SGCN.tag_uri, Epc.SGCN.tagUri, objSGCN, tagAttrs, codSGCN, Epc.SGCN.Coding.value, Epc.SGCN.Coding.header, del]

theorem sem_SGCN_binary (n : Nat) (x : Epc.SGCN) (cs : Epc.SGCN.Coding) (f : Fin 8) (o : Cl) (e m : Nm) (nm : Str) :
    (level (n + 10)).app (.bound SGCN.binary (objSGCN x)) [] [(.binary_coding_scheme, codSGCN cs), (.filter_value, .member o e m nm (filterStr f))] =
      (lift (x.binary cs f)).map .str := by
  rw [app_bound]
  cases cs
  all_goals exe [SGCN.binary, Epc.SGCN.binary, objSGCN, tagAttrs, codSGCN, Epc.SGCN.Coding.value, Epc.SGCN.Coding.header, del]

theorem sem_SGCN_headers (n : Nat) : (level (n + 4)).app (.bound TagEncodable.header_to_schemes (.cls .SGCN)) [] [] =
    .ok (.dict (Epc.SGCN.headers.map (fun p => (.str p.1, codSGCN p.2)))) := rfl

theorem parse_SGCN (n : Nat) (b : Str) :
    (level (n + 2)).app (.func common.parse_header_and_truncate_binary) [.str b, .dict (Epc.SGCN.headers.map (fun p => (.str p.1, codSGCN p.2)))] [] =
      (lift (parseHeader Epc.SGCN.headers Epc.SGCN.Coding.value b)).map (fun r => .list [codSGCN r.1, .str r.2]) :=
  sem_parse_header n codSGCN _ (by intro k; cases k <;> exact ⟨_, _, _, _, rfl⟩) _ b

theorem sem_SGCN_from_tag_uri (n : Nat) (t : Str) :
    (level (n + 11)).app (.bound TagEncodable.from_tag_uri (.cls .SGCN)) [.str t] [] = (lift (Epc.SGCN.fromTagUri t)).map objSGCN := by
  rw [from_tag_uri_default, sem_from_tag_uri n .SGCN (fun u => sem_SGCN n u), Epc.SGCN.fromTagUri]

theorem sem_SGCN_from_binary (n : Nat) (b : Str) :
    (level (n + 14)).app (.bound SGCN.from_binary (.cls .SGCN)) [.str b] [] = (lift (Epc.SGCN.fromBinary b)).map objSGCN := by
  rw [app_bound]
  run [SGCN.from_binary, Epc.SGCN.fromBinary, sem_SGCN_headers, parse_SGCN]
  refine same_step2 fun cs b _ => ?_
  cases cs
  all_goals exe [codSGCN, Epc.SGCN.Coding.value, Epc.SGCN.Coding.header, binIntStr, sem_SGCN_from_tag_uri]

theorem sem_SGCN_hex (n : Nat) (x : Epc.SGCN) (cs : Epc.SGCN.Coding) (f : Fin 8) (o : Cl) (e m : Nm) (nm : Str) :
    (level (n + 11)).app (.bound TagEncodable.hex (objSGCN x)) [] [(.binary_coding_scheme, codSGCN cs), (.filter_value, .member o e m nm (filterStr f))] =
      (lift (x.hex cs f)).map .str := sem_hex n (fun _ => rfl) rfl (sem_SGCN_binary n x cs f o e m nm)

theorem sem_SGCN_base64 (n : Nat) (x : Epc.SGCN) (cs : Epc.SGCN.Coding) (f : Fin 8) (o : Cl) (e m : Nm) (nm : Str) :
    (level (n + 12)).app (.bound TagEncodable.base64 (objSGCN x)) [] [(.binary_coding_scheme, codSGCN cs), (.filter_value, .member o e m nm (filterStr f))] =
      (lift (x.base64 cs f)).map .str := sem_base64 n (fun _ => rfl) rfl (sem_SGCN_hex n x cs f o e m nm)

theorem sem_SGCN_from_hex (n : Nat) (s : Str) :
    (level (n + 15)).app (.bound TagEncodable.from_hex (.cls .SGCN)) [.str s] [] = (lift (Epc.SGCN.fromHex s)).map objSGCN :=
  sem_from_hex n (fun _ => rfl) (sem_SGCN_from_binary n) s

theorem sem_SGCN_from_base64 (n : Nat) (s : Str) :
    (level (n + 16)).app (.bound TagEncodable.from_base64 (.cls .SGCN)) [.str s] [] = (lift (Epc.SGCN.fromBase64 s)).map objSGCN :=
  sem_from_base64 n (fun _ => rfl) (sem_SGCN_from_hex n) s

end Epc.Src
