/-
/repo/epcpy/epc_schemes/gsrn.py
-/
import Verif.Refine.Base
import Verif.Model.Gsrn
set_option linter.unusedSimpArgs false

namespace Epc.Src
open Epc.Spec

theorem sem_GSRN (n : Nat) (u : Str) : (level (n + 10)).app (.cls .GSRN) [.str u] [] = (lift (Epc.GSRN.new u)).map objGSRN := by
  rw [app_cls (by rw [mro_GSRN, chain_GSRN]) rfl (by decide)]
  exe [runInit, GSRN.__init__, Epc.GSRN.new, init_TagKeyed, objGSRN, tagAttrs, gsrn.GSRN_URI_REGEX]

theorem sem_GSRN_gs1_key (n : Nat) (x : Epc.GSRN) :
    (level (n + 10)).app (.bound GSRN.gs1_key (objGSRN x)) [] [] = .ok (.str x.gs1Key) := rfl

theorem sem_GSRN_gs1_element_string (n : Nat) (x : Epc.GSRN) :
    (level (n + 10)).app (.bound GSRN.gs1_element_string (objGSRN x)) [] [] = (lift x.gs1ElementString).map .str := by
  rw [app_bound]
  exe [GSRN.gs1_element_string, Epc.GSRN.gs1ElementString, objGSRN, tagAttrs]

theorem sem_GSRN_from_gs1_element_string (n : Nat) (s : Str) (k : Int) :
    (level (n + 11)).app (.bound GSRN.from_gs1_element_string (.cls .GSRN)) [.str s, .int k] [] =
      (lift (Epc.GSRN.fromGs1ElementString s k)).map objGSRN := by
  rw [app_bound]
  exe [GSRN.from_gs1_element_string, Epc.GSRN.fromGs1ElementString, sem_GSRN]

@[src high] theorem tableP_GSRN (n : Nat) : (level (n + 3)).const .gsrn [] gsrn.PARTITION_TABLE_P = .ok (tableP Epc.GSRN.table) := rfl

@[src high] theorem tableL_GSRN (n : Nat) : (level (n + 3)).const .gsrn [] gsrn.PARTITION_TABLE_L = .ok (tableL Epc.GSRN.table) := rfl

theorem sem_GSRN_tag_uri (n : Nat) (x : Epc.GSRN) (cs : Epc.GSRN.Coding) (f : Fin 8) (o : Cl) (e m : Nm) (nm : Str) :
    (level (n + 10)).app (.bound GSRN.tag_uri (objGSRN x)) [] [(.binary_coding_scheme, codGSRN cs), (.filter_value, .member o e m nm (filterStr f))] =
      (lift (x.tagUri cs f)).map .str := by
  rw [app_bound]
  cases cs
  all_goals exe [GSRN.tag_uri, Epc.GSRN.tagUri, objGSRN, tagAttrs, codGSRN, Epc.GSRN.Coding.value, Epc.GSRN.Coding.header, del]

theorem sem_GSRN_binary (n : Nat) (x : Epc.GSRN) (cs : Epc.GSRN.Coding) (f : Fin 8) (o : Cl) (e m : Nm) (nm : Str) :
    (level (n + 10)).app (.bound GSRN.binary (objGSRN x)) [] [(.binary_coding_scheme, codGSRN cs), (.filter_value, .member o e m nm (filterStr f))] =
      (lift (x.binary cs f)).map .str := by
  rw [app_bound]
  cases cs
  all_goals exe [GSRN.binary, Epc.GSRN.binary, objGSRN, tagAttrs, codGSRN, Epc.GSRN.Coding.value, Epc.GSRN.Coding.header, del]

theorem sem_GSRN_headers (n : Nat) : (level (n + 4)).app (.bound TagEncodable.header_to_schemes (.cls .GSRN)) [] [] =
    .ok (.dict (Epc.GSRN.headers.map (fun p => (.str p.1, codGSRN p.2)))) := rfl

theorem parse_GSRN (n : Nat) (b : Str) :
    (level (n + 2)).app (.func common.parse_header_and_truncate_binary) [.str b, .dict (Epc.GSRN.headers.map (fun p => (.str p.1, codGSRN p.2)))] [] =
      (lift (parseHeader Epc.GSRN.headers Epc.GSRN.Coding.value b)).map (fun r => .list [codGSRN r.1, .str r.2]) :=
  sem_parse_header n codGSRN _ (by intro k; cases k <;> exact ⟨_, _, _, _, rfl⟩) _ b

theorem sem_GSRN_from_tag_uri (n : Nat) (t : Str) :
    (level (n + 11)).app (.bound TagEncodable.from_tag_uri (.cls .GSRN)) [.str t] [] = (lift (Epc.GSRN.fromTagUri t)).map objGSRN := by
  rw [from_tag_uri_default, sem_from_tag_uri n .GSRN (fun u => sem_GSRN n u), Epc.GSRN.fromTagUri]

theorem sem_GSRN_from_binary (n : Nat) (b : Str) :
    (level (n + 14)).app (.bound GSRN.from_binary (.cls .GSRN)) [.str b] [] = (lift (Epc.GSRN.fromBinary b)).map objGSRN := by
  rw [app_bound]
  run [GSRN.from_binary, Epc.GSRN.fromBinary, sem_GSRN_headers, parse_GSRN]
  refine same_step2 fun cs b _ => ?_
  cases cs
  all_goals exe [codGSRN, Epc.GSRN.Coding.value, Epc.GSRN.Coding.header, binIntStr, sem_GSRN_from_tag_uri]

theorem sem_GSRN_hex (n : Nat) (x : Epc.GSRN) (cs : Epc.GSRN.Coding) (f : Fin 8) (o : Cl) (e m : Nm) (nm : Str) :
    (level (n + 11)).app (.bound TagEncodable.hex (objGSRN x)) [] [(.binary_coding_scheme, codGSRN cs), (.filter_value, .member o e m nm (filterStr f))] =
      (lift (x.hex cs f)).map .str := sem_hex n (fun _ => rfl) rfl (sem_GSRN_binary n x cs f o e m nm)

theorem sem_GSRN_base64 (n : Nat) (x : Epc.GSRN) (cs : Epc.GSRN.Coding) (f : Fin 8) (o : Cl) (e m : Nm) (nm : Str) :
    (level (n + 12)).app (.bound TagEncodable.base64 (objGSRN x)) [] [(.binary_coding_scheme, codGSRN cs), (.filter_value, .member o e m nm (filterStr f))] =
      (lift (x.base64 cs f)).map .str := sem_base64 n (fun _ => rfl) rfl (sem_GSRN_hex n x cs f o e m nm)

theorem sem_GSRN_from_hex (n : Nat) (s : Str) :
    (level (n + 15)).app (.bound TagEncodable.from_hex (.cls .GSRN)) [.str s] [] = (lift (Epc.GSRN.fromHex s)).map objGSRN :=
  sem_from_hex n (fun _ => rfl) (sem_GSRN_from_binary n) s

theorem sem_GSRN_from_base64 (n : Nat) (s : Str) :
    (level (n + 16)).app (.bound TagEncodable.from_base64 (.cls .GSRN)) [.str s] [] = (lift (Epc.GSRN.fromBase64 s)).map objGSRN :=
  sem_from_base64 n (fun _ => rfl) (sem_GSRN_from_hex n) s

end Epc.Src
