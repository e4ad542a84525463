/-
/repo/epcpy/epc_schemes/sscc.py
-/
import Verif.Refine.Base
import Verif.Model.Sscc
set_option linter.unusedSimpArgs false

namespace Epc.Src
open Epc.Spec

theorem sem_SSCC (n : Nat) (u : Str) : (level (n + 10)).app (.cls .SSCC) [.str u] [] = (lift (Epc.SSCC.new u)).map objSSCC := by
  rw [app_cls (by rw [mro_SSCC, chain_SSCC]) rfl (by decide)]
  exe [runInit, SSCC.__init__, Epc.SSCC.new, init_TagKeyed, objSSCC, tagAttrs, sscc.SSCC_URI_REGEX]

theorem sem_SSCC_gs1_key (n : Nat) (x : Epc.SSCC) :
    (level (n + 10)).app (.bound SSCC.gs1_key (objSSCC x)) [] [] = .ok (.str x.gs1Key) := rfl

theorem sem_SSCC_gs1_element_string (n : Nat) (x : Epc.SSCC) :
    (level (n + 10)).app (.bound SSCC.gs1_element_string (objSSCC x)) [] [] = (lift x.gs1ElementString).map .str := by
  rw [app_bound]
  exe [SSCC.gs1_element_string, Epc.SSCC.gs1ElementString, objSSCC, tagAttrs]

theorem sem_SSCC_from_gs1_element_string (n : Nat) (s : Str) (k : Int) :
    (level (n + 11)).app (.bound SSCC.from_gs1_element_string (.cls .SSCC)) [.str s, .int k] [] =
      (lift (Epc.SSCC.fromGs1ElementString s k)).map objSSCC := by
  rw [app_bound]
  exe [SSCC.from_gs1_element_string, Epc.SSCC.fromGs1ElementString, sem_SSCC]

@[src high] theorem tableP_SSCC (n : Nat) : (level (n + 3)).const .sscc [] sscc.PARTITION_TABLE_P = .ok (tableP Epc.SSCC.table) := rfl

@[src high] theorem tableL_SSCC (n : Nat) : (level (n + 3)).const .sscc [] sscc.PARTITION_TABLE_L = .ok (tableL Epc.SSCC.table) := rfl

theorem sem_SSCC_tag_uri (n : Nat) (x : Epc.SSCC) (cs : Epc.SSCC.Coding) (f : Fin 8) (o : Cl) (e m : Nm) (nm : Str) :
    (level (n + 10)).app (.bound SSCC.tag_uri (objSSCC x)) [] [(.binary_coding_scheme, codSSCC cs), (.filter_value, .member o e m nm (filterStr f))] =
      (lift (x.tagUri cs f)).map .str := by
  rw [app_bound]
  cases cs
  all_goals exe [SSCC.tag_uri, Epc.SSCC.tagUri, objSSCC, tagAttrs, codSSCC, Epc.SSCC.Coding.value, Epc.SSCC.Coding.header, del]

theorem sem_SSCC_binary (n : Nat) (x : Epc.SSCC) (cs : Epc.SSCC.Coding) (f : Fin 8) (o : Cl) (e m : Nm) (nm : Str) :
    (level (n + 10)).app (.bound SSCC.binary (objSSCC x)) [] [(.binary_coding_scheme, codSSCC cs), (.filter_value, .member o e m nm (filterStr f))] =
      (lift (x.binary cs f)).map .str := by
  rw [app_bound]
  cases cs
  all_goals exe [SSCC.binary, Epc.SSCC.binary, objSSCC, tagAttrs, codSSCC, Epc.SSCC.Coding.value, Epc.SSCC.Coding.header, del]

theorem sem_SSCC_headers (n : Nat) : (level (n + 4)).app (.bound TagEncodable.header_to_schemes (.cls .SSCC)) [] [] =
    .ok (.dict (Epc.SSCC.headers.map (fun p => (.str p.1, codSSCC p.2)))) := rfl

theorem parse_SSCC (n : Nat) (b : Str) :
    (level (n + 2)).app (.func common.parse_header_and_truncate_binary) [.str b, .dict (Epc.SSCC.headers.map (fun p => (.str p.1, codSSCC p.2)))] [] =
      (lift (parseHeader Epc.SSCC.headers Epc.SSCC.Coding.value b)).map (fun r => .list [codSSCC r.1, .str r.2]) :=
  sem_parse_header n codSSCC _ (by intro k; cases k <;> exact ⟨_, _, _, _, rfl⟩) _ b

theorem sem_SSCC_from_tag_uri (n : Nat) (t : Str) :
    (level (n + 11)).app (.bound TagEncodable.from_tag_uri (.cls .SSCC)) [.str t] [] = (lift (Epc.SSCC.fromTagUri t)).map objSSCC := by
  rw [from_tag_uri_default, sem_from_tag_uri n .SSCC (fun u => sem_SSCC n u), Epc.SSCC.fromTagUri]

theorem sem_SSCC_from_binary (n : Nat) (b : Str) :
    (level (n + 14)).app (.bound SSCC.from_binary (.cls .SSCC)) [.str b] [] = (lift (Epc.SSCC.fromBinary b)).map objSSCC := by
  rw [app_bound]
  run [SSCC.from_binary, Epc.SSCC.fromBinary, sem_SSCC_headers, parse_SSCC]
  refine same_step2 fun cs b _ => ?_
  cases cs
  all_goals exe [codSSCC, Epc.SSCC.Coding.value, Epc.SSCC.Coding.header, binIntStr, sem_SSCC_from_tag_uri]

theorem sem_SSCC_hex (n : Nat) (x : Epc.SSCC) (cs : Epc.SSCC.Coding) (f : Fin 8) (o : Cl) (e m : Nm) (nm : Str) :
    (level (n + 11)).app (.bound TagEncodable.hex (objSSCC x)) [] [(.binary_coding_scheme, codSSCC cs), (.filter_value, .member o e m nm (filterStr f))] =
      (lift (x.hex cs f)).map .str := sem_hex n (fun _ => rfl) rfl (sem_SSCC_binary n x cs f o e m nm)

theorem sem_SSCC_base64 (n : Nat) (x : Epc.SSCC) (cs : Epc.SSCC.Coding) (f : Fin 8) (o : Cl) (e m : Nm) (nm : Str) :
    (level (n + 12)).app (.bound TagEncodable.base64 (objSSCC x)) [] [(.binary_coding_scheme, codSSCC cs), (.filter_value, .member o e m nm (filterStr f))] =
      (lift (x.base64 cs f)).map .str := sem_base64 n (fun _ => rfl) rfl (sem_SSCC_hex n x cs f o e m nm)

theorem sem_SSCC_from_hex (n : Nat) (s : Str) :
    (level (n + 15)).app (.bound TagEncodable.from_hex (.cls .SSCC)) [.str s] [] = (lift (Epc.SSCC.fromHex s)).map objSSCC :=
  sem_from_hex n (fun _ => rfl) (sem_SSCC_from_binary n) s

theorem sem_SSCC_from_base64 (n : Nat) (s : Str) :
    (level (n + 16)).app (.bound TagEncodable.from_base64 (.cls .SSCC)) [.str s] [] = (lift (Epc.SSCC.fromBase64 s)).map objSSCC :=
  sem_from_base64 n (fun _ => rfl) (sem_SSCC_from_hex n) s

end Epc.Src
