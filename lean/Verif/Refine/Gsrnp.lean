/-
/repo/epcpy/epc_schemes/gsrnp.py
-/
import Verif.Refine.Base
import Verif.Model.Gsrnp
set_option linter.unusedSimpArgs false

namespace Epc.Src
open Epc.Spec

theorem sem_GSRNP (n : Nat) (u : Str) : (level (n + 10)).app (.cls .GSRNP) [.str u] [] = (lift (Epc.GSRNP.new u)).map objGSRNP := by
  rw [app_cls (by rw [mro_GSRNP, chain_GSRNP]) rfl (by decide)]
  exe [runInit, GSRNP.__init__, Epc.GSRNP.new, init_TagKeyed, objGSRNP, tagAttrs, gsrnp.GSRNP_URI_REGEX]

theorem sem_GSRNP_gs1_key (n : Nat) (x : Epc.GSRNP) :
    (level (n + 10)).app (.bound GSRNP.gs1_key (objGSRNP x)) [] [] = .ok (.str x.gs1Key) := rfl

theorem sem_GSRNP_gs1_element_string (n : Nat) (x : Epc.GSRNP) :
    (level (n + 10)).app (.bound GSRNP.gs1_element_string (objGSRNP x)) [] [] = (lift x.gs1ElementString).map .str := by
  rw [app_bound]
  exe [GSRNP.gs1_element_string, Epc.GSRNP.gs1ElementString, objGSRNP, tagAttrs]

theorem sem_GSRNP_from_gs1_element_string (n : Nat) (s : Str) (k : Int) :
    (level (n + 11)).app (.bound GSRNP.from_gs1_element_string (.cls .GSRNP)) [.str s, .int k] [] =
      (lift (Epc.GSRNP.fromGs1ElementString s k)).map objGSRNP := by
  rw [app_bound]
  exe [GSRNP.from_gs1_element_string, Epc.GSRNP.fromGs1ElementString, sem_GSRNP]

@[src high] theorem tableP_GSRNP (n : Nat) : (level (n + 3)).const .gsrnp [] gsrnp.PARTITION_TABLE_P = .ok (tableP Epc.GSRNP.table) := rfl

@[src high] theorem tableL_GSRNP (n : Nat) : (level (n + 3)).const .gsrnp [] gsrnp.PARTITION_TABLE_L = .ok (tableL Epc.GSRNP.table) := rfl

theorem sem_GSRNP_tag_uri (n : Nat) (x : Epc.GSRNP) (cs : Epc.GSRNP.Coding) (f : Fin 8) (o : Cl) (e m : Nm) (nm : Str) :
    (level (n + 10)).app (.bound GSRNP.tag_uri (objGSRNP x)) [] [(.binary_coding_scheme, codGSRNP cs), (.filter_value, .member o e m nm (filterStr f))] =
      (lift (x.tagUri cs f)).map .str := by
  rw [app_bound]
  cases cs
  all_goals exe [GSRNP.tag_uri, Epc.GSRNP.tagUri, objGSRNP, tagAttrs, codGSRNP, Epc.GSRNP.Coding.value, Epc.GSRNP.Coding.header, del]

theorem sem_GSRNP_binary (n : Nat) (x : Epc.GSRNP) (cs : Epc.GSRNP.Coding) (f : Fin 8) (o : Cl) (e m : Nm) (nm : Str) :
    (level (n + 10)).app (.bound GSRNP.binary (objGSRNP x)) [] [(.binary_coding_scheme, codGSRNP cs), (.filter_value, .member o e m nm (filterStr f))] =
      (lift (x.binary cs f)).map .str := by
  rw [app_bound]
  cases cs
  all_goals exe [GSRNP.binary, Epc.GSRNP.binary, objGSRNP, tagAttrs, codGSRNP, Epc.GSRNP.Coding.value, Epc.GSRNP.Coding.header, del]

theorem sem_GSRNP_headers (n : Nat) : (level (n + 4)).app (.bound TagEncodable.header_to_schemes (.cls .GSRNP)) [] [] =
    .ok (.dict (Epc.GSRNP.headers.map (fun p => (.str p.1, codGSRNP p.2)))) := rfl

theorem parse_GSRNP (n : Nat) (b : Str) :
    (level (n + 2)).app (.func common.parse_header_and_truncate_binary) [.str b, .dict (Epc.GSRNP.headers.map (fun p => (.str p.1, codGSRNP p.2)))] [] =
      (lift (parseHeader Epc.GSRNP.headers Epc.GSRNP.Coding.value b)).map (fun r => .list [codGSRNP r.1, .str r.2]) :=
  sem_parse_header n codGSRNP _ (by intro k; cases k <;> exact ⟨_, _, _, _, rfl⟩) _ b

theorem sem_GSRNP_from_tag_uri (n : Nat) (t : Str) :
    (level (n + 11)).app (.bound TagEncodable.from_tag_uri (.cls .GSRNP)) [.str t] [] = (lift (Epc.GSRNP.fromTagUri t)).map objGSRNP := by
  rw [from_tag_uri_default, sem_from_tag_uri n .GSRNP (fun u => sem_GSRNP n u), Epc.GSRNP.fromTagUri]

theorem sem_GSRNP_from_binary (n : Nat) (b : Str) :
    (level (n + 14)).app (.bound GSRNP.from_binary (.cls .GSRNP)) [.str b] [] = (lift (Epc.GSRNP.fromBinary b)).map objGSRNP := by
  rw [app_bound]
  run [GSRNP.from_binary, Epc.GSRNP.fromBinary, sem_GSRNP_headers, parse_GSRNP]
  refine same_step2 fun cs b _ => ?_
  cases cs
  all_goals exe [codGSRNP, Epc.GSRNP.Coding.value, Epc.GSRNP.Coding.header, binIntStr, sem_GSRNP_from_tag_uri]

theorem sem_GSRNP_hex (n : Nat) (x : Epc.GSRNP) (cs : Epc.GSRNP.Coding) (f : Fin 8) (o : Cl) (e m : Nm) (nm : Str) :
    (level (n + 11)).app (.bound TagEncodable.hex (objGSRNP x)) [] [(.binary_coding_scheme, codGSRNP cs), (.filter_value, .member o e m nm (filterStr f))] =
      (lift (x.hex cs f)).map .str := sem_hex n (fun _ => rfl) rfl (sem_GSRNP_binary n x cs f o e m nm)

theorem sem_GSRNP_base64 (n : Nat) (x : Epc.GSRNP) (cs : Epc.GSRNP.Coding) (f : Fin 8) (o : Cl) (e m : Nm) (nm : Str) :
    (level (n + 12)).app (.bound TagEncodable.base64 (objGSRNP x)) [] [(.binary_coding_scheme, codGSRNP cs), (.filter_value, .member o e m nm (filterStr f))] =
      (lift (x.base64 cs f)).map .str := sem_base64 n (fun _ => rfl) rfl (sem_GSRNP_hex n x cs f o e m nm)

theorem sem_GSRNP_from_hex (n : Nat) (s : Str) :
    (level (n + 15)).app (.bound TagEncodable.from_hex (.cls .GSRNP)) [.str s] [] = (lift (Epc.GSRNP.fromHex s)).map objGSRNP :=
  sem_from_hex n (fun _ => rfl) (sem_GSRNP_from_binary n) s

theorem sem_GSRNP_from_base64 (n : Nat) (s : Str) :
    (level (n + 16)).app (.bound TagEncodable.from_base64 (.cls .GSRNP)) [.str s] [] = (lift (Epc.GSRNP.fromBase64 s)).map objGSRNP :=
  sem_from_base64 n (fun _ => rfl) (sem_GSRNP_from_hex n) s

end Epc.Src
