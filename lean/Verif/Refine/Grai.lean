/-
/repo/epcpy/epc_schemes/grai.py
-/
import Verif.Refine.Base
import Verif.Model.Grai
set_option linter.unusedSimpArgs false

namespace Epc.Src
open Epc.Spec

theorem sem_GRAI (n : Nat) (u : Str) : (level (n + 10)).app (.cls .GRAI) [.str u] [] = (lift (Epc.GRAI.new u)).map objGRAI := by
  rw [app_cls (by rw [mro_GRAI, chain_GRAI]) rfl (by decide)]
  exe [runInit, GRAI.__init__, Epc.GRAI.new, init_TagKeyed, objGRAI, tagAttrs, grai.GRAI_URI_REGEX]

theorem sem_GRAI_gs1_key (n : Nat) (x : Epc.GRAI) :
    (level (n + 10)).app (.bound GRAI.gs1_key (objGRAI x)) [] [] = .ok (.str x.gs1Key) := rfl

theorem sem_GRAI_gs1_element_string (n : Nat) (x : Epc.GRAI) :
    (level (n + 10)).app (.bound GRAI.gs1_element_string (objGRAI x)) [] [] = (lift x.gs1ElementString).map .str := by
  rw [app_bound]
  exe [GRAI.gs1_element_string, Epc.GRAI.gs1ElementString, objGRAI, tagAttrs]

theorem sem_GRAI_from_gs1_element_string (n : Nat) (s : Str) (k : Int) :
    (level (n + 11)).app (.bound GRAI.from_gs1_element_string (.cls .GRAI)) [.str s, .int k] [] =
      (lift (Epc.GRAI.fromGs1ElementString s k)).map objGRAI := by
  rw [app_bound]
  exe [GRAI.from_gs1_element_string, Epc.GRAI.fromGs1ElementString, sem_GRAI]

@[src high] theorem tableP_GRAI (n : Nat) : (level (n + 3)).const .grai [] grai.PARTITION_TABLE_P = .ok (tableP Epc.GRAI.table) := rfl

@[src high] theorem tableL_GRAI (n : Nat) : (level (n + 3)).const .grai [] grai.PARTITION_TABLE_L = .ok (tableL Epc.GRAI.table) := rfl

theorem sem_GRAI_tag_uri (n : Nat) (x : Epc.GRAI) (cs : Epc.GRAI.Coding) (f : Fin 8) (o : Cl) (e m : Nm) (nm : Str) :
    (level (n + 10)).app (.bound GRAI.tag_uri (objGRAI x)) [] [(.binary_coding_scheme, codGRAI cs), (.filter_value, .member o e m nm (filterStr f))] =
      (lift (x.tagUri cs f)).map .str := by
  rw [app_bound]
  cases cs
  all_goals exe [GRAI.tag_uri, Epc.GRAI.tagUri, objGRAI, tagAttrs, codGRAI, Epc.GRAI.Coding.value, Epc.GRAI.Coding.header, del, Epc.GRAI.badSerial]

theorem sem_GRAI_binary (n : Nat) (x : Epc.GRAI) (cs : Epc.GRAI.Coding) (f : Fin 8) (o : Cl) (e m : Nm) (nm : Str) :
    (level (n + 10)).app (.bound GRAI.binary (objGRAI x)) [] [(.binary_coding_scheme, codGRAI cs), (.filter_value, .member o e m nm (filterStr f))] =
      (lift (x.binary cs f)).map .str := by
  rw [app_bound]
  cases cs
  all_goals exe [GRAI.binary, Epc.GRAI.binary, objGRAI, tagAttrs, codGRAI, Epc.GRAI.Coding.value, Epc.GRAI.Coding.header, del]

theorem sem_GRAI_headers (n : Nat) : (level (n + 4)).app (.bound TagEncodable.header_to_schemes (.cls .GRAI)) [] [] =
    .ok (.dict (Epc.GRAI.headers.map (fun p => (.str p.1, codGRAI p.2)))) := rfl

theorem parse_GRAI (n : Nat) (b : Str) :
    (level (n + 2)).app (.func common.parse_header_and_truncate_binary) [.str b, .dict (Epc.GRAI.headers.map (fun p => (.str p.1, codGRAI p.2)))] [] =
      (lift (parseHeader Epc.GRAI.headers Epc.GRAI.Coding.value b)).map (fun r => .list [codGRAI r.1, .str r.2]) :=
  sem_parse_header n codGRAI _ (by intro k; cases k <;> exact ⟨_, _, _, _, rfl⟩) _ b

theorem sem_GRAI_from_tag_uri (n : Nat) (t : Str) :
    (level (n + 11)).app (.bound TagEncodable.from_tag_uri (.cls .GRAI)) [.str t] [] = (lift (Epc.GRAI.fromTagUri t)).map objGRAI := by
  rw [from_tag_uri_default, sem_from_tag_uri n .GRAI (fun u => sem_GRAI n u), Epc.GRAI.fromTagUri]

theorem sem_GRAI_from_binary (n : Nat) (b : Str) :
    (level (n + 14)).app (.bound GRAI.from_binary (.cls .GRAI)) [.str b] [] = (lift (Epc.GRAI.fromBinary b)).map objGRAI := by
  rw [app_bound]
  run [GRAI.from_binary, Epc.GRAI.fromBinary, sem_GRAI_headers, parse_GRAI]
  refine same_step2 fun cs b _ => ?_
  cases cs
  all_goals exe [codGRAI, Epc.GRAI.Coding.value, Epc.GRAI.Coding.header, binIntStr, sem_GRAI_from_tag_uri]

theorem sem_GRAI_hex (n : Nat) (x : Epc.GRAI) (cs : Epc.GRAI.Coding) (f : Fin 8) (o : Cl) (e m : Nm) (nm : Str) :
    (level (n + 11)).app (.bound TagEncodable.hex (objGRAI x)) [] [(.binary_coding_scheme, codGRAI cs), (.filter_value, .member o e m nm (filterStr f))] =
      (lift (x.hex cs f)).map .str := sem_hex n (fun _ => rfl) rfl (sem_GRAI_binary n x cs f o e m nm)

theorem sem_GRAI_base64 (n : Nat) (x : Epc.GRAI) (cs : Epc.GRAI.Coding) (f : Fin 8) (o : Cl) (e m : Nm) (nm : Str) :
    (level (n + 12)).app (.bound TagEncodable.base64 (objGRAI x)) [] [(.binary_coding_scheme, codGRAI cs), (.filter_value, .member o e m nm (filterStr f))] =
      (lift (x.base64 cs f)).map .str := sem_base64 n (fun _ => rfl) rfl (sem_GRAI_hex n x cs f o e m nm)

theorem sem_GRAI_from_hex (n : Nat) (s : Str) :
    (level (n + 15)).app (.bound TagEncodable.from_hex (.cls .GRAI)) [.str s] [] = (lift (Epc.GRAI.fromHex s)).map objGRAI :=
  sem_from_hex n (fun _ => rfl) (sem_GRAI_from_binary n) s

theorem sem_GRAI_from_base64 (n : Nat) (s : Str) :
    (level (n + 16)).app (.bound TagEncodable.from_base64 (.cls .GRAI)) [.str s] [] = (lift (Epc.GRAI.fromBase64 s)).map objGRAI :=
  sem_from_base64 n (fun _ => rfl) (sem_GRAI_from_hex n) s

end Epc.Src
