/-
/repo/epcpy/epc_schemes/giai.py
-/
import Verif.Refine.Base
import Verif.Model.Giai
set_option linter.unusedSimpArgs false

namespace Epc.Src
open Epc.Spec

theorem sem_GIAI (n : Nat) (u : Str) : (level (n + 10)).app (.cls .GIAI) [.str u] [] = (lift (Epc.GIAI.new u)).map objGIAI := by
  rw [app_cls (by rw [mro_GIAI, chain_GIAI]) rfl (by decide)]
  exe [runInit, GIAI.__init__, Epc.GIAI.new, init_TagKeyed, objGIAI, tagAttrs, giai.GIAI_URI_REGEX]

theorem sem_GIAI_gs1_key (n : Nat) (x : Epc.GIAI) :
    (level (n + 10)).app (.bound GIAI.gs1_key (objGIAI x)) [] [] = .ok (.str x.gs1Key) := rfl

theorem sem_GIAI_gs1_element_string (n : Nat) (x : Epc.GIAI) :
    (level (n + 10)).app (.bound GIAI.gs1_element_string (objGIAI x)) [] [] = (lift x.gs1ElementString).map .str := by
  rw [app_bound]
  exe [GIAI.gs1_element_string, Epc.GIAI.gs1ElementString, objGIAI, tagAttrs]

theorem sem_GIAI_from_gs1_element_string (n : Nat) (s : Str) (k : Int) :
    (level (n + 11)).app (.bound GIAI.from_gs1_element_string (.cls .GIAI)) [.str s, .int k] [] =
      (lift (Epc.GIAI.fromGs1ElementString s k)).map objGIAI := by
  rw [app_bound]
  exe [GIAI.from_gs1_element_string, Epc.GIAI.fromGs1ElementString, sem_GIAI]

@[src high] theorem tableP96_GIAI (n : Nat) : (level (n + 3)).const .giai [] giai.PARTITION_TABLE_P_96 = .ok (tableP Epc.GIAI.table96) := rfl

@[src high] theorem tableL96_GIAI (n : Nat) : (level (n + 3)).const .giai [] giai.PARTITION_TABLE_L_96 = .ok (tableL Epc.GIAI.table96) := rfl

@[src high] theorem tableP202_GIAI (n : Nat) : (level (n + 3)).const .giai [] giai.PARTITION_TABLE_P_202 = .ok (tableP Epc.GIAI.table202) := rfl

@[src high] theorem tableL202_GIAI (n : Nat) : (level (n + 3)).const .giai [] giai.PARTITION_TABLE_L_202 = .ok (tableL Epc.GIAI.table202) := rfl

theorem sem_GIAI_tag_uri (n : Nat) (x : Epc.GIAI) (cs : Epc.GIAI.Coding) (f : Fin 8) (o : Cl) (e m : Nm) (nm : Str) :
    (level (n + 10)).app (.bound GIAI.tag_uri (objGIAI x)) [] [(.binary_coding_scheme, codGIAI cs), (.filter_value, .member o e m nm (filterStr f))] =
      (lift (x.tagUri cs f)).map .str := by
  rw [app_bound]
  cases cs
  · exe [GIAI.tag_uri, Epc.GIAI.tagUri, objGIAI, tagAttrs, codGIAI, Epc.GIAI.Coding.value, Epc.GIAI.Coding.header, del, Epc.GIAI.badAssetRef]
    rename_i hn _ _ _
    exe [GIAI.tag_uri, Epc.GIAI.tagUri, objGIAI, tagAttrs, codGIAI, Epc.GIAI.Coding.value, Epc.GIAI.Coding.header, del, Epc.GIAI.badAssetRef, if_neg hn]
  · exe [GIAI.tag_uri, Epc.GIAI.tagUri, objGIAI, tagAttrs, codGIAI, Epc.GIAI.Coding.value, Epc.GIAI.Coding.header, del, Epc.GIAI.badAssetRef]

theorem sem_GIAI_binary (n : Nat) (x : Epc.GIAI) (cs : Epc.GIAI.Coding) (f : Fin 8) (o : Cl) (e m : Nm) (nm : Str) :
    (level (n + 10)).app (.bound GIAI.binary (objGIAI x)) [] [(.binary_coding_scheme, codGIAI cs), (.filter_value, .member o e m nm (filterStr f))] =
      (lift (x.binary cs f)).map .str := by
  rw [app_bound]
  cases cs
  all_goals exe [GIAI.binary, Epc.GIAI.binary, objGIAI, tagAttrs, codGIAI, Epc.GIAI.Coding.value, Epc.GIAI.Coding.header, del]

theorem sem_GIAI_headers (n : Nat) : (level (n + 4)).app (.bound TagEncodable.header_to_schemes (.cls .GIAI)) [] [] =
    .ok (.dict (Epc.GIAI.headers.map (fun p => (.str p.1, codGIAI p.2)))) := rfl

theorem parse_GIAI (n : Nat) (b : Str) :
    (level (n + 2)).app (.func common.parse_header_and_truncate_binary) [.str b, .dict (Epc.GIAI.headers.map (fun p => (.str p.1, codGIAI p.2)))] [] =
      (lift (parseHeader Epc.GIAI.headers Epc.GIAI.Coding.value b)).map (fun r => .list [codGIAI r.1, .str r.2]) :=
  sem_parse_header n codGIAI _ (by intro k; cases k <;> exact ⟨_, _, _, _, rfl⟩) _ b

theorem sem_GIAI_from_tag_uri (n : Nat) (t : Str) :
    (level (n + 11)).app (.bound TagEncodable.from_tag_uri (.cls .GIAI)) [.str t] [] = (lift (Epc.GIAI.fromTagUri t)).map objGIAI := by
  rw [from_tag_uri_default, sem_from_tag_uri n .GIAI (fun u => sem_GIAI n u), Epc.GIAI.fromTagUri]

theorem sem_GIAI_from_binary (n : Nat) (b : Str) :
    (level (n + 14)).app (.bound GIAI.from_binary (.cls .GIAI)) [.str b] [] = (lift (Epc.GIAI.fromBinary b)).map objGIAI := by
  rw [app_bound]
  run [GIAI.from_binary, Epc.GIAI.fromBinary, sem_GIAI_headers, parse_GIAI]
  refine same_step2 fun cs b _ => ?_
  cases cs
  all_goals exe [codGIAI, Epc.GIAI.Coding.value, Epc.GIAI.Coding.header, binIntStr, sem_GIAI_from_tag_uri]

theorem sem_GIAI_hex (n : Nat) (x : Epc.GIAI) (cs : Epc.GIAI.Coding) (f : Fin 8) (o : Cl) (e m : Nm) (nm : Str) :
    (level (n + 11)).app (.bound TagEncodable.hex (objGIAI x)) [] [(.binary_coding_scheme, codGIAI cs), (.filter_value, .member o e m nm (filterStr f))] =
      (lift (x.hex cs f)).map .str := sem_hex n (fun _ => rfl) rfl (sem_GIAI_binary n x cs f o e m nm)

theorem sem_GIAI_base64 (n : Nat) (x : Epc.GIAI) (cs : Epc.GIAI.Coding) (f : Fin 8) (o : Cl) (e m : Nm) (nm : Str) :
    (level (n + 12)).app (.bound TagEncodable.base64 (objGIAI x)) [] [(.binary_coding_scheme, codGIAI cs), (.filter_value, .member o e m nm (filterStr f))] =
      (lift (x.base64 cs f)).map .str := sem_base64 n (fun _ => rfl) rfl (sem_GIAI_hex n x cs f o e m nm)

theorem sem_GIAI_from_hex (n : Nat) (s : Str) :
    (level (n + 15)).app (.bound TagEncodable.from_hex (.cls .GIAI)) [.str s] [] = (lift (Epc.GIAI.fromHex s)).map objGIAI :=
  sem_from_hex n (fun _ => rfl) (sem_GIAI_from_binary n) s

theorem sem_GIAI_from_base64 (n : Nat) (s : Str) :
    (level (n + 16)).app (.bound TagEncodable.from_base64 (.cls .GIAI)) [.str s] [] = (lift (Epc.GIAI.fromBase64 s)).map objGIAI :=
  sem_from_base64 n (fun _ => rfl) (sem_GIAI_from_hex n) s

end Epc.Src
