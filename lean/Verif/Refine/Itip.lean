/-
/repo/epcpy/epc_schemes/itip.py
-/
import Verif.Refine.Base
import Verif.Model.Itip
set_option linter.unusedSimpArgs false

namespace Epc.Src
open Epc.Spec

theorem sem_ITIP (n : Nat) (u : Str) : (level (n + 10)).app (.cls .ITIP) [.str u] [] = (lift (Epc.ITIP.new u)).map objITIP := by
  rw [app_cls (by rw [mro_ITIP, chain_ITIP]) rfl (by decide)]
  exe [runInit, ITIP.__init__, Epc.ITIP.new, init_ElementTag, objITIP, tagAttrs, itip.ITIP_URI_REGEX]

theorem sem_ITIP_gs1_element_string (n : Nat) (x : Epc.ITIP) :
    (level (n + 10)).app (.bound ITIP.gs1_element_string (objITIP x)) [] [] = (lift x.gs1ElementString).map .str := by
  rw [app_bound]
  exe [ITIP.gs1_element_string, Epc.ITIP.gs1ElementString, objITIP, tagAttrs]

theorem fromElem_ITIP (s : Str) (n : Int) : Epc.ITIP.fromGs1ElementString s n = (do
    guardConvert (Rx.itipElem.fullmatch s)
    let digits := slice s 6 24
    let chars := revertUriEscapes (s.drop 28)
    let first ← getIdx digits 0
    Epc.ITIP.new (py "urn:epc:id:itip:" ++ sliceI digits 1 (1 + n) ++ '.' :: first :: sliceI digits (1 + n) (-((5 : Nat) : Int)) ++
      '.' :: sliceI digits (-((4 : Nat) : Int)) (-((2 : Nat) : Int)) ++ '.' :: sliceFromI digits (-((2 : Nat) : Int)) ++ '.' :: chars)) := rfl

theorem sem_ITIP_from_gs1_element_string (n : Nat) (s : Str) (k : Int) :
    (level (n + 11)).app (.bound ITIP.from_gs1_element_string (.cls .ITIP)) [.str s, .int k] [] =
      (lift (Epc.ITIP.fromGs1ElementString s k)).map objITIP := by
  rw [app_bound]
  exe [ITIP.from_gs1_element_string, fromElem_ITIP, sem_ITIP]

@[src high] theorem tableP_ITIP (n : Nat) : (level (n + 3)).const .itip [] itip.PARTITION_TABLE_P = .ok (tableP Epc.ITIP.table) := rfl

@[src high] theorem tableL_ITIP (n : Nat) : (level (n + 3)).const .itip [] itip.PARTITION_TABLE_L = .ok (tableL Epc.ITIP.table) := rfl

theorem sem_ITIP_tag_uri (n : Nat) (x : Epc.ITIP) (cs : Epc.ITIP.Coding) (f : Fin 8) (o : Cl) (e m : Nm) (nm : Str) :
    (level (n + 10)).app (.bound ITIP.tag_uri (objITIP x)) [] [(.binary_coding_scheme, codITIP cs), (.filter_value, .member o e m nm (filterStr f))] =
      (lift (x.tagUri cs f)).map .str := by
  rw [app_bound]
  cases cs
  all_goals exe [ITIP.tag_uri, Epc.ITIP.tagUri, objITIP, tagAttrs, codITIP, Epc.ITIP.Coding.value, Epc.ITIP.Coding.header, del, Epc.ITIP.badSerial]

theorem sem_ITIP_binary (n : Nat) (x : Epc.ITIP) (cs : Epc.ITIP.Coding) (f : Fin 8) (o : Cl) (e m : Nm) (nm : Str) :
    (level (n + 10)).app (.bound ITIP.binary (objITIP x)) [] [(.binary_coding_scheme, codITIP cs), (.filter_value, .member o e m nm (filterStr f))] =
      (lift (x.binary cs f)).map .str := by
  rw [app_bound]
  cases cs
  all_goals exe [ITIP.binary, Epc.ITIP.binary, objITIP, tagAttrs, codITIP, Epc.ITIP.Coding.value, Epc.ITIP.Coding.header, del]

theorem sem_ITIP_headers (n : Nat) : (level (n + 4)).app (.bound TagEncodable.header_to_schemes (.cls .ITIP)) [] [] =
    .ok (.dict (Epc.ITIP.headers.map (fun p => (.str p.1, codITIP p.2)))) := rfl

theorem parse_ITIP (n : Nat) (b : Str) :
    (level (n + 2)).app (.func common.parse_header_and_truncate_binary) [.str b, .dict (Epc.ITIP.headers.map (fun p => (.str p.1, codITIP p.2)))] [] =
      (lift (parseHeader Epc.ITIP.headers Epc.ITIP.Coding.value b)).map (fun r => .list [codITIP r.1, .str r.2]) :=
  sem_parse_header n codITIP _ (by intro k; cases k <;> exact ⟨_, _, _, _, rfl⟩) _ b

theorem sem_ITIP_from_tag_uri (n : Nat) (t : Str) :
    (level (n + 11)).app (.bound TagEncodable.from_tag_uri (.cls .ITIP)) [.str t] [] = (lift (Epc.ITIP.fromTagUri t)).map objITIP := by
  rw [from_tag_uri_default, sem_from_tag_uri n .ITIP (fun u => sem_ITIP n u), Epc.ITIP.fromTagUri]

theorem sem_ITIP_from_binary (n : Nat) (b : Str) :
    (level (n + 14)).app (.bound ITIP.from_binary (.cls .ITIP)) [.str b] [] = (lift (Epc.ITIP.fromBinary b)).map objITIP := by
  rw [app_bound]
  run [ITIP.from_binary, Epc.ITIP.fromBinary, sem_ITIP_headers, parse_ITIP]
  refine same_step2 fun cs b _ => ?_
  cases cs
  all_goals exe [codITIP, Epc.ITIP.Coding.value, Epc.ITIP.Coding.header, binIntStr, sem_ITIP_from_tag_uri]

theorem sem_ITIP_hex (n : Nat) (x : Epc.ITIP) (cs : Epc.ITIP.Coding) (f : Fin 8) (o : Cl) (e m : Nm) (nm : Str) :
    (level (n + 11)).app (.bound TagEncodable.hex (objITIP x)) [] [(.binary_coding_scheme, codITIP cs), (.filter_value, .member o e m nm (filterStr f))] =
      (lift (x.hex cs f)).map .str := sem_hex n (fun _ => rfl) rfl (sem_ITIP_binary n x cs f o e m nm)

theorem sem_ITIP_base64 (n : Nat) (x : Epc.ITIP) (cs : Epc.ITIP.Coding) (f : Fin 8) (o : Cl) (e m : Nm) (nm : Str) :
    (level (n + 12)).app (.bound TagEncodable.base64 (objITIP x)) [] [(.binary_coding_scheme, codITIP cs), (.filter_value, .member o e m nm (filterStr f))] =
      (lift (x.base64 cs f)).map .str := sem_base64 n (fun _ => rfl) rfl (sem_ITIP_hex n x cs f o e m nm)

theorem sem_ITIP_from_hex (n : Nat) (s : Str) :
    (level (n + 15)).app (.bound TagEncodable.from_hex (.cls .ITIP)) [.str s] [] = (lift (Epc.ITIP.fromHex s)).map objITIP :=
  sem_from_hex n (fun _ => rfl) (sem_ITIP_from_binary n) s

theorem sem_ITIP_from_base64 (n : Nat) (s : Str) :
    (level (n + 16)).app (.bound TagEncodable.from_base64 (.cls .ITIP)) [.str s] [] = (lift (Epc.ITIP.fromBase64 s)).map objITIP :=
  sem_from_base64 n (fun _ => rfl) (sem_ITIP_from_hex n) s

end Epc.Src
