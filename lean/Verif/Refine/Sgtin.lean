/-
/repo/epcpy/epc_schemes/sgtin.py
-/
import Verif.Refine.Base
import Verif.Model.Sgtin
set_option linter.unusedSimpArgs false

namespace Epc.Src
open Epc.Spec

theorem sem_SGTIN (n : Nat) (u : Str) : (level (n + 10)).app (.cls .SGTIN) [.str u] [] = (lift (Epc.SGTIN.new u)).map objSGTIN := by
  rw [app_cls (by rw [mro_SGTIN, chain_SGTIN]) rfl (by decide)]
  exe [runInit, SGTIN.__init__, Epc.SGTIN.new, init_TagKeyed, tagAttrs, sgtin.SGTIN_REGEX, sem_verify_gs3a3_component, sem_replace_uri_escapes, sem_calculate_checksum,
    objSGTIN]

@[src high] theorem tableL_SGTIN (n : Nat) : (level (n + 3)).const .sgtin [] sgtin.PARTITION_TABLE_L = .ok (tableL Epc.SGTIN.table) := rfl
@[src high] theorem tableP_SGTIN (n : Nat) : (level (n + 3)).const .sgtin [] sgtin.PARTITION_TABLE_P = .ok (tableP Epc.SGTIN.table) := rfl

theorem sem_SGTIN_headers (n : Nat) : (level (n + 4)).app (.bound TagEncodable.header_to_schemes (.cls .SGTIN)) [] [] =
    .ok (.dict (Epc.SGTIN.headers.map (fun p => (.str p.1, codSGTIN p.2)))) := rfl

theorem sem_SGTIN_from_gtin_plus_serial (n : Nat) (g s : Str) (k : Int) :
    (level (n + 11)).app (.bound SGTIN.from_gtin_plus_serial (.cls .SGTIN)) [.str g, .str s, .int k] [] =
      (lift (Epc.SGTIN.fromGtinPlusSerial g s k)).map objSGTIN := by
  rw [app_bound]
  exe [SGTIN.from_gtin_plus_serial, Epc.SGTIN.fromGtinPlusSerial, sem_SGTIN]

theorem sem_SGTIN_gs1_element_string (n : Nat) (x : Epc.SGTIN) :
    (level (n + 10)).app (.bound SGTIN.gs1_element_string (objSGTIN x)) [] [] = (lift x.gs1ElementString).map .str := by
  rw [app_bound]
  exe [SGTIN.gs1_element_string, Epc.SGTIN.gs1ElementString, objSGTIN, tagAttrs, sem_replace_uri_escapes]

theorem sem_SGTIN_from_gs1_element_string (n : Nat) (s : Str) (k : Int) :
    (level (n + 11)).app (.bound SGTIN.from_gs1_element_string (.cls .SGTIN)) [.str s, .int k] [] =
      (lift (Epc.SGTIN.fromGs1ElementString s k)).map objSGTIN := by
  rw [app_bound]
  exe [SGTIN.from_gs1_element_string, Epc.SGTIN.fromGs1ElementString, sem_SGTIN, sem_revert_uri_escapes]

theorem sem_SGTIN_tag_uri (n : Nat) (x : Epc.SGTIN) (cs : Epc.SGTIN.Coding) (f : Fin 8) (o : Cl) (e m : Nm) (nm : Str) :
    (level (n + 10)).app (.bound SGTIN.tag_uri (objSGTIN x)) [] [(.binary_coding_scheme, codSGTIN cs), (.filter_value, .member o e m nm (filterStr f))] =
      (lift (x.tagUri cs f)).map .str := by
  rw [app_bound]
  cases cs
  all_goals
    exe [SGTIN.tag_uri, Epc.SGTIN.tagUri, objSGTIN, tagAttrs, codSGTIN, Epc.SGTIN.Coding.value, Epc.SGTIN.Coding.header, del, Epc.SGTIN.badSerial]

theorem sem_SGTIN_binary (n : Nat) (x : Epc.SGTIN) (cs : Epc.SGTIN.Coding) (f : Fin 8) (o : Cl) (e m : Nm) (nm : Str) :
    (level (n + 10)).app (.bound SGTIN.binary (objSGTIN x)) [] [(.binary_coding_scheme, codSGTIN cs), (.filter_value, .member o e m nm (filterStr f))] =
      (lift (x.binary cs f)).map .str := by
  rw [app_bound]
  cases cs
  all_goals
    exe [SGTIN.binary, Epc.SGTIN.binary, objSGTIN, tagAttrs, codSGTIN, Epc.SGTIN.Coding.value, Epc.SGTIN.Coding.header, del, sem_str_to_binary, sem_encode_partition_table, sem_encode_string, tableL_SGTIN]

theorem parse_SGTIN (n : Nat) (b : Str) :
    (level (n + 2)).app (.func common.parse_header_and_truncate_binary) [.str b, .dict (Epc.SGTIN.headers.map (fun p => (.str p.1, codSGTIN p.2)))] [] =
      (lift (parseHeader Epc.SGTIN.headers Epc.SGTIN.Coding.value b)).map (fun r => .list [codSGTIN r.1, .str r.2]) :=
  sem_parse_header n codSGTIN _ (by intro k; cases k <;> exact ⟨_, _, _, _, rfl⟩) _ b

theorem sem_SGTIN_from_tag_uri (n : Nat) (t : Str) :
    (level (n + 11)).app (.bound TagEncodable.from_tag_uri (.cls .SGTIN)) [.str t] [] = (lift (Epc.SGTIN.fromTagUri t)).map objSGTIN := by
  rw [from_tag_uri_default, sem_from_tag_uri n .SGTIN (fun u => sem_SGTIN n u), Epc.SGTIN.fromTagUri]

theorem sem_SGTIN_from_binary (n : Nat) (b : Str) :
    (level (n + 14)).app (.bound SGTIN.from_binary (.cls .SGTIN)) [.str b] [] = (lift (Epc.SGTIN.fromBinary b)).map objSGTIN := by
  rw [app_bound]
  run [SGTIN.from_binary, Epc.SGTIN.fromBinary, sem_SGTIN_headers, parse_SGTIN]
  refine same_step2 fun cs b _ => ?_
  cases cs
  all_goals
    exe [codSGTIN, Epc.SGTIN.Coding.value, sem_binary_to_int, sem_decode_partition_table, sem_decode_string, binIntStr, sem_SGTIN_from_tag_uri]

theorem sem_SGTIN_gtin (n : Nat) (x : Epc.SGTIN) (t : GtinType) :
    (level (n + 9)).app (.bound SGTIN.gtin (objSGTIN x)) [] [(.gtin_type, .int t.toNat)] = (lift (x.gtin t)).map .str := by
  rw [app_bound]
  run [SGTIN.gtin, objSGTIN, tagAttrs, del]
  exact gtin_form _ t

theorem sem_SGTIN_gs1_key (n : Nat) (x : Epc.SGTIN) (t : GtinType) :
    (level (n + 10)).app (.bound SGTIN.gs1_key (objSGTIN x)) [] [(.gtin_type, .int t.toNat)] = (lift (x.gs1Key t)).map .str := by
  rw [app_bound]
  have h := sem_SGTIN_gtin n x t
  simp only [objSGTIN, tagAttrs] at h
  exe [SGTIN.gs1_key, Epc.SGTIN.gs1Key, objSGTIN, tagAttrs, del, h]

theorem sem_SGTIN_hex (n : Nat) (x : Epc.SGTIN) (cs : Epc.SGTIN.Coding) (f : Fin 8) (o : Cl) (e m : Nm) (nm : Str) :
    (level (n + 11)).app (.bound TagEncodable.hex (objSGTIN x)) [] [(.binary_coding_scheme, codSGTIN cs), (.filter_value, .member o e m nm (filterStr f))] =
      (lift (x.hex cs f)).map .str := sem_hex n (fun _ => rfl) rfl (sem_SGTIN_binary n x cs f o e m nm)

theorem sem_SGTIN_base64 (n : Nat) (x : Epc.SGTIN) (cs : Epc.SGTIN.Coding) (f : Fin 8) (o : Cl) (e m : Nm) (nm : Str) :
    (level (n + 12)).app (.bound TagEncodable.base64 (objSGTIN x)) [] [(.binary_coding_scheme, codSGTIN cs), (.filter_value, .member o e m nm (filterStr f))] =
      (lift (x.base64 cs f)).map .str := sem_base64 n (fun _ => rfl) rfl (sem_SGTIN_hex n x cs f o e m nm)

theorem sem_SGTIN_from_hex (n : Nat) (s : Str) :
    (level (n + 15)).app (.bound TagEncodable.from_hex (.cls .SGTIN)) [.str s] [] = (lift (Epc.SGTIN.fromHex s)).map objSGTIN :=
  sem_from_hex n (fun _ => rfl) (sem_SGTIN_from_binary n) s

theorem sem_SGTIN_from_base64 (n : Nat) (s : Str) :
    (level (n + 16)).app (.bound TagEncodable.from_base64 (.cls .SGTIN)) [.str s] [] = (lift (Epc.SGTIN.fromBase64 s)).map objSGTIN :=
  sem_from_base64 n (fun _ => rfl) (sem_SGTIN_from_hex n) s

end Epc.Src
