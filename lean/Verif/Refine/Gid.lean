/-
/repo/epcpy/epc_schemes/gid.py
-/
import Verif.Refine.Base
import Verif.Model.Gid
set_option linter.unusedSimpArgs false

namespace Epc.Src
open Epc.Spec

theorem sem_GID (n : Nat) (u : Str) : (level (n + 10)).app (.cls .GID) [.str u] [] = (lift (Epc.GID.new u)).map objGID := by
  rw [app_cls (by rw [mro_GID, chain_GID]) rfl (by decide)]
  exe [runInit, GID.__init__, Epc.GID.new, init_Tag, objGID, tagAttrs, gid.GID_URI_REGEX]

theorem sem_GID_tag_uri (n : Nat) (x : Epc.GID) (cs : Epc.GID.Coding) :
    (level (n + 10)).app (.bound GID.tag_uri (objGID x)) [] [(.binary_coding_scheme, codGID cs)] =
      (lift (x.tagUri cs)).map .str := by
  rw [app_bound]
  cases cs
  all_goals exe [GID.tag_uri, Epc.GID.tagUri, objGID, tagAttrs, codGID, Epc.GID.Coding.value, Epc.GID.Coding.header, del]

theorem sem_GID_binary (n : Nat) (x : Epc.GID) (cs : Epc.GID.Coding) :
    (level (n + 10)).app (.bound GID.binary (objGID x)) [] [(.binary_coding_scheme, codGID cs)] =
      (lift (x.binary cs)).map .str := by
  rw [app_bound]
  cases cs
  all_goals exe [GID.binary, Epc.GID.binary, objGID, tagAttrs, codGID, Epc.GID.Coding.value, Epc.GID.Coding.header, del]

theorem sem_GID_headers (n : Nat) : (level (n + 4)).app (.bound TagEncodable.header_to_schemes (.cls .GID)) [] [] =
    .ok (.dict (Epc.GID.headers.map (fun p => (.str p.1, codGID p.2)))) := rfl

theorem parse_GID (n : Nat) (b : Str) :
    (level (n + 2)).app (.func common.parse_header_and_truncate_binary) [.str b, .dict (Epc.GID.headers.map (fun p => (.str p.1, codGID p.2)))] [] =
      (lift (parseHeader Epc.GID.headers Epc.GID.Coding.value b)).map (fun r => .list [codGID r.1, .str r.2]) :=
  sem_parse_header n codGID _ (by intro k; cases k <;> exact ⟨_, _, _, _, rfl⟩) _ b

theorem class_GID : classOf (.cls .GID) = some .GID := rfl
theorem after_GID : findIn .from_tag_uri (afterCl .GID (clsMro .GID)) = some (.TagEncodable, .classmethod Src.TagEncodable.from_tag_uri) := rfl

theorem sem_GID_from_tag_uri_filter (n : Nat) (t : Str) (b : Bool) :
    (level (n + 12)).app (.bound GID.from_tag_uri (.cls .GID)) [.str t] [(.includes_filter, .bool b)] =
      (lift (Epc.fromTagUri Epc.GID.new b t)).map objGID := by
  rw [app_bound]
  exe [GID.from_tag_uri, class_GID, ↓after_GID, sem_from_tag_uri n .GID (fun u => sem_GID n u), del]

theorem sem_GID_from_tag_uri (n : Nat) (t : Str) :
    (level (n + 12)).app (.bound GID.from_tag_uri (.cls .GID)) [.str t] [] = (lift (Epc.GID.fromTagUri t)).map objGID :=
  sem_GID_from_tag_uri_filter n t false

theorem sem_GID_from_binary (n : Nat) (b : Str) :
    (level (n + 14)).app (.bound GID.from_binary (.cls .GID)) [.str b] [] = (lift (Epc.GID.fromBinary b)).map objGID := by
  rw [app_bound]
  run [GID.from_binary, Epc.GID.fromBinary, sem_GID_headers, parse_GID]
  refine same_step2 fun cs b _ => ?_
  cases cs
  all_goals exe [codGID, Epc.GID.Coding.value, Epc.GID.Coding.header, binIntStr, sem_GID_from_tag_uri_filter, Epc.GID.fromTagUri]

theorem sem_GID_hex (n : Nat) (x : Epc.GID) (cs : Epc.GID.Coding) :
    (level (n + 11)).app (.bound TagEncodable.hex (objGID x)) [] [(.binary_coding_scheme, codGID cs)] =
      (lift (x.hex cs)).map .str := sem_hex n (fun _ => rfl) rfl (sem_GID_binary n x cs)

theorem sem_GID_base64 (n : Nat) (x : Epc.GID) (cs : Epc.GID.Coding) :
    (level (n + 12)).app (.bound TagEncodable.base64 (objGID x)) [] [(.binary_coding_scheme, codGID cs)] =
      (lift (x.base64 cs)).map .str := sem_base64 n (fun _ => rfl) rfl (sem_GID_hex n x cs)

theorem sem_GID_from_hex (n : Nat) (s : Str) :
    (level (n + 15)).app (.bound TagEncodable.from_hex (.cls .GID)) [.str s] [] = (lift (Epc.GID.fromHex s)).map objGID :=
  sem_from_hex n (fun _ => rfl) (sem_GID_from_binary n) s

theorem sem_GID_from_base64 (n : Nat) (s : Str) :
    (level (n + 16)).app (.bound TagEncodable.from_base64 (.cls .GID)) [.str s] [] = (lift (Epc.GID.fromBase64 s)).map objGID :=
  sem_from_base64 n (fun _ => rfl) (sem_GID_from_hex n) s

end Epc.Src
