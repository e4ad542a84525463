/-
/repo/epcpy/epc_schemes/usdod.py
-/
import Verif.Refine.Base
import Verif.Model.Usdod
set_option linter.unusedSimpArgs false

namespace Epc.Src
open Epc.Spec

theorem sem_USDOD (n : Nat) (u : Str) : (level (n + 10)).app (.cls .USDOD) [.str u] [] = (lift (Epc.USDOD.new u)).map objUSDOD := by
  rw [app_cls (by rw [mro_USDOD, chain_USDOD]) rfl (by decide)]
  exe [runInit, USDOD.__init__, Epc.USDOD.new, init_Tag, objUSDOD, tagAttrs, usdod.USDOD_URI_REGEX]

theorem sem_USDOD_tag_uri (n : Nat) (x : Epc.USDOD) (cs : Epc.USDOD.Coding) (f : Fin 16) (o : Cl) (e m : Nm) (nm : Str) :
    (level (n + 10)).app (.bound USDOD.tag_uri (objUSDOD x)) [] [(.binary_coding_scheme, codUSDOD cs), (.filter_value, .member o e m nm (filterStr f))] =
      (lift (x.tagUri cs f)).map .str := by
  rw [app_bound]
  cases cs
  all_goals exe [USDOD.tag_uri, Epc.USDOD.tagUri, objUSDOD, tagAttrs, codUSDOD, Epc.USDOD.Coding.value, Epc.USDOD.Coding.header, del]

theorem sem_USDOD_binary (n : Nat) (x : Epc.USDOD) (cs : Epc.USDOD.Coding) (f : Fin 16) (o : Cl) (e m : Nm) (nm : Str) :
    (level (n + 10)).app (.bound USDOD.binary (objUSDOD x)) [] [(.binary_coding_scheme, codUSDOD cs), (.filter_value, .member o e m nm (filterStr f))] =
      (lift (x.binary cs f)).map .str := by
  rw [app_bound]
  cases cs
  all_goals exe [USDOD.binary, Epc.USDOD.binary, objUSDOD, tagAttrs, codUSDOD, Epc.USDOD.Coding.value, Epc.USDOD.Coding.header, del]

theorem sem_USDOD_headers (n : Nat) : (level (n + 4)).app (.bound TagEncodable.header_to_schemes (.cls .USDOD)) [] [] =
    .ok (.dict (Epc.USDOD.headers.map (fun p => (.str p.1, codUSDOD p.2)))) := rfl

theorem parse_USDOD (n : Nat) (b : Str) :
    (level (n + 2)).app (.func common.parse_header_and_truncate_binary) [.str b, .dict (Epc.USDOD.headers.map (fun p => (.str p.1, codUSDOD p.2)))] [] =
      (lift (parseHeader Epc.USDOD.headers Epc.USDOD.Coding.value b)).map (fun r => .list [codUSDOD r.1, .str r.2]) :=
  sem_parse_header n codUSDOD _ (by intro k; cases k <;> exact ⟨_, _, _, _, rfl⟩) _ b

theorem sem_USDOD_from_tag_uri (n : Nat) (t : Str) :
    (level (n + 11)).app (.bound TagEncodable.from_tag_uri (.cls .USDOD)) [.str t] [] = (lift (Epc.USDOD.fromTagUri t)).map objUSDOD := by
  rw [from_tag_uri_default, sem_from_tag_uri n .USDOD (fun u => sem_USDOD n u), Epc.USDOD.fromTagUri]

theorem sem_USDOD_from_binary (n : Nat) (b : Str) :
    (level (n + 14)).app (.bound USDOD.from_binary (.cls .USDOD)) [.str b] [] = (lift (Epc.USDOD.fromBinary b)).map objUSDOD := by
  rw [app_bound]
  run [USDOD.from_binary, Epc.USDOD.fromBinary, sem_USDOD_headers, parse_USDOD]
  refine same_step2 fun cs b _ => ?_
  cases cs
  all_goals exe [codUSDOD, Epc.USDOD.Coding.value, Epc.USDOD.Coding.header, binIntStr, sem_USDOD_from_tag_uri]

theorem sem_USDOD_hex (n : Nat) (x : Epc.USDOD) (cs : Epc.USDOD.Coding) (f : Fin 16) (o : Cl) (e m : Nm) (nm : Str) :
    (level (n + 11)).app (.bound TagEncodable.hex (objUSDOD x)) [] [(.binary_coding_scheme, codUSDOD cs), (.filter_value, .member o e m nm (filterStr f))] =
      (lift (x.hex cs f)).map .str := sem_hex n (fun _ => rfl) rfl (sem_USDOD_binary n x cs f o e m nm)

theorem sem_USDOD_base64 (n : Nat) (x : Epc.USDOD) (cs : Epc.USDOD.Coding) (f : Fin 16) (o : Cl) (e m : Nm) (nm : Str) :
    (level (n + 12)).app (.bound TagEncodable.base64 (objUSDOD x)) [] [(.binary_coding_scheme, codUSDOD cs), (.filter_value, .member o e m nm (filterStr f))] =
      (lift (x.base64 cs f)).map .str := sem_base64 n (fun _ => rfl) rfl (sem_USDOD_hex n x cs f o e m nm)

theorem sem_USDOD_from_hex (n : Nat) (s : Str) :
    (level (n + 15)).app (.bound TagEncodable.from_hex (.cls .USDOD)) [.str s] [] = (lift (Epc.USDOD.fromHex s)).map objUSDOD :=
  sem_from_hex n (fun _ => rfl) (sem_USDOD_from_binary n) s

theorem sem_USDOD_from_base64 (n : Nat) (s : Str) :
    (level (n + 16)).app (.bound TagEncodable.from_base64 (.cls .USDOD)) [.str s] [] = (lift (Epc.USDOD.fromBase64 s)).map objUSDOD :=
  sem_from_base64 n (fun _ => rfl) (sem_USDOD_from_hex n) s

end Epc.Src
