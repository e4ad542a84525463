/-
/repo/epcpy/epc_schemes/adi.py
-/
import Verif.Refine.Base
import Verif.Model.Adi
set_option linter.unusedSimpArgs false

namespace Epc.Src
open Epc.Spec

theorem sem_ADI (n : Nat) (u : Str) : (level (n + 10)).app (.cls .ADI) [.str u] [] = (lift (Epc.ADI.new u)).map objADI := by
  rw [app_cls (by rw [mro_ADI, chain_ADI]) rfl (by decide)]
  exe [runInit, ADI.__init__, Epc.ADI.new, init_Tag, objADI, tagAttrs, adi.ADI_URI_REGEX]

theorem sem_ADI_tag_uri (n : Nat) (x : Epc.ADI) (cs : Epc.ADI.Coding) (f : Fin 64) (o : Cl) (e m : Nm) (nm : Str) :
    (level (n + 10)).app (.bound ADI.tag_uri (objADI x)) [] [(.binary_coding_scheme, codADI cs), (.filter_value, .member o e m nm (filterStr f))] =
      (lift (x.tagUri cs f)).map .str := by
  rw [app_bound]
  cases cs
  all_goals exe [ADI.tag_uri, Epc.ADI.tagUri, objADI, tagAttrs, codADI, Epc.ADI.Coding.value, Epc.ADI.Coding.header, del]

theorem sem_ADI_binary (n : Nat) (x : Epc.ADI) (cs : Epc.ADI.Coding) (f : Fin 64) (o : Cl) (e m : Nm) (nm : Str) :
    (level (n + 10)).app (.bound ADI.binary (objADI x)) [] [(.binary_coding_scheme, codADI cs), (.filter_value, .member o e m nm (filterStr f))] =
      (lift (x.binary cs f)).map .str := by
  rw [app_bound]
  cases cs
  all_goals exe [ADI.binary, Epc.ADI.binary, objADI, tagAttrs, codADI, Epc.ADI.Coding.value, Epc.ADI.Coding.header, del]

theorem sem_ADI_headers (n : Nat) : (level (n + 4)).app (.bound TagEncodable.header_to_schemes (.cls .ADI)) [] [] =
    .ok (.dict (Epc.ADI.headers.map (fun p => (.str p.1, codADI p.2)))) := rfl

theorem parse_ADI (n : Nat) (b : Str) :
    (level (n + 2)).app (.func common.parse_header_and_truncate_binary) [.str b, .dict (Epc.ADI.headers.map (fun p => (.str p.1, codADI p.2)))] [] =
      (lift (parseHeader Epc.ADI.headers Epc.ADI.Coding.value b)).map (fun r => .list [codADI r.1, .str r.2]) :=
  sem_parse_header n codADI _ (by intro k; cases k <;> exact ⟨_, _, _, _, rfl⟩) _ b

theorem sem_ADI_from_tag_uri (n : Nat) (t : Str) :
    (level (n + 11)).app (.bound TagEncodable.from_tag_uri (.cls .ADI)) [.str t] [] = (lift (Epc.ADI.fromTagUri t)).map objADI := by
  rw [from_tag_uri_default, sem_from_tag_uri n .ADI (fun u => sem_ADI n u), Epc.ADI.fromTagUri]

theorem fromBinary_ADI (b : Str) : Epc.ADI.fromBinary b = (do
    let (cs, b) ← parseHeader Epc.ADI.headers Epc.ADI.Coding.value b
    guardConvert (Epc.ADI.hasTerminator (b.drop 50))
    let (partBinary, _, rest) ← unpack2s (splitCap Epc.ADI.zerosLen (b.drop 50))
    let serialTrimmed := sliceToI rest.flatten (-((6 : Nat) : Int))
    let filter ← binaryToInt (slice b 8 14)
    let cage ← decodeCageCodeSixBits (slice b 14 50)
    let part ← decodeStringSixBits partBinary 32
    let serial ← decodeStringSixBits serialTrimmed 30
    Epc.ADI.fromTagUri (tagUriPrefix ++ cs.value ++ ':' :: intStr filter ++ '.' :: cage ++ '.' :: part ++ '.' :: serial)) := rfl

theorem sem_ADI_from_binary (n : Nat) (b : Str) :
    (level (n + 14)).app (.bound ADI.from_binary (.cls .ADI)) [.str b] [] = (lift (Epc.ADI.fromBinary b)).map objADI := by
  rw [app_bound]
  run [ADI.from_binary, fromBinary_ADI, sem_ADI_headers, parse_ADI]
  refine same_step2 fun cs b _ => ?_
  cases cs
  all_goals exe [codADI, Epc.ADI.Coding.value, Epc.ADI.Coding.header, m_adi_match, reSplit_zeros, sem_ADI_from_tag_uri]

theorem sem_ADI_hex (n : Nat) (x : Epc.ADI) (cs : Epc.ADI.Coding) (f : Fin 64) (o : Cl) (e m : Nm) (nm : Str) :
    (level (n + 11)).app (.bound TagEncodable.hex (objADI x)) [] [(.binary_coding_scheme, codADI cs), (.filter_value, .member o e m nm (filterStr f))] =
      (lift (x.hex cs f)).map .str := sem_hex n (fun _ => rfl) rfl (sem_ADI_binary n x cs f o e m nm)

theorem sem_ADI_base64 (n : Nat) (x : Epc.ADI) (cs : Epc.ADI.Coding) (f : Fin 64) (o : Cl) (e m : Nm) (nm : Str) :
    (level (n + 12)).app (.bound TagEncodable.base64 (objADI x)) [] [(.binary_coding_scheme, codADI cs), (.filter_value, .member o e m nm (filterStr f))] =
      (lift (x.base64 cs f)).map .str := sem_base64 n (fun _ => rfl) rfl (sem_ADI_hex n x cs f o e m nm)

theorem sem_ADI_from_hex (n : Nat) (s : Str) :
    (level (n + 15)).app (.bound TagEncodable.from_hex (.cls .ADI)) [.str s] [] = (lift (Epc.ADI.fromHex s)).map objADI :=
  sem_from_hex n (fun _ => rfl) (sem_ADI_from_binary n) s

theorem sem_ADI_from_base64 (n : Nat) (s : Str) :
    (level (n + 16)).app (.bound TagEncodable.from_base64 (.cls .ADI)) [.str s] [] = (lift (Epc.ADI.fromBase64 s)).map objADI :=
  sem_from_base64 n (fun _ => rfl) (sem_ADI_from_hex n) s

end Epc.Src
