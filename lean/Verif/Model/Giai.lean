/-
Model of /repo/epcpy/epc_schemes/giai.py.
-/
import Verif.Model.Base

namespace Epc

/-- Instance of class `GIAI`: the attributes set by `__init__`. -/
structure GIAI where
  epcUri : Str
  companyPref : Str
  assetRef : Str
  giai : Str
  deriving DecidableEq, Repr

namespace GIAI

/-- `PARTITION_TABLE_P_96`/`PARTITION_TABLE_L_96`.  /repo/epcpy/epc_schemes/giai.py:22-82 -/
def table96 : List Row := mkTable [(42, 13), (45, 14), (48, 15), (52, 16), (55, 17), (58, 18), (62, 19)]

/-- `PARTITION_TABLE_P_202`/`PARTITION_TABLE_L_202`.  /repo/epcpy/epc_schemes/giai.py:84-144 -/
def table202 : List Row := mkTable [(148, 18), (151, 19), (154, 20), (158, 21), (161, 22), (164, 23), (168, 24)]

/-- `GIAI.BinaryCodingScheme`.  /repo/epcpy/epc_schemes/giai.py:181-183 -/
inductive Coding where
  | giai96
  | giai202
  deriving DecidableEq, Repr

/-- `.value` of a coding scheme. -/
def Coding.value : Coding → Str
  | .giai96 => py "giai-96"
  | .giai202 => py "giai-202"

/-- `GIAI.BinaryHeader`.  /repo/epcpy/epc_schemes/giai.py:185-187 -/
def Coding.header : Coding → Str
  | .giai96 => py "00110100"
  | .giai202 => py "00111000"

/-- `header_to_schemes()`.  /repo/epcpy/epc_schemes/base_scheme.py:198-208 -/
def headers : List (Str × Coding) := [(Coding.header .giai96, .giai96), (Coding.header .giai202, .giai202)]

/-- `GIAI.__init__`: only the part of the URI up to a fifth colon is looked at.
/repo/epcpy/epc_schemes/giai.py:191-214 -/
def new (uri : Str) : Except Err GIAI := do
  guardConvert (Rx.giaiUri.fullmatch uri)
  let body ← getPart (split ':' uri) 4
  let (companyPref, rest) ← unpack1s (split '.' body)
  let assetRef := joinWith '.' rest
  guardConvert (decide ((6 ≤ companyPref.length ∧ companyPref.length ≤ 12) ∧ (companyPref ++ assetRef).length ≤ 30))
  verifyGs3a3 assetRef
  return ⟨uri, companyPref, assetRef, companyPref ++ replaceUriEscapes assetRef⟩

/-- `GIAI.gs1_key`.  /repo/epcpy/epc_schemes/giai.py:216-222 -/
def gs1Key (x : GIAI) : Str := x.giai

/-- `GIAI.gs1_element_string`.  /repo/epcpy/epc_schemes/giai.py:224-230 -/
def gs1ElementString (x : GIAI) : Except Err Str := .ok (py "(8004)" ++ x.giai)

/-- `GIAI.from_gs1_element_string`.  /repo/epcpy/epc_schemes/giai.py:232-257 -/
def fromGs1ElementString (s : Str) (n : Int) : Except Err GIAI := do
  guardConvert (Rx.giaiElem.fullmatch s)
  let digits := sliceI s 6 (6 + n)
  let chars := revertUriEscapes (sliceFromI s (6 + n))
  new (py "urn:epc:id:giai:" ++ digits ++ '.' :: chars)

/-- The condition under which `GIAI.tag_uri` raises.  /repo/epcpy/epc_schemes/giai.py:276-290 -/
def badAssetRef (x : GIAI) : Coding → Except Err Bool
  | .giai202 => do
    let row ← rowByL table202 x.companyPref.length
    return decide ((replaceUriEscapes x.assetRef).length > row.K)
  | .giai96 =>
    if !isNumeric x.assetRef then .ok true
    else do
      let row ← rowByL table96 x.companyPref.length
      if x.assetRef.length > row.K then return true
      else badNumericSerial x.assetRef row.N

/-- `GIAI.tag_uri`.  /repo/epcpy/epc_schemes/giai.py:259-295 -/
def tagUri (x : GIAI) (cs : Coding) (f : Fin 8) : Except Err Str := do
  let bad ← x.badAssetRef cs
  if bad then .error .convert
  else return tagUriPrefix ++ cs.value ++ ':' :: filterStr f ++ '.' :: x.companyPref ++ '.' :: x.assetRef

/-- `GIAI.binary`.  /repo/epcpy/epc_schemes/giai.py:297-326 -/
def binary (x : GIAI) (cs : Coding) (f : Fin 8) : Except Err Str := do
  let filterBinary ← strToBinary (filterStr f) 3
  let giaiBinary ←
    if cs = .giai96 then encodePartitionTable x.companyPref x.assetRef table96
    else encodePartitionTable x.companyPref x.assetRef table202 .string
  return cs.header ++ filterBinary ++ giaiBinary

/-- `GIAI.from_tag_uri`.  /repo/epcpy/epc_schemes/base_scheme.py:169-196 -/
def fromTagUri (t : Str) : Except Err GIAI := Epc.fromTagUri new true t

/-- `GIAI.from_binary`.  /repo/epcpy/epc_schemes/giai.py:328-359 -/
def fromBinary (b : Str) : Except Err GIAI := do
  let (cs, b) ← parseHeader headers Coding.value b
  let filter ← binaryToInt (slice b 8 11)
  let giai ←
    if cs = .giai96 then decodePartitionTable (b.drop 11) table96 .unpadded
    else decodePartitionTable (b.drop 11) table202 .string
  fromTagUri (tagUriPrefix ++ cs.value ++ ':' :: intStr filter ++ '.' :: giai)

/-- `GIAI.hex`.  /repo/epcpy/epc_schemes/base_scheme.py:106-117 -/
def hex (x : GIAI) (cs : Coding) (f : Fin 8) : Except Err Str := hexOf (x.binary cs f)
/-- `GIAI.base64`.  /repo/epcpy/epc_schemes/base_scheme.py:119-127 -/
def base64 (x : GIAI) (cs : Coding) (f : Fin 8) : Except Err Str := base64Of (x.binary cs f)
/-- `GIAI.from_hex`.  /repo/epcpy/epc_schemes/base_scheme.py:143-153 -/
def fromHex (h : Str) : Except Err GIAI := fromHexWith fromBinary h
/-- `GIAI.from_base64`.  /repo/epcpy/epc_schemes/base_scheme.py:155-167 -/
def fromBase64 (s : Str) : Except Err GIAI := fromBase64With fromBinary s

end GIAI
end Epc
