/-
Model of /repo/epcpy/epc_schemes/grai.py.
-/
import Verif.Model.Base

namespace Epc

/-- Instance of class `GRAI`: the attributes set by `__init__`. -/
structure GRAI where
  epcUri : Str
  companyPref : Str
  assetType : Str
  serial : Str
  grai : Str
  deriving DecidableEq, Repr

namespace GRAI

/-- `PARTITION_TABLE_P`/`PARTITION_TABLE_L`.  /repo/epcpy/epc_schemes/grai.py:25-85 -/
def table : List Row := mkTable [(4, 0), (7, 1), (10, 2), (14, 3), (17, 4), (20, 5), (24, 6)]

/-- `GRAI.BinaryCodingScheme`.  /repo/epcpy/epc_schemes/grai.py:122-124 -/
inductive Coding where
  | grai96
  | grai170
  deriving DecidableEq, Repr

/-- `.value` of a coding scheme. -/
def Coding.value : Coding → Str
  | .grai96 => py "grai-96"
  | .grai170 => py "grai-170"

/-- `GRAI.BinaryHeader`.  /repo/epcpy/epc_schemes/grai.py:126-128 -/
def Coding.header : Coding → Str
  | .grai96 => py "00110011"
  | .grai170 => py "00110111"

/-- `header_to_schemes()`.  /repo/epcpy/epc_schemes/base_scheme.py:198-208 -/
def headers : List (Str × Coding) := [(Coding.header .grai96, .grai96), (Coding.header .grai170, .grai170)]

/-- `GRAI.__init__`.  /repo/epcpy/epc_schemes/grai.py:132-153 -/
def new (uri : Str) : Except Err GRAI := do
  guardConvert (Rx.graiUri.fullmatch uri)
  let serial := joinWith '.' ((split '.' (uriBody uri)).drop 2)
  verifyGs3a3 serial
  let body ← getPart (split ':' uri) 4
  let (companyPref, assetType) ← unpack2 ((split '.' body).take 2)
  guardConvert (decide ((companyPref ++ assetType).length = 12 ∧ (6 ≤ companyPref.length ∧ companyPref.length ≤ 12) ∧
    serial.length ≤ 16))
  let checkDigit ← calculateChecksum (companyPref ++ assetType)
  return ⟨uri, companyPref, assetType, serial,
    companyPref ++ assetType ++ natStr checkDigit ++ replaceUriEscapes serial⟩

/-- `GRAI.gs1_key`.  /repo/epcpy/epc_schemes/grai.py:155-161 -/
def gs1Key (x : GRAI) : Str := x.grai

/-- `GRAI.gs1_element_string`.  /repo/epcpy/epc_schemes/grai.py:163-169 -/
def gs1ElementString (x : GRAI) : Except Err Str := .ok (py "(8003)0" ++ x.grai)

/-- `GRAI.from_gs1_element_string`.  /repo/epcpy/epc_schemes/grai.py:171-198 -/
def fromGs1ElementString (s : Str) (n : Int) : Except Err GRAI := do
  guardConvert (Rx.graiElem.fullmatch s)
  let digits := slice s 7 20
  let chars := revertUriEscapes (s.drop 20)
  new (py "urn:epc:id:grai:" ++ sliceToI digits n ++ '.' :: sliceI digits n (-1) ++ '.' :: chars)

/-- The condition under which `GRAI.tag_uri` raises.  /repo/epcpy/epc_schemes/grai.py:217-227 -/
def badSerial (x : GRAI) : Coding → Except Err Bool
  | .grai170 => .ok (decide ((replaceUriEscapes x.serial).length > 20))
  | .grai96 => badNumericSerial x.serial 38

/-- `GRAI.tag_uri`.  /repo/epcpy/epc_schemes/grai.py:200-230 -/
def tagUri (x : GRAI) (cs : Coding) (f : Fin 8) : Except Err Str := do
  let bad ← x.badSerial cs
  if bad then .error .convert
  else return tagUriPrefix ++ cs.value ++ ':' :: filterStr f ++ '.' :: x.companyPref ++ '.' :: x.assetType ++ '.' :: x.serial

/-- `GRAI.binary`.  /repo/epcpy/epc_schemes/grai.py:232-258 -/
def binary (x : GRAI) (cs : Coding) (f : Fin 8) : Except Err Str := do
  let filterBinary ← strToBinary (filterStr f) 3
  let graiBinary ← encodePartitionTable x.companyPref x.assetType table
  let serialBinary ← if cs = .grai96 then strToBinary x.serial 38 else encodeString x.serial 112
  return cs.header ++ filterBinary ++ graiBinary ++ serialBinary

/-- `GRAI.from_tag_uri`.  /repo/epcpy/epc_schemes/base_scheme.py:169-196 -/
def fromTagUri (t : Str) : Except Err GRAI := Epc.fromTagUri new true t

/-- `GRAI.from_binary`.  /repo/epcpy/epc_schemes/grai.py:260-290 -/
def fromBinary (b : Str) : Except Err GRAI := do
  let (cs, b) ← parseHeader headers Coding.value b
  let filter ← binaryToInt (slice b 8 11)
  let grai ← decodePartitionTable (slice b 11 58) table
  let serial ← if cs = .grai96 then binIntStr (b.drop 58) else decodeString (b.drop 58)
  fromTagUri (tagUriPrefix ++ cs.value ++ ':' :: intStr filter ++ '.' :: grai ++ '.' :: serial)

/-- `GRAI.hex`.  /repo/epcpy/epc_schemes/base_scheme.py:106-117 -/
def hex (x : GRAI) (cs : Coding) (f : Fin 8) : Except Err Str := hexOf (x.binary cs f)
/-- `GRAI.base64`.  /repo/epcpy/epc_schemes/base_scheme.py:119-127 -/
def base64 (x : GRAI) (cs : Coding) (f : Fin 8) : Except Err Str := base64Of (x.binary cs f)
/-- `GRAI.from_hex`.  /repo/epcpy/epc_schemes/base_scheme.py:143-153 -/
def fromHex (h : Str) : Except Err GRAI := fromHexWith fromBinary h
/-- `GRAI.from_base64`.  /repo/epcpy/epc_schemes/base_scheme.py:155-167 -/
def fromBase64 (s : Str) : Except Err GRAI := fromBase64With fromBinary s

end GRAI
end Epc
