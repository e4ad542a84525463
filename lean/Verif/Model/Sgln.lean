/-
Model of /repo/epcpy/epc_schemes/sgln.py.
-/
import Verif.Model.Base

namespace Epc

/-- Instance of class `SGLN`: the attributes set by `__init__`. -/
structure SGLN where
  epcUri : Str
  companyPref : Str
  locationRef : Str
  serial : Str
  gln : Str
  deriving DecidableEq, Repr

namespace SGLN

/-- `PARTITION_TABLE_P`/`PARTITION_TABLE_L`.  /repo/epcpy/epc_schemes/sgln.py:25-85 -/
def table : List Row := mkTable [(1, 0), (4, 1), (7, 2), (11, 3), (14, 4), (17, 5), (21, 6)]

/-- `SGLN.BinaryCodingScheme`.  /repo/epcpy/epc_schemes/sgln.py:122-124 -/
inductive Coding where
  | sgln96
  | sgln195
  deriving DecidableEq, Repr

/-- `.value` of a coding scheme. -/
def Coding.value : Coding → Str
  | .sgln96 => py "sgln-96"
  | .sgln195 => py "sgln-195"

/-- `SGLN.BinaryHeader`.  /repo/epcpy/epc_schemes/sgln.py:126-128 -/
def Coding.header : Coding → Str
  | .sgln96 => py "00110010"
  | .sgln195 => py "00111001"

/-- `header_to_schemes()`.  /repo/epcpy/epc_schemes/base_scheme.py:198-208 -/
def headers : List (Str × Coding) := [(Coding.header .sgln96, .sgln96), (Coding.header .sgln195, .sgln195)]

/-- `SGLN.__init__`.  /repo/epcpy/epc_schemes/sgln.py:132-155 -/
def new (uri : Str) : Except Err SGLN := do
  guardConvert (Rx.sglnUri.fullmatch uri)
  let body ← getPart (split ':' uri) 4
  let (companyPref, locationRef) ← unpack2 ((split '.' body).take 2)
  let serial := joinWith '.' ((split '.' (uriBody uri)).drop 2)
  guardConvert (decide ((companyPref ++ locationRef).length = 12 ∧ (6 ≤ companyPref.length ∧ companyPref.length ≤ 12) ∧
    (replaceUriEscapes serial).length ≤ 20))
  verifyGs3a3 serial
  let checkDigit ← calculateChecksum (companyPref ++ locationRef)
  return ⟨uri, companyPref, locationRef, serial, companyPref ++ locationRef ++ natStr checkDigit⟩

/-- `SGLN.gs1_key`.  /repo/epcpy/epc_schemes/sgln.py:157-163 -/
def gs1Key (x : SGLN) : Str := x.gln

/-- `SGLN.gs1_element_string`.  /repo/epcpy/epc_schemes/sgln.py:165-172 -/
def gs1ElementString (x : SGLN) : Except Err Str :=
  .ok (py "(414)" ++ x.gln ++ py "(254)" ++ replaceUriEscapes x.serial)

/-- `SGLN.from_gs1_element_string`.  /repo/epcpy/epc_schemes/sgln.py:174-200 -/
def fromGs1ElementString (s : Str) (n : Int) : Except Err SGLN := do
  guardConvert (Rx.sglnElem.fullmatch s)
  let (_, digits, chars) ← unpack3 (splitNoCap (parenLen 3) s)
  let chars := revertUriEscapes chars
  new (py "urn:epc:id:sgln:" ++ sliceToI digits n ++ '.' :: sliceI digits n (-1) ++ '.' :: chars)

/-- The condition under which `SGLN.tag_uri` raises.  /repo/epcpy/epc_schemes/sgln.py:217-227 -/
def badSerial (x : SGLN) : Coding → Except Err Bool
  | .sgln195 => .ok (decide ((replaceUriEscapes x.serial).length > 20))
  | .sgln96 => badNumericSerial x.serial 41

/-- `SGLN.tag_uri`.  /repo/epcpy/epc_schemes/sgln.py:202-230 -/
def tagUri (x : SGLN) (cs : Coding) (f : Fin 8) : Except Err Str := do
  let bad ← x.badSerial cs
  if bad then .error .convert
  else return tagUriPrefix ++ cs.value ++ ':' :: filterStr f ++ '.' :: x.companyPref ++ '.' :: x.locationRef ++ '.' :: x.serial

/-- `SGLN.binary`.  /repo/epcpy/epc_schemes/sgln.py:232-257 -/
def binary (x : SGLN) (cs : Coding) (f : Fin 8) : Except Err Str := do
  let filterBinary ← strToBinary (filterStr f) 3
  let glnBinary ← encodePartitionTable x.companyPref x.locationRef table
  let serialBinary ← if cs = .sgln96 then strToBinary x.serial 41 else encodeString x.serial 140
  return cs.header ++ filterBinary ++ glnBinary ++ serialBinary

/-- `SGLN.from_tag_uri`.  /repo/epcpy/epc_schemes/base_scheme.py:169-196 -/
def fromTagUri (t : Str) : Except Err SGLN := Epc.fromTagUri new true t

/-- `SGLN.from_binary`.  /repo/epcpy/epc_schemes/sgln.py:259-288 -/
def fromBinary (b : Str) : Except Err SGLN := do
  let (cs, b) ← parseHeader headers Coding.value b
  let filter ← binaryToInt (slice b 8 11)
  let gln ← decodePartitionTable (slice b 11 55) table
  let serial ← if cs = .sgln96 then binIntStr (b.drop 55) else decodeString (b.drop 55)
  fromTagUri (tagUriPrefix ++ cs.value ++ ':' :: intStr filter ++ '.' :: gln ++ '.' :: serial)

/-- `SGLN.hex`.  /repo/epcpy/epc_schemes/base_scheme.py:106-117 -/
def hex (x : SGLN) (cs : Coding) (f : Fin 8) : Except Err Str := hexOf (x.binary cs f)
/-- `SGLN.base64`.  /repo/epcpy/epc_schemes/base_scheme.py:119-127 -/
def base64 (x : SGLN) (cs : Coding) (f : Fin 8) : Except Err Str := base64Of (x.binary cs f)
/-- `SGLN.from_hex`.  /repo/epcpy/epc_schemes/base_scheme.py:143-153 -/
def fromHex (h : Str) : Except Err SGLN := fromHexWith fromBinary h
/-- `SGLN.from_base64`.  /repo/epcpy/epc_schemes/base_scheme.py:155-167 -/
def fromBase64 (s : Str) : Except Err SGLN := fromBase64With fromBinary s

end SGLN
end Epc
