/-
Model of /repo/epcpy/epc_schemes/gdti.py.
-/
import Verif.Model.Base

namespace Epc

/-- Instance of class `GDTI`: the attributes set by `__init__`. -/
structure GDTI where
  epcUri : Str
  companyPref : Str
  docType : Str
  serial : Str
  gdti : Str
  deriving DecidableEq, Repr

namespace GDTI

/-- `PARTITION_TABLE_P`/`PARTITION_TABLE_L`.  /repo/epcpy/epc_schemes/gdti.py:25-85 -/
def table : List Row := mkTable [(1, 0), (4, 1), (7, 2), (11, 3), (14, 4), (17, 5), (21, 6)]

/-- `GDTI.BinaryCodingScheme`.  /repo/epcpy/epc_schemes/gdti.py:122-124 -/
inductive Coding where
  | gdti96
  | gdti174
  deriving DecidableEq, Repr

/-- `.value` of a coding scheme. -/
def Coding.value : Coding → Str
  | .gdti96 => py "gdti-96"
  | .gdti174 => py "gdti-174"

/-- `GDTI.BinaryHeader`.  /repo/epcpy/epc_schemes/gdti.py:126-128 -/
def Coding.header : Coding → Str
  | .gdti96 => py "00101100"
  | .gdti174 => py "00111110"

/-- `header_to_schemes()`.  /repo/epcpy/epc_schemes/base_scheme.py:198-208 -/
def headers : List (Str × Coding) := [(Coding.header .gdti96, .gdti96), (Coding.header .gdti174, .gdti174)]

/-- `GDTI.__init__`.  /repo/epcpy/epc_schemes/gdti.py:132-155 -/
def new (uri : Str) : Except Err GDTI := do
  guardConvert (Rx.gdtiUri.fullmatch uri)
  let serial := joinWith '.' ((split '.' (uriBody uri)).drop 2)
  verifyGs3a3 serial
  let body ← getPart (split ':' uri) 4
  let (companyPref, docType) ← unpack2 ((split '.' body).take 2)
  guardConvert (decide ((companyPref ++ docType).length = 12 ∧ serial.length ≤ 17 ∧
    (6 ≤ companyPref.length ∧ companyPref.length ≤ 12)))
  let checkDigit ← calculateChecksum (companyPref ++ docType)
  return ⟨uri, companyPref, docType, serial,
    companyPref ++ docType ++ natStr checkDigit ++ replaceUriEscapes serial⟩

/-- `GDTI.gs1_key`.  /repo/epcpy/epc_schemes/gdti.py:157-163 -/
def gs1Key (x : GDTI) : Str := x.gdti

/-- `GDTI.gs1_element_string`.  /repo/epcpy/epc_schemes/gdti.py:165-171 -/
def gs1ElementString (x : GDTI) : Except Err Str := .ok (py "(253)" ++ x.gdti)

/-- `GDTI.from_gs1_element_string`.  /repo/epcpy/epc_schemes/gdti.py:173-200 -/
def fromGs1ElementString (s : Str) (n : Int) : Except Err GDTI := do
  guardConvert (Rx.gdtiElem.fullmatch s)
  let digits := slice s 5 18
  let chars := revertUriEscapes (s.drop 18)
  new (py "urn:epc:id:gdti:" ++ sliceToI digits n ++ '.' :: sliceI digits n (-1) ++ '.' :: chars)

/-- The condition under which `GDTI.tag_uri` raises.  /repo/epcpy/epc_schemes/gdti.py:222-232 -/
def badSerial (x : GDTI) : Coding → Except Err Bool
  | .gdti174 => .ok (decide ((replaceUriEscapes x.serial).length > 17))
  | .gdti96 => badNumericSerial x.serial 41

/-- `GDTI.tag_uri`.  /repo/epcpy/epc_schemes/gdti.py:202-235 -/
def tagUri (x : GDTI) (cs : Coding) (f : Fin 8) : Except Err Str := do
  let bad ← x.badSerial cs
  if bad then .error .convert
  else return tagUriPrefix ++ cs.value ++ ':' :: filterStr f ++ '.' :: x.companyPref ++ '.' :: x.docType ++ '.' :: x.serial

/-- `GDTI.binary`.  /repo/epcpy/epc_schemes/gdti.py:237-263 -/
def binary (x : GDTI) (cs : Coding) (f : Fin 8) : Except Err Str := do
  let filterBinary ← strToBinary (filterStr f) 3
  let gdtiBinary ← encodePartitionTable x.companyPref x.docType table
  let serialBinary ← if cs = .gdti96 then strToBinary x.serial 41 else encodeString x.serial 119
  return cs.header ++ filterBinary ++ gdtiBinary ++ serialBinary

/-- `GDTI.from_tag_uri`.  /repo/epcpy/epc_schemes/base_scheme.py:169-196 -/
def fromTagUri (t : Str) : Except Err GDTI := Epc.fromTagUri new true t

/-- `GDTI.from_binary`.  /repo/epcpy/epc_schemes/gdti.py:265-294 -/
def fromBinary (b : Str) : Except Err GDTI := do
  let (cs, b) ← parseHeader headers Coding.value b
  let filter ← binaryToInt (slice b 8 11)
  let gdti ← decodePartitionTable (slice b 11 55) table
  let serial ← if cs = .gdti96 then binIntStr (b.drop 55) else decodeString (b.drop 55)
  fromTagUri (tagUriPrefix ++ cs.value ++ ':' :: intStr filter ++ '.' :: gdti ++ '.' :: serial)

/-- `GDTI.hex`.  /repo/epcpy/epc_schemes/base_scheme.py:106-117 -/
def hex (x : GDTI) (cs : Coding) (f : Fin 8) : Except Err Str := hexOf (x.binary cs f)
/-- `GDTI.base64`.  /repo/epcpy/epc_schemes/base_scheme.py:119-127 -/
def base64 (x : GDTI) (cs : Coding) (f : Fin 8) : Except Err Str := base64Of (x.binary cs f)
/-- `GDTI.from_hex`.  /repo/epcpy/epc_schemes/base_scheme.py:143-153 -/
def fromHex (h : Str) : Except Err GDTI := fromHexWith fromBinary h
/-- `GDTI.from_base64`.  /repo/epcpy/epc_schemes/base_scheme.py:155-167 -/
def fromBase64 (s : Str) : Except Err GDTI := fromBase64With fromBinary s

end GDTI
end Epc
