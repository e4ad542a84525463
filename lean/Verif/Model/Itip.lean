/-
Model of /repo/epcpy/epc_schemes/itip.py.
-/
import Verif.Model.Base

namespace Epc

/-- Instance of class `ITIP`: the attributes set by `__init__`. -/
structure ITIP where
  epcUri : Str
  companyPref : Str
  itemRef : Str
  piece : Str
  total : Str
  serial : Str
  deriving DecidableEq, Repr

namespace ITIP

/-- `PARTITION_TABLE_P`/`PARTITION_TABLE_L`.  /repo/epcpy/epc_schemes/itip.py:27-87 -/
def table : List Row := mkTable [(4, 1), (7, 2), (10, 3), (14, 4), (17, 5), (20, 6), (24, 7)]

/-- `ITIP.BinaryCodingScheme`.  /repo/epcpy/epc_schemes/itip.py:123-125 -/
inductive Coding where
  | itip110
  | itip212
  deriving DecidableEq, Repr

/-- `.value` of a coding scheme. -/
def Coding.value : Coding → Str
  | .itip110 => py "itip-110"
  | .itip212 => py "itip-212"

/-- `ITIP.BinaryHeader`.  /repo/epcpy/epc_schemes/itip.py:127-129 -/
def Coding.header : Coding → Str
  | .itip110 => py "01000000"
  | .itip212 => py "01000001"

/-- `header_to_schemes()`.  /repo/epcpy/epc_schemes/base_scheme.py:198-208 -/
def headers : List (Str × Coding) := [(Coding.header .itip110, .itip110), (Coding.header .itip212, .itip212)]

/-- `ITIP.__init__`.  /repo/epcpy/epc_schemes/itip.py:133-157 -/
def new (uri : Str) : Except Err ITIP := do
  guardConvert (Rx.itipUri.fullmatch uri)
  let (companyPref, itemRef, piece, total, rest) ← unpack4s (split '.' (uriBody uri))
  let serial := joinWith '.' rest
  verifyGs3a3 serial
  guardConvert (decide ((companyPref ++ itemRef ++ piece ++ total).length = 17 ∧
    (1 ≤ (replaceUriEscapes serial).length ∧ (replaceUriEscapes serial).length ≤ 20) ∧
    (6 ≤ companyPref.length ∧ companyPref.length ≤ 12)))
  return ⟨uri, companyPref, itemRef, piece, total, serial⟩

/-- `ITIP.gs1_element_string`.  /repo/epcpy/epc_schemes/itip.py:159-170 -/
def gs1ElementString (x : ITIP) : Except Err Str := do
  let indicator ← getIdx x.itemRef 0
  let checkDigit ← calculateChecksum (indicator :: x.companyPref ++ x.itemRef.drop 1)
  return py "(8006)" ++ indicator :: x.companyPref ++ x.itemRef.drop 1 ++ natStr checkDigit ++ x.piece ++ x.total ++
    py "(21)" ++ replaceUriEscapes x.serial

/-- `ITIP.from_gs1_element_string`.  /repo/epcpy/epc_schemes/itip.py:172-199 -/
def fromGs1ElementString (s : Str) (n : Int) : Except Err ITIP := do
  guardConvert (Rx.itipElem.fullmatch s)
  let digits := slice s 6 24
  let chars := revertUriEscapes (s.drop 28)
  let first ← getIdx digits 0
  new (py "urn:epc:id:itip:" ++ sliceI digits 1 (1 + n) ++ '.' :: first :: sliceI digits (1 + n) (-5) ++
    '.' :: sliceI digits (-4) (-2) ++ '.' :: sliceFromI digits (-2) ++ '.' :: chars)

/-- The condition under which `ITIP.tag_uri` raises.  /repo/epcpy/epc_schemes/itip.py:218-228 -/
def badSerial (x : ITIP) : Coding → Except Err Bool
  | .itip212 => .ok (decide ((replaceUriEscapes x.serial).length > 20))
  | .itip110 => badNumericSerial x.serial 38

/-- `ITIP.tag_uri`.  /repo/epcpy/epc_schemes/itip.py:201-231 -/
def tagUri (x : ITIP) (cs : Coding) (f : Fin 8) : Except Err Str := do
  let bad ← x.badSerial cs
  if bad then .error .convert
  else return tagUriPrefix ++ cs.value ++ ':' :: filterStr f ++ '.' :: x.companyPref ++ '.' :: x.itemRef ++
    '.' :: x.piece ++ '.' :: x.total ++ '.' :: x.serial

/-- `ITIP.binary`.  /repo/epcpy/epc_schemes/itip.py:233-267 -/
def binary (x : ITIP) (cs : Coding) (f : Fin 8) : Except Err Str := do
  let filterBinary ← strToBinary (filterStr f) 3
  let gtinBinary ← encodePartitionTable x.companyPref x.itemRef table
  let pieceBinary ← encodeFixedWidthInteger x.piece 7
  let totalBinary ← encodeFixedWidthInteger x.total 7
  let serialBinary ← if cs = .itip110 then strToBinary x.serial 38 else encodeString x.serial 140
  return cs.header ++ filterBinary ++ gtinBinary ++ pieceBinary ++ totalBinary ++ serialBinary

/-- `ITIP.from_tag_uri`.  /repo/epcpy/epc_schemes/base_scheme.py:169-196 -/
def fromTagUri (t : Str) : Except Err ITIP := Epc.fromTagUri new true t

/-- `ITIP.from_binary`.  /repo/epcpy/epc_schemes/itip.py:269-302 -/
def fromBinary (b : Str) : Except Err ITIP := do
  let (cs, b) ← parseHeader headers Coding.value b
  let filter ← binaryToInt (slice b 8 11)
  let gtin ← decodePartitionTable (slice b 11 58) table
  let piece ← decodeFixedWidthInteger (slice b 58 65)
  let total ← decodeFixedWidthInteger (slice b 65 72)
  let serial ← if cs = .itip110 then binIntStr (b.drop 72) else decodeString (b.drop 72)
  fromTagUri (tagUriPrefix ++ cs.value ++ ':' :: intStr filter ++ '.' :: gtin ++ '.' :: piece ++ '.' :: total ++
    '.' :: serial)

/-- `ITIP.hex`.  /repo/epcpy/epc_schemes/base_scheme.py:106-117 -/
def hex (x : ITIP) (cs : Coding) (f : Fin 8) : Except Err Str := hexOf (x.binary cs f)
/-- `ITIP.base64`.  /repo/epcpy/epc_schemes/base_scheme.py:119-127 -/
def base64 (x : ITIP) (cs : Coding) (f : Fin 8) : Except Err Str := base64Of (x.binary cs f)
/-- `ITIP.from_hex`.  /repo/epcpy/epc_schemes/base_scheme.py:143-153 -/
def fromHex (h : Str) : Except Err ITIP := fromHexWith fromBinary h
/-- `ITIP.from_base64`.  /repo/epcpy/epc_schemes/base_scheme.py:155-167 -/
def fromBase64 (s : Str) : Except Err ITIP := fromBase64With fromBinary s

end ITIP
end Epc
