/-
Model of /repo/epcpy/epc_schemes/sgtin.py.
-/
import Verif.Model.Base

namespace Epc

/-- Instance of class `SGTIN`: the attributes set by `__init__`. -/
structure SGTIN where
  epcUri : Str
  companyPref : Str
  itemRef : Str
  serial : Str
  gtin14 : Str
  deriving DecidableEq, Repr

/-- `GTIN_TYPE`.  /repo/epcpy/epc_schemes/sgtin.py:99-103, /repo/epcpy/epc_schemes/lgtin.py:19-23 -/
inductive GtinType where
  | gtin8
  | gtin12
  | gtin13
  | gtin14
  deriving DecidableEq, Repr

/-- Integer value of a `GTIN_TYPE` member. -/
def GtinType.toNat : GtinType → Nat
  | .gtin8 => 8
  | .gtin12 => 12
  | .gtin13 => 13
  | .gtin14 => 14

namespace SGTIN

/-- `PARTITION_TABLE_P`/`PARTITION_TABLE_L`.  /repo/epcpy/epc_schemes/sgtin.py:25-85 -/
def table : List Row := mkTable [(4, 1), (7, 2), (10, 3), (14, 4), (17, 5), (20, 6), (24, 7)]

/-- `SGTIN.BinaryCodingScheme`.  /repo/epcpy/epc_schemes/sgtin.py:131-133 -/
inductive Coding where
  | sgtin96
  | sgtin198
  deriving DecidableEq, Repr

/-- `.value` of a coding scheme. -/
def Coding.value : Coding → Str
  | .sgtin96 => py "sgtin-96"
  | .sgtin198 => py "sgtin-198"

/-- `SGTIN.BinaryHeader`.  /repo/epcpy/epc_schemes/sgtin.py:135-137 -/
def Coding.header : Coding → Str
  | .sgtin96 => py "00110000"
  | .sgtin198 => py "00110110"

/-- `header_to_schemes()`.  /repo/epcpy/epc_schemes/base_scheme.py:198-208 -/
def headers : List (Str × Coding) := [(Coding.header .sgtin96, .sgtin96), (Coding.header .sgtin198, .sgtin198)]

/-- `SGTIN.__init__`.  /repo/epcpy/epc_schemes/sgtin.py:141-174 -/
def new (uri : Str) : Except Err SGTIN := do
  guardConvert (Rx.sgtinUri.fullmatch uri)
  let value ← getPart (split ':' uri) 4
  let companyPref ← getPart (split '.' value) 0
  let itemRef ← getPart (split '.' value) 1
  let serial := joinWith '.' ((split '.' (uriBody uri)).drop 2)
  guardConvert (decide ((companyPref ++ itemRef).length = 13 ∧ 6 ≤ companyPref.length ∧ companyPref.length ≤ 12))
  verifyGs3a3 serial
  guardConvert (decide (1 ≤ (replaceUriEscapes serial).length ∧ (replaceUriEscapes serial).length ≤ 20))
  let first ← getIdx itemRef 0
  let checkDigit ← calculateChecksum (first :: companyPref ++ itemRef.drop 1)
  return ⟨uri, companyPref, itemRef, serial,
    zfill 14 (first :: companyPref ++ itemRef.drop 1 ++ natStr checkDigit)⟩

/-- `SGTIN.from_gtin_plus_serial` (the serial is a string).  /repo/epcpy/epc_schemes/sgtin.py:176-193 -/
def fromGtinPlusSerial (gtin serial : Str) (n : Int) : Except Err SGTIN := do
  let g := zfill 14 gtin
  let first ← getIdx g 0
  new (py "urn:epc:id:sgtin:" ++ sliceI g 1 (1 + n) ++ '.' :: first :: sliceI g (1 + n) (-1) ++ '.' :: serial)

/-- `SGTIN.gtin`.  /repo/epcpy/epc_schemes/sgtin.py:207-224 -/
def gtin (x : SGTIN) (t : GtinType := .gtin14) : Except Err Str :=
  if t ≠ .gtin14 ∧ startsWith x.gtin14 (List.replicate (14 - t.toNat) '0') = false then .error .convert
  else .ok (slice x.gtin14 (14 - t.toNat) 14)

/-- `SGTIN.gs1_key`.  /repo/epcpy/epc_schemes/sgtin.py:195-205 -/
def gs1Key (x : SGTIN) (t : GtinType := .gtin14) : Except Err Str := x.gtin t

/-- `SGTIN.gs1_element_string`.  /repo/epcpy/epc_schemes/sgtin.py:226-235 -/
def gs1ElementString (x : SGTIN) : Except Err Str :=
  .ok (py "(01)" ++ x.gtin14 ++ py "(21)" ++ replaceUriEscapes x.serial)

/-- `SGTIN.from_gs1_element_string`.  /repo/epcpy/epc_schemes/sgtin.py:237-263 -/
def fromGs1ElementString (s : Str) (n : Int) : Except Err SGTIN := do
  guardConvert (Rx.sgtinElem.fullmatch s)
  let (_, digits, chars) ← unpack3 (splitNoCap (parenLen 2) s)
  let chars := revertUriEscapes chars
  let first ← getIdx digits 0
  new (py "urn:epc:id:sgtin:" ++ sliceI digits 1 (n + 1) ++ '.' :: first :: sliceI digits (1 + n) (-1) ++
    '.' :: chars)

/-- The condition under which `SGTIN.tag_uri` raises.  /repo/epcpy/epc_schemes/sgtin.py:279-287 -/
def badSerial (x : SGTIN) : Coding → Except Err Bool
  | .sgtin198 => .ok false
  | .sgtin96 => badNumericSerial x.serial 38

/-- `SGTIN.tag_uri`.  /repo/epcpy/epc_schemes/sgtin.py:265-294 -/
def tagUri (x : SGTIN) (cs : Coding) (f : Fin 8) : Except Err Str := do
  let bad ← x.badSerial cs
  if bad then .error .convert
  else return tagUriPrefix ++ cs.value ++ ':' :: filterStr f ++ '.' :: x.companyPref ++ '.' :: x.itemRef ++ '.' :: x.serial

/-- `SGTIN.binary`.  /repo/epcpy/epc_schemes/sgtin.py:296-322 -/
def binary (x : SGTIN) (cs : Coding) (f : Fin 8) : Except Err Str := do
  let filterBinary ← strToBinary (filterStr f) 3
  let gtinBinary ← encodePartitionTable x.companyPref x.itemRef table
  let serialBinary ← if cs = .sgtin96 then strToBinary x.serial 38 else encodeString x.serial 140
  return cs.header ++ filterBinary ++ gtinBinary ++ serialBinary

/-- `SGTIN.from_tag_uri`.  /repo/epcpy/epc_schemes/base_scheme.py:169-196 -/
def fromTagUri (t : Str) : Except Err SGTIN := Epc.fromTagUri new true t

/-- `SGTIN.from_binary`.  /repo/epcpy/epc_schemes/sgtin.py:324-354 -/
def fromBinary (b : Str) : Except Err SGTIN := do
  let (cs, b) ← parseHeader headers Coding.value b
  let filter ← binaryToInt (slice b 8 11)
  let gtin ← decodePartitionTable (slice b 11 58) table
  let serial ← if cs = .sgtin96 then binIntStr (b.drop 58) else decodeString (b.drop 58)
  fromTagUri (tagUriPrefix ++ cs.value ++ ':' :: intStr filter ++ '.' :: gtin ++ '.' :: serial)

/-- `SGTIN.hex`.  /repo/epcpy/epc_schemes/base_scheme.py:106-117 -/
def hex (x : SGTIN) (cs : Coding) (f : Fin 8) : Except Err Str := hexOf (x.binary cs f)
/-- `SGTIN.base64`.  /repo/epcpy/epc_schemes/base_scheme.py:119-127 -/
def base64 (x : SGTIN) (cs : Coding) (f : Fin 8) : Except Err Str := base64Of (x.binary cs f)
/-- `SGTIN.from_hex`.  /repo/epcpy/epc_schemes/base_scheme.py:143-153 -/
def fromHex (h : Str) : Except Err SGTIN := fromHexWith fromBinary h
/-- `SGTIN.from_base64`.  /repo/epcpy/epc_schemes/base_scheme.py:155-167 -/
def fromBase64 (s : Str) : Except Err SGTIN := fromBase64With fromBinary s

end SGTIN
end Epc
