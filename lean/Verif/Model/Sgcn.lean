/-
Model of /repo/epcpy/epc_schemes/sgcn.py.
-/
import Verif.Model.Base

namespace Epc

/-- Instance of class `SGCN`: the attributes set by `__init__`. -/
structure SGCN where
  epcUri : Str
  companyPref : Str
  couponRef : Str
  serial : Str
  gcn : Str
  deriving DecidableEq, Repr

namespace SGCN

/-- `PARTITION_TABLE_P`/`PARTITION_TABLE_L`.  /repo/epcpy/epc_schemes/sgcn.py:24-84 -/
def table : List Row := mkTable [(1, 0), (4, 1), (7, 2), (11, 3), (14, 4), (17, 5), (21, 6)]

/-- `SGCN.BinaryCodingScheme`.  /repo/epcpy/epc_schemes/sgcn.py:121-122 -/
inductive Coding where
  | sgcn96
  deriving DecidableEq, Repr

/-- `.value` of a coding scheme. -/
def Coding.value : Coding → Str
  | .sgcn96 => py "sgcn-96"

/-- `SGCN.BinaryHeader`.  /repo/epcpy/epc_schemes/sgcn.py:124-125 -/
def Coding.header : Coding → Str
  | .sgcn96 => py "00111111"

/-- `header_to_schemes()`.  /repo/epcpy/epc_schemes/base_scheme.py:198-208 -/
def headers : List (Str × Coding) := [(Coding.header .sgcn96, .sgcn96)]

/-- `SGCN.__init__`.  /repo/epcpy/epc_schemes/sgcn.py:129-151 -/
def new (uri : Str) : Except Err SGCN := do
  guardConvert (Rx.sgcnUri.fullmatch uri)
  let body ← getPart (split ':' uri) 4
  let (companyPref, couponRef, serial) ← unpack3 (split '.' body)
  guardConvert (decide ((companyPref ++ couponRef).length = 12 ∧ serial.length ≤ 12 ∧
    (6 ≤ companyPref.length ∧ companyPref.length ≤ 12)))
  let checkDigit ← calculateChecksum (companyPref ++ couponRef)
  return ⟨uri, companyPref, couponRef, serial, companyPref ++ couponRef ++ natStr checkDigit ++ serial⟩

/-- `SGCN.gs1_key`.  /repo/epcpy/epc_schemes/sgcn.py:153-159 -/
def gs1Key (x : SGCN) : Str := x.gcn

/-- `SGCN.gs1_element_string`.  /repo/epcpy/epc_schemes/sgcn.py:161-167 -/
def gs1ElementString (x : SGCN) : Except Err Str := .ok (py "(255)" ++ x.gcn)

/-- `SGCN.from_gs1_element_string`.  /repo/epcpy/epc_schemes/sgcn.py:169-196 -/
def fromGs1ElementString (s : Str) (n : Int) : Except Err SGCN := do
  guardConvert (Rx.sgcnElem.fullmatch s)
  let digits := slice s 5 18
  let chars := revertUriEscapes (s.drop 18)
  new (py "urn:epc:id:sgcn:" ++ sliceToI digits n ++ '.' :: sliceI digits n (-1) ++ '.' :: chars)

/-- `SGCN.tag_uri`.  /repo/epcpy/epc_schemes/sgcn.py:198-213 -/
def tagUri (x : SGCN) (cs : Coding) (f : Fin 8) : Except Err Str :=
  .ok (tagUriPrefix ++ cs.value ++ ':' :: filterStr f ++ '.' :: x.companyPref ++ '.' :: x.couponRef ++ '.' :: x.serial)

/-- `SGCN.binary`.  /repo/epcpy/epc_schemes/sgcn.py:215-237 -/
def binary (x : SGCN) (cs : Coding) (f : Fin 8) : Except Err Str := do
  let filterBinary ← strToBinary (filterStr f) 3
  let sgcnBinary ← encodePartitionTable x.companyPref x.couponRef table
  let serialBinary ← encodeNumericString x.serial 41
  return cs.header ++ filterBinary ++ sgcnBinary ++ serialBinary

/-- `SGCN.from_tag_uri`.  /repo/epcpy/epc_schemes/base_scheme.py:169-196 -/
def fromTagUri (t : Str) : Except Err SGCN := Epc.fromTagUri new true t

/-- `SGCN.from_binary`.  /repo/epcpy/epc_schemes/sgcn.py:239-264 -/
def fromBinary (b : Str) : Except Err SGCN := do
  let (cs, b) ← parseHeader headers Coding.value b
  let filter ← binaryToInt (slice b 8 11)
  let sgcn ← decodePartitionTable (slice b 11 55) table
  let serial ← decodeNumericString (b.drop 55)
  fromTagUri (tagUriPrefix ++ cs.value ++ ':' :: intStr filter ++ '.' :: sgcn ++ '.' :: serial)

/-- `SGCN.hex`.  /repo/epcpy/epc_schemes/base_scheme.py:106-117 -/
def hex (x : SGCN) (cs : Coding) (f : Fin 8) : Except Err Str := hexOf (x.binary cs f)
/-- `SGCN.base64`.  /repo/epcpy/epc_schemes/base_scheme.py:119-127 -/
def base64 (x : SGCN) (cs : Coding) (f : Fin 8) : Except Err Str := base64Of (x.binary cs f)
/-- `SGCN.from_hex`.  /repo/epcpy/epc_schemes/base_scheme.py:143-153 -/
def fromHex (h : Str) : Except Err SGCN := fromHexWith fromBinary h
/-- `SGCN.from_base64`.  /repo/epcpy/epc_schemes/base_scheme.py:155-167 -/
def fromBase64 (s : Str) : Except Err SGCN := fromBase64With fromBinary s

end SGCN
end Epc
