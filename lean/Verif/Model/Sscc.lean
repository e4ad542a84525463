/-
Model of /repo/epcpy/epc_schemes/sscc.py.
-/
import Verif.Model.Base

namespace Epc

/-- Instance of class `SSCC`: the attributes set by `__init__`. -/
structure SSCC where
  epcUri : Str
  companyPref : Str
  serial : Str
  sscc : Str
  deriving DecidableEq, Repr

namespace SSCC

/-- `PARTITION_TABLE_P`/`PARTITION_TABLE_L`.  /repo/epcpy/epc_schemes/sscc.py:20-80 -/
def table : List Row := mkTable [(18, 5), (21, 6), (24, 7), (28, 8), (31, 9), (34, 10), (38, 11)]

/-- `SSCC.BinaryCodingScheme`.  /repo/epcpy/epc_schemes/sscc.py:117-118 -/
inductive Coding where
  | sscc96
  deriving DecidableEq, Repr

/-- `.value` of a coding scheme. -/
def Coding.value : Coding → Str
  | .sscc96 => py "sscc-96"

/-- `SSCC.BinaryHeader`.  /repo/epcpy/epc_schemes/sscc.py:120-121 -/
def Coding.header : Coding → Str
  | .sscc96 => py "00110001"

/-- `header_to_schemes()`.  /repo/epcpy/epc_schemes/base_scheme.py:198-208 -/
def headers : List (Str × Coding) := [(Coding.header .sscc96, .sscc96)]

/-- `SSCC.__init__`; `split(":")[-1]` is the last part.  /repo/epcpy/epc_schemes/sscc.py:125-148 -/
def new (uri : Str) : Except Err SSCC := do
  guardConvert (Rx.ssccUri.fullmatch uri)
  let (companyPref, serial) ← unpack2 (split '.' ((split ':' uri).getLastD []))
  guardConvert (decide ((companyPref ++ serial).length = 17 ∧ 6 ≤ companyPref.length ∧ companyPref.length ≤ 12))
  let first ← getIdx serial 0
  let checkDigit ← calculateChecksum (first :: companyPref ++ serial.drop 1)
  return ⟨uri, companyPref, serial, first :: companyPref ++ serial.drop 1 ++ natStr checkDigit⟩

/-- `SSCC.gs1_key`.  /repo/epcpy/epc_schemes/sscc.py:150-156 -/
def gs1Key (x : SSCC) : Str := x.sscc

/-- `SSCC.gs1_element_string`.  /repo/epcpy/epc_schemes/sscc.py:158-164 -/
def gs1ElementString (x : SSCC) : Except Err Str := .ok (py "(00)" ++ x.sscc)

/-- `SSCC.from_gs1_element_string`.  /repo/epcpy/epc_schemes/sscc.py:166-191 -/
def fromGs1ElementString (s : Str) (n : Int) : Except Err SSCC := do
  guardConvert (Rx.ssccElem.fullmatch s)
  let (_, digits) ← unpack2 (splitNoCap (parenLen 2) s)
  let first ← getIdx digits 0
  new (py "urn:epc:id:sscc:" ++ sliceI digits 1 (n + 1) ++ '.' :: first :: sliceI digits (1 + n) (-1))

/-- `SSCC.tag_uri`.  /repo/epcpy/epc_schemes/sscc.py:193-208 -/
def tagUri (x : SSCC) (cs : Coding) (f : Fin 8) : Except Err Str :=
  .ok (tagUriPrefix ++ cs.value ++ ':' :: filterStr f ++ '.' :: x.companyPref ++ '.' :: x.serial)

/-- `SSCC.binary`.  /repo/epcpy/epc_schemes/sscc.py:210-231 -/
def binary (x : SSCC) (cs : Coding) (f : Fin 8) : Except Err Str := do
  let filterBinary ← strToBinary (filterStr f) 3
  let ssccBinary ← encodePartitionTable x.companyPref x.serial table
  return cs.header ++ filterBinary ++ ssccBinary ++ List.replicate 24 '0'

/-- `SSCC.from_tag_uri`.  /repo/epcpy/epc_schemes/base_scheme.py:169-196 -/
def fromTagUri (t : Str) : Except Err SSCC := Epc.fromTagUri new true t

/-- `SSCC.from_binary`.  /repo/epcpy/epc_schemes/sscc.py:233-256 -/
def fromBinary (b : Str) : Except Err SSCC := do
  let (cs, b) ← parseHeader headers Coding.value b
  let filter ← binaryToInt (slice b 8 11)
  let sscc ← decodePartitionTable (slice b 11 72) table
  fromTagUri (tagUriPrefix ++ cs.value ++ ':' :: intStr filter ++ '.' :: sscc)

/-- `SSCC.hex`.  /repo/epcpy/epc_schemes/base_scheme.py:106-117 -/
def hex (x : SSCC) (cs : Coding) (f : Fin 8) : Except Err Str := hexOf (x.binary cs f)
/-- `SSCC.base64`.  /repo/epcpy/epc_schemes/base_scheme.py:119-127 -/
def base64 (x : SSCC) (cs : Coding) (f : Fin 8) : Except Err Str := base64Of (x.binary cs f)
/-- `SSCC.from_hex`.  /repo/epcpy/epc_schemes/base_scheme.py:143-153 -/
def fromHex (h : Str) : Except Err SSCC := fromHexWith fromBinary h
/-- `SSCC.from_base64`.  /repo/epcpy/epc_schemes/base_scheme.py:155-167 -/
def fromBase64 (s : Str) : Except Err SSCC := fromBase64With fromBinary s

end SSCC
end Epc
