/-
Model of /repo/epcpy/epc_schemes/gsrn.py.
-/
import Verif.Model.Base

namespace Epc

/-- Instance of class `GSRN`: the attributes set by `__init__`. -/
structure GSRN where
  epcUri : Str
  companyPref : Str
  serviceRef : Str
  gsrn : Str
  deriving DecidableEq, Repr

namespace GSRN

/-- `PARTITION_TABLE_P`/`PARTITION_TABLE_L`.  /repo/epcpy/epc_schemes/gsrn.py:21-81 -/
def table : List Row := mkTable [(18, 5), (21, 6), (24, 7), (28, 8), (31, 9), (34, 10), (38, 11)]

/-- `GSRN.BinaryCodingScheme`.  /repo/epcpy/epc_schemes/gsrn.py:118-119 -/
inductive Coding where
  | gsrn96
  deriving DecidableEq, Repr

/-- `.value` of a coding scheme. -/
def Coding.value : Coding → Str
  | .gsrn96 => py "gsrn-96"

/-- `GSRN.BinaryHeader`.  /repo/epcpy/epc_schemes/gsrn.py:121-122 -/
def Coding.header : Coding → Str
  | .gsrn96 => py "00101101"

/-- `header_to_schemes()`.  /repo/epcpy/epc_schemes/base_scheme.py:198-208 -/
def headers : List (Str × Coding) := [(Coding.header .gsrn96, .gsrn96)]

/-- `GSRN.__init__`.  /repo/epcpy/epc_schemes/gsrn.py:126-145 -/
def new (uri : Str) : Except Err GSRN := do
  guardConvert (Rx.gsrnUri.fullmatch uri)
  let body ← getPart (split ':' uri) 4
  let (companyPref, serviceRef) ← unpack2 (split '.' body)
  guardConvert (decide ((companyPref ++ serviceRef).length = 17 ∧ 6 ≤ companyPref.length ∧ companyPref.length ≤ 12))
  let checkDigit ← calculateChecksum (companyPref ++ serviceRef)
  return ⟨uri, companyPref, serviceRef, companyPref ++ serviceRef ++ natStr checkDigit⟩

/-- `GSRN.gs1_key`.  /repo/epcpy/epc_schemes/gsrn.py:147-153 -/
def gs1Key (x : GSRN) : Str := x.gsrn

/-- `GSRN.gs1_element_string`.  /repo/epcpy/epc_schemes/gsrn.py:155-161 -/
def gs1ElementString (x : GSRN) : Except Err Str := .ok (py "(8018)" ++ x.gsrn)

/-- `GSRN.from_gs1_element_string`.  /repo/epcpy/epc_schemes/gsrn.py:163-188 -/
def fromGs1ElementString (s : Str) (n : Int) : Except Err GSRN := do
  guardConvert (Rx.gsrnElem.fullmatch s)
  let digits := s.drop 6
  new (py "urn:epc:id:gsrn:" ++ sliceToI digits n ++ '.' :: sliceI digits n (-1))

/-- `GSRN.tag_uri`.  /repo/epcpy/epc_schemes/gsrn.py:190-204 -/
def tagUri (x : GSRN) (cs : Coding) (f : Fin 8) : Except Err Str :=
  .ok (tagUriPrefix ++ cs.value ++ ':' :: filterStr f ++ '.' :: x.companyPref ++ '.' :: x.serviceRef)

/-- `GSRN.binary`.  /repo/epcpy/epc_schemes/gsrn.py:206-226 -/
def binary (x : GSRN) (cs : Coding) (f : Fin 8) : Except Err Str := do
  let filterBinary ← strToBinary (filterStr f) 3
  let body ← encodePartitionTable x.companyPref x.serviceRef table
  return cs.header ++ filterBinary ++ body ++ List.replicate 24 '0'

/-- `GSRN.from_tag_uri`.  /repo/epcpy/epc_schemes/base_scheme.py:169-196 -/
def fromTagUri (t : Str) : Except Err GSRN := Epc.fromTagUri new true t

/-- `GSRN.from_binary`.  /repo/epcpy/epc_schemes/gsrn.py:228-251 -/
def fromBinary (b : Str) : Except Err GSRN := do
  let (cs, b) ← parseHeader headers Coding.value b
  let filter ← binaryToInt (slice b 8 11)
  let body ← decodePartitionTable (slice b 11 72) table
  fromTagUri (tagUriPrefix ++ cs.value ++ ':' :: intStr filter ++ '.' :: body)

/-- `GSRN.hex`.  /repo/epcpy/epc_schemes/base_scheme.py:106-117 -/
def hex (x : GSRN) (cs : Coding) (f : Fin 8) : Except Err Str := hexOf (x.binary cs f)
/-- `GSRN.base64`.  /repo/epcpy/epc_schemes/base_scheme.py:119-127 -/
def base64 (x : GSRN) (cs : Coding) (f : Fin 8) : Except Err Str := base64Of (x.binary cs f)
/-- `GSRN.from_hex`.  /repo/epcpy/epc_schemes/base_scheme.py:143-153 -/
def fromHex (h : Str) : Except Err GSRN := fromHexWith fromBinary h
/-- `GSRN.from_base64`.  /repo/epcpy/epc_schemes/base_scheme.py:155-167 -/
def fromBase64 (s : Str) : Except Err GSRN := fromBase64With fromBinary s

end GSRN
end Epc
