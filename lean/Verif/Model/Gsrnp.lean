/-
Model of /repo/epcpy/epc_schemes/gsrnp.py.
-/
import Verif.Model.Base

namespace Epc

/-- Instance of class `GSRNP`: the attributes set by `__init__`. -/
structure GSRNP where
  epcUri : Str
  companyPref : Str
  serviceRef : Str
  gsrnp : Str
  deriving DecidableEq, Repr

namespace GSRNP

/-- `PARTITION_TABLE_P`/`PARTITION_TABLE_L`.  /repo/epcpy/epc_schemes/gsrnp.py:21-81 -/
def table : List Row := mkTable [(18, 5), (21, 6), (24, 7), (28, 8), (31, 9), (34, 10), (38, 11)]

/-- `GSRNP.BinaryCodingScheme`.  /repo/epcpy/epc_schemes/gsrnp.py:118-119 -/
inductive Coding where
  | gsrnp96
  deriving DecidableEq, Repr

/-- `.value` of a coding scheme. -/
def Coding.value : Coding → Str
  | .gsrnp96 => py "gsrnp-96"

/-- `GSRNP.BinaryHeader`.  /repo/epcpy/epc_schemes/gsrnp.py:121-122 -/
def Coding.header : Coding → Str
  | .gsrnp96 => py "00101110"

/-- `header_to_schemes()`.  /repo/epcpy/epc_schemes/base_scheme.py:198-208 -/
def headers : List (Str × Coding) := [(Coding.header .gsrnp96, .gsrnp96)]

/-- `GSRNP.__init__`.  /repo/epcpy/epc_schemes/gsrnp.py:126-145 -/
def new (uri : Str) : Except Err GSRNP := do
  guardConvert (Rx.gsrnpUri.fullmatch uri)
  let body ← getPart (split ':' uri) 4
  let (companyPref, serviceRef) ← unpack2 (split '.' body)
  guardConvert (decide ((companyPref ++ serviceRef).length = 17 ∧ 6 ≤ companyPref.length ∧ companyPref.length ≤ 12))
  let checkDigit ← calculateChecksum (companyPref ++ serviceRef)
  return ⟨uri, companyPref, serviceRef, companyPref ++ serviceRef ++ natStr checkDigit⟩

/-- `GSRNP.gs1_key`.  /repo/epcpy/epc_schemes/gsrnp.py:147-153 -/
def gs1Key (x : GSRNP) : Str := x.gsrnp

/-- `GSRNP.gs1_element_string`.  /repo/epcpy/epc_schemes/gsrnp.py:155-161 -/
def gs1ElementString (x : GSRNP) : Except Err Str := .ok (py "(8017)" ++ x.gsrnp)

/-- `GSRNP.from_gs1_element_string`.  /repo/epcpy/epc_schemes/gsrnp.py:163-188 -/
def fromGs1ElementString (s : Str) (n : Int) : Except Err GSRNP := do
  guardConvert (Rx.gsrnpElem.fullmatch s)
  let digits := s.drop 6
  new (py "urn:epc:id:gsrnp:" ++ sliceToI digits n ++ '.' :: sliceI digits n (-1))

/-- `GSRNP.tag_uri`.  /repo/epcpy/epc_schemes/gsrnp.py:190-206 -/
def tagUri (x : GSRNP) (cs : Coding) (f : Fin 8) : Except Err Str :=
  .ok (tagUriPrefix ++ cs.value ++ ':' :: filterStr f ++ '.' :: x.companyPref ++ '.' :: x.serviceRef)

/-- `GSRNP.binary`.  /repo/epcpy/epc_schemes/gsrnp.py:208-228 -/
def binary (x : GSRNP) (cs : Coding) (f : Fin 8) : Except Err Str := do
  let filterBinary ← strToBinary (filterStr f) 3
  let body ← encodePartitionTable x.companyPref x.serviceRef table
  return cs.header ++ filterBinary ++ body ++ List.replicate 24 '0'

/-- `GSRNP.from_tag_uri`.  /repo/epcpy/epc_schemes/base_scheme.py:169-196 -/
def fromTagUri (t : Str) : Except Err GSRNP := Epc.fromTagUri new true t

/-- `GSRNP.from_binary`.  /repo/epcpy/epc_schemes/gsrnp.py:230-253 -/
def fromBinary (b : Str) : Except Err GSRNP := do
  let (cs, b) ← parseHeader headers Coding.value b
  let filter ← binaryToInt (slice b 8 11)
  let body ← decodePartitionTable (slice b 11 72) table
  fromTagUri (tagUriPrefix ++ cs.value ++ ':' :: intStr filter ++ '.' :: body)

/-- `GSRNP.hex`.  /repo/epcpy/epc_schemes/base_scheme.py:106-117 -/
def hex (x : GSRNP) (cs : Coding) (f : Fin 8) : Except Err Str := hexOf (x.binary cs f)
/-- `GSRNP.base64`.  /repo/epcpy/epc_schemes/base_scheme.py:119-127 -/
def base64 (x : GSRNP) (cs : Coding) (f : Fin 8) : Except Err Str := base64Of (x.binary cs f)
/-- `GSRNP.from_hex`.  /repo/epcpy/epc_schemes/base_scheme.py:143-153 -/
def fromHex (h : Str) : Except Err GSRNP := fromHexWith fromBinary h
/-- `GSRNP.from_base64`.  /repo/epcpy/epc_schemes/base_scheme.py:155-167 -/
def fromBase64 (s : Str) : Except Err GSRNP := fromBase64With fromBinary s

end GSRNP
end Epc
