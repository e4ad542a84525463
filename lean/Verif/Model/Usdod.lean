/-
Model of /repo/epcpy/epc_schemes/usdod.py.
-/
import Verif.Model.Base

namespace Epc

/-- Instance of class `USDOD`: the attributes set by `__init__`. -/
structure USDOD where
  epcUri : Str
  cage : Str
  serial : Str
  deriving DecidableEq, Repr

namespace USDOD

/-- `USDOD.BinaryCodingScheme`.  /repo/epcpy/epc_schemes/usdod.py:59-60 -/
inductive Coding where
  | usdod96
  deriving DecidableEq, Repr

/-- `.value` of a coding scheme. -/
def Coding.value : Coding → Str
  | .usdod96 => py "usdod-96"

/-- `USDOD.BinaryHeader`.  /repo/epcpy/epc_schemes/usdod.py:62-63 -/
def Coding.header : Coding → Str
  | .usdod96 => py "00101111"

/-- `header_to_schemes()`.  /repo/epcpy/epc_schemes/base_scheme.py:198-208 -/
def headers : List (Str × Coding) := [(Coding.header .usdod96, .usdod96)]

/-- `USDOD.__init__`.  /repo/epcpy/epc_schemes/usdod.py:65-78 -/
def new (uri : Str) : Except Err USDOD := do
  guardConvert (Rx.usdodUri.fullmatch uri)
  let body ← getPart (split ':' uri) 4
  let (cage, serial) ← unpack2 (split '.' body)
  let s ← pyInt 10 serial
  guardConvert (decide (s < ((2 ^ 36 : Nat) : Int)) && !(decide (serial.length > 1) && serial.head? == some '0'))
  return ⟨uri, cage, serial⟩

/-- `USDOD.tag_uri`; filter values 0 to 15.  /repo/epcpy/epc_schemes/usdod.py:80-95 -/
def tagUri (x : USDOD) (cs : Coding) (f : Fin 16) : Except Err Str :=
  .ok (tagUriPrefix ++ cs.value ++ ':' :: filterStr f ++ '.' :: x.cage ++ '.' :: x.serial)

/-- `USDOD.binary`.  /repo/epcpy/epc_schemes/usdod.py:97-117 -/
def binary (x : USDOD) (cs : Coding) (f : Fin 16) : Except Err Str := do
  let filterBinary ← strToBinary (filterStr f) 4
  let cageBinary := encodeCageCode (padLeft ' ' 6 x.cage)
  let serialBinary ← strToBinary x.serial 36
  return cs.header ++ filterBinary ++ cageBinary ++ serialBinary

/-- `USDOD.from_tag_uri`.  /repo/epcpy/epc_schemes/base_scheme.py:169-196 -/
def fromTagUri (t : Str) : Except Err USDOD := Epc.fromTagUri new true t

/-- `USDOD.from_binary`.  /repo/epcpy/epc_schemes/usdod.py:119-144 -/
def fromBinary (b : Str) : Except Err USDOD := do
  let (cs, b) ← parseHeader headers Coding.value b
  let filter ← binaryToInt (slice b 8 12)
  let cage ← decodeCageCode (slice b 12 60)
  let serial ← binIntStr (b.drop 60)
  fromTagUri (tagUriPrefix ++ cs.value ++ ':' :: intStr filter ++ '.' :: cage ++ '.' :: serial)

/-- `USDOD.hex`.  /repo/epcpy/epc_schemes/base_scheme.py:106-117 -/
def hex (x : USDOD) (cs : Coding) (f : Fin 16) : Except Err Str := hexOf (x.binary cs f)
/-- `USDOD.base64`.  /repo/epcpy/epc_schemes/base_scheme.py:119-127 -/
def base64 (x : USDOD) (cs : Coding) (f : Fin 16) : Except Err Str := base64Of (x.binary cs f)
/-- `USDOD.from_hex`.  /repo/epcpy/epc_schemes/base_scheme.py:143-153 -/
def fromHex (h : Str) : Except Err USDOD := fromHexWith fromBinary h
/-- `USDOD.from_base64`.  /repo/epcpy/epc_schemes/base_scheme.py:155-167 -/
def fromBase64 (s : Str) : Except Err USDOD := fromBase64With fromBinary s

end USDOD
end Epc
