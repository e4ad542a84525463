/-
Model of /repo/epcpy/epc_schemes/adi.py.
-/
import Verif.Model.Base

namespace Epc

/-- Instance of class `ADI`: the attributes set by `__init__`. -/
structure ADI where
  epcUri : Str
  cage : Str
  partNumber : Str
  serial : Str
  deriving DecidableEq, Repr

namespace ADI

/-- `ADI.BinaryCodingScheme`.  /repo/epcpy/epc_schemes/adi.py:109-110 -/
inductive Coding where
  | adiVar
  deriving DecidableEq, Repr

/-- `.value` of a coding scheme. -/
def Coding.value : Coding → Str
  | .adiVar => py "adi-var"

/-- `ADI.BinaryHeader`.  /repo/epcpy/epc_schemes/adi.py:112-113 -/
def Coding.header : Coding → Str
  | .adiVar => py "00111011"

/-- `header_to_schemes()`.  /repo/epcpy/epc_schemes/base_scheme.py:198-208 -/
def headers : List (Str × Coding) := [(Coding.header .adiVar, .adiVar)]

/-- `ADI.__init__`.  /repo/epcpy/epc_schemes/adi.py:115-135 -/
def new (uri : Str) : Except Err ADI := do
  guardConvert (Rx.adiUri.fullmatch uri)
  let body ← getPart (split ':' uri) 4
  let (cage, partNumber, serial) ← unpack3 (split '.' body)
  guardConvert (decide ((replaceAll (py "%2F") (py "/") partNumber).length ≤ 32))
  let s := replaceAll (py "%23") (py "#") (replaceAll (py "%2F") (py "/") serial)
  guardConvert (decide (1 ≤ s.length ∧ s.length ≤ 30))
  return ⟨uri, cage, partNumber, serial⟩

/-- `ADI.tag_uri`; filter values 0 to 63.  /repo/epcpy/epc_schemes/adi.py:137-151 -/
def tagUri (x : ADI) (cs : Coding) (f : Fin 64) : Except Err Str :=
  .ok (tagUriPrefix ++ cs.value ++ ':' :: filterStr f ++ '.' :: x.cage ++ '.' :: x.partNumber ++ '.' :: x.serial)

/-- `ADI.binary`.  /repo/epcpy/epc_schemes/adi.py:153-180 -/
def binary (x : ADI) (cs : Coding) (f : Fin 64) : Except Err Str := do
  let filterBinary ← strToBinary (filterStr f) 6
  let cageBinary ← encodeCageCodeSixBits x.cage
  let partBinary ← encodeStringSixBits x.partNumber
  let serialBinary ← encodeStringSixBits x.serial
  return cs.header ++ filterBinary ++ cageBinary ++ partBinary ++ serialBinary

/-- `ADI.from_tag_uri`.  /repo/epcpy/epc_schemes/base_scheme.py:169-196 -/
def fromTagUri (t : Str) : Except Err ADI := Epc.fromTagUri new true t

/-- `re.match(".*([0]{6})+.*", s)`: six zeros on the first line.  /repo/epcpy/epc_schemes/adi.py:203 -/
def hasTerminator (s : Str) : Bool :=
  (Re.seqs [.star (.cls anyChar), Re.plus (Re.rep (Re.chr '0') 6), .star (.cls anyChar)]).matchPrefix s

/-- Pattern `[0]{6}`.  /repo/epcpy/epc_schemes/adi.py:209 -/
def zerosLen (s : Str) : Option Nat := fixedLen (List.replicate 6 (· == '0')) s

/-- `ADI.from_binary`.  /repo/epcpy/epc_schemes/adi.py:182-221 -/
def fromBinary (b : Str) : Except Err ADI := do
  let (cs, b) ← parseHeader headers Coding.value b
  guardConvert (hasTerminator (b.drop 50))
  let (partBinary, _, rest) ← unpack2s (splitCap zerosLen (b.drop 50))
  let serialTrimmed := sliceToI rest.flatten (-6)
  let filter ← binaryToInt (slice b 8 14)
  let cage ← decodeCageCodeSixBits (slice b 14 50)
  let part ← decodeStringSixBits partBinary 32
  let serial ← decodeStringSixBits serialTrimmed 30
  fromTagUri (tagUriPrefix ++ cs.value ++ ':' :: intStr filter ++ '.' :: cage ++ '.' :: part ++ '.' :: serial)

/-- `ADI.hex`.  /repo/epcpy/epc_schemes/base_scheme.py:106-117 -/
def hex (x : ADI) (cs : Coding) (f : Fin 64) : Except Err Str := hexOf (x.binary cs f)
/-- `ADI.base64`.  /repo/epcpy/epc_schemes/base_scheme.py:119-127 -/
def base64 (x : ADI) (cs : Coding) (f : Fin 64) : Except Err Str := base64Of (x.binary cs f)
/-- `ADI.from_hex`.  /repo/epcpy/epc_schemes/base_scheme.py:143-153 -/
def fromHex (h : Str) : Except Err ADI := fromHexWith fromBinary h
/-- `ADI.from_base64`.  /repo/epcpy/epc_schemes/base_scheme.py:155-167 -/
def fromBase64 (s : Str) : Except Err ADI := fromBase64With fromBinary s

end ADI
end Epc
