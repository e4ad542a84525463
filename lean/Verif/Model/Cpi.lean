/-
Model of /repo/epcpy/epc_schemes/cpi.py.
-/
import Verif.Model.Base

namespace Epc

/-- Instance of class `CPI`: the attributes set by `__init__`. -/
structure CPI where
  epcUri : Str
  companyPref : Str
  cpRef : Str
  serial : Str
  deriving DecidableEq, Repr

namespace CPI

/-- `PARTITION_TABLE_P_96`/`PARTITION_TABLE_L_96`.  /repo/epcpy/epc_schemes/cpi.py:19-79 -/
def table96 : List Row := mkTable [(11, 3), (14, 4), (17, 5), (21, 6), (24, 7), (27, 8), (31, 9)]

/-- `PARTITION_TABLE_P_VAR`/`PARTITION_TABLE_L_VAR`.  /repo/epcpy/epc_schemes/cpi.py:81-141 -/
def tableVar : List Row := mkTable [(114, 18), (120, 19), (126, 20), (132, 21), (138, 22), (144, 23), (150, 24)]

/-- `CPI.BinaryCodingScheme`.  /repo/epcpy/epc_schemes/cpi.py:193-195 -/
inductive Coding where
  | cpi96
  | cpiVar
  deriving DecidableEq, Repr

/-- `.value` of a coding scheme. -/
def Coding.value : Coding → Str
  | .cpi96 => py "cpi-96"
  | .cpiVar => py "cpi-var"

/-- `CPI.BinaryHeader`.  /repo/epcpy/epc_schemes/cpi.py:197-199 -/
def Coding.header : Coding → Str
  | .cpi96 => py "00111100"
  | .cpiVar => py "00111101"

/-- `header_to_schemes()`.  /repo/epcpy/epc_schemes/base_scheme.py:198-208 -/
def headers : List (Str × Coding) := [(Coding.header .cpi96, .cpi96), (Coding.header .cpiVar, .cpiVar)]

/-- `replace_cpi_escapes`.  /repo/epcpy/epc_schemes/cpi.py:155-164 -/
def replaceCpiEscapes (s : Str) : Str := replaceAll (py "%2F") (py "/") (replaceAll (py "%23") (py "#") s)

/-- `revert_cpi_escapes`.  /repo/epcpy/epc_schemes/cpi.py:167-168 -/
def revertCpiEscapes (s : Str) : Str := replaceAll (py "/") (py "%2F") (replaceAll (py "#") (py "%23") s)

/-- `CPI.__init__`.  /repo/epcpy/epc_schemes/cpi.py:203-220 -/
def new (uri : Str) : Except Err CPI := do
  guardConvert (Rx.cpiUri.fullmatch uri)
  let body ← getPart (split ':' uri) 4
  let (companyPref, cpRef, serial) ← unpack3 (split '.' body)
  guardConvert (decide ((companyPref ++ cpRef).length ≤ 30 ∧ serial.length ≤ 12 ∧
    (6 ≤ companyPref.length ∧ companyPref.length ≤ 12)))
  return ⟨uri, companyPref, cpRef, serial⟩

/-- `CPI.gs1_element_string`.  /repo/epcpy/epc_schemes/cpi.py:222-230 -/
def gs1ElementString (x : CPI) : Except Err Str :=
  .ok (py "(8010)" ++ x.companyPref ++ replaceCpiEscapes x.cpRef ++ py "(8011)" ++ x.serial)

/-- `CPI.from_gs1_element_string`.  /repo/epcpy/epc_schemes/cpi.py:232-258 -/
def fromGs1ElementString (s : Str) (n : Int) : Except Err CPI := do
  guardConvert (Rx.cpiElem.fullmatch s)
  let (_, digits, serialDigits) ← unpack3 (splitNoCap (parenLen 4) s)
  let chars := revertCpiEscapes (sliceFromI digits n)
  new (py "urn:epc:id:cpi:" ++ sliceToI digits n ++ '.' :: chars ++ '.' :: serialDigits)

/-- The condition under which `CPI.tag_uri` raises.  /repo/epcpy/epc_schemes/cpi.py:275-286 -/
def badSerial (x : CPI) : Coding → Except Err Bool
  | .cpiVar => .ok (decide (x.serial.length > 12))
  | .cpi96 => do
    let i ← pyInt 10 x.serial
    return decide (i ≥ ((2 ^ 31 : Nat) : Int)) || !isNumeric x.cpRef ||
      (decide (x.cpRef.length > 1) && x.cpRef.head? == some '0') ||
      decide ((x.cpRef.length : Int) > 15 - (x.companyPref.length : Int))

/-- `CPI.tag_uri` (called by one thread; that it stores its result in `_tag_uri` and reads it back is modelled in Model/Threads.lean).  /repo/epcpy/epc_schemes/cpi.py:260-291 -/
def tagUri (x : CPI) (cs : Coding) (f : Fin 8) : Except Err Str := do
  let bad ← x.badSerial cs
  if bad then .error .convert
  else return tagUriPrefix ++ cs.value ++ ':' :: filterStr f ++ '.' :: x.companyPref ++ '.' :: x.cpRef ++ '.' :: x.serial

/-- `CPI.binary`.  /repo/epcpy/epc_schemes/cpi.py:293-325 -/
def binary (x : CPI) (cs : Coding) (f : Fin 8) : Except Err Str := do
  let filterBinary ← strToBinary (filterStr f) 3
  let cpiBinary ←
    if cs = .cpi96 then encodePartitionTable x.companyPref x.cpRef table96
    else encodePartitionTable x.companyPref x.cpRef tableVar .sixBit
  let serialBinary ← strToBinary x.serial (if cs = .cpi96 then 31 else 40)
  return cs.header ++ filterBinary ++ cpiBinary ++ serialBinary

/-- `CPI.from_tag_uri`.  /repo/epcpy/epc_schemes/base_scheme.py:169-196 -/
def fromTagUri (t : Str) : Except Err CPI := Epc.fromTagUri new true t

/-- The loop that collects what follows the first six-bit terminator.  /repo/epcpy/epc_schemes/cpi.py:359-365 -/
def serialLoop : Bool → List Str → Str
  | _, [] => []
  | isSerial, g :: gs =>
    (if isSerial then g else []) ++ serialLoop (isSerial || decide (g = py "000000")) gs

/-- The part of `CPI.from_binary` that finds the component/part reference and the bits of the serial.
/repo/epcpy/epc_schemes/cpi.py:343-367 -/
def decodeParts (cs : Coding) (b : Str) : Except Err (Str × Str) :=
  if cs = .cpi96 then do
    let cpi ← decodePartitionTable (slice b 11 65) table96 .unpadded
    return (cpi, b.drop 65)
  else do
    let cpiBinary := b.drop 11
    let cpi ← decodePartitionTable cpiBinary tableVar .sixBit
    let p ← binaryToInt (cpiBinary.take 3)
    let row ← rowByP tableVar p
    let serialBinary := serialLoop false (splitCap (bitsLen 6) (b.drop (11 + 3 + row.M)))
    return (cpi, if serialBinary.length > 0 then serialBinary.take 40 else py "0")

/-- `CPI.from_binary`.  /repo/epcpy/epc_schemes/cpi.py:327-374 -/
def fromBinary (b : Str) : Except Err CPI := do
  let (cs, b) ← parseHeader headers Coding.value b
  let (cpi, serialBinary) ← decodeParts cs b
  let filter ← binaryToInt (slice b 8 11)
  let serial ← binIntStr serialBinary
  fromTagUri (tagUriPrefix ++ cs.value ++ ':' :: intStr filter ++ '.' :: cpi ++ '.' :: serial)

/-- `CPI.hex`.  /repo/epcpy/epc_schemes/base_scheme.py:106-117 -/
def hex (x : CPI) (cs : Coding) (f : Fin 8) : Except Err Str := hexOf (x.binary cs f)
/-- `CPI.base64`.  /repo/epcpy/epc_schemes/base_scheme.py:119-127 -/
def base64 (x : CPI) (cs : Coding) (f : Fin 8) : Except Err Str := base64Of (x.binary cs f)
/-- `CPI.from_hex`.  /repo/epcpy/epc_schemes/base_scheme.py:143-153 -/
def fromHex (h : Str) : Except Err CPI := fromHexWith fromBinary h
/-- `CPI.from_base64`.  /repo/epcpy/epc_schemes/base_scheme.py:155-167 -/
def fromBase64 (s : Str) : Except Err CPI := fromBase64With fromBinary s

end CPI
end Epc
