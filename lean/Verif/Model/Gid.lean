/-
Model of /repo/epcpy/epc_schemes/gid.py.
-/
import Verif.Model.Base

namespace Epc

/-- Instance of class `GID`: the attributes set by `__init__`. -/
structure GID where
  epcUri : Str
  manager : Str
  object : Str
  serial : Str
  deriving DecidableEq, Repr

namespace GID

/-- `GID.BinaryCodingScheme`.  /repo/epcpy/epc_schemes/gid.py:38-39 -/
inductive Coding where
  | gid96
  deriving DecidableEq, Repr

/-- `.value` of a coding scheme. -/
def Coding.value : Coding → Str
  | .gid96 => py "gid-96"

/-- `GID.BinaryHeader`.  /repo/epcpy/epc_schemes/gid.py:41-42 -/
def Coding.header : Coding → Str
  | .gid96 => py "00110101"

/-- `header_to_schemes()`.  /repo/epcpy/epc_schemes/base_scheme.py:198-208 -/
def headers : List (Str × Coding) := [(Coding.header .gid96, .gid96)]

/-- `GID.__init__`.  /repo/epcpy/epc_schemes/gid.py:44-63 -/
def new (uri : Str) : Except Err GID := do
  guardConvert (Rx.gidUri.fullmatch uri)
  let body ← getPart (split ':' uri) 4
  let (manager, object, serial) ← unpack3 (split '.' body)
  let m ← pyInt 10 manager
  guardConvert (decide (m < ((2 ^ 28 : Nat) : Int)))
  let o ← pyInt 10 object
  guardConvert (decide (o < ((2 ^ 24 : Nat) : Int)))
  let s ← pyInt 10 serial
  guardConvert (decide (s < ((2 ^ 36 : Nat) : Int)) && !(decide (serial.length > 1) && serial.head? == some '0'))
  return ⟨uri, manager, object, serial⟩

/-- `GID.tag_uri`.  /repo/epcpy/epc_schemes/gid.py:65-78 -/
def tagUri (x : GID) (cs : Coding) : Except Err Str :=
  .ok (tagUriPrefix ++ cs.value ++ ':' :: x.manager ++ '.' :: x.object ++ '.' :: x.serial)

/-- `GID.binary`.  /repo/epcpy/epc_schemes/gid.py:80-99 -/
def binary (x : GID) (cs : Coding) : Except Err Str := do
  let managerBinary ← strToBinary x.manager 28
  let objectBinary ← strToBinary x.object 24
  let serialBinary ← strToBinary x.serial 36
  return cs.header ++ managerBinary ++ objectBinary ++ serialBinary

/-- `GID.from_tag_uri` (no filter value).  /repo/epcpy/epc_schemes/gid.py:101-115 -/
def fromTagUri (t : Str) : Except Err GID := Epc.fromTagUri new false t

/-- `GID.from_binary`.  /repo/epcpy/epc_schemes/gid.py:117-143 -/
def fromBinary (b : Str) : Except Err GID := do
  let (cs, b) ← parseHeader headers Coding.value b
  let manager ← binIntStr (slice b 8 36)
  let object ← binIntStr (slice b 36 60)
  let serial ← binIntStr (b.drop 60)
  fromTagUri (tagUriPrefix ++ cs.value ++ ':' :: manager ++ '.' :: object ++ '.' :: serial)

/-- `GID.hex`.  /repo/epcpy/epc_schemes/base_scheme.py:106-117 -/
def hex (x : GID) (cs : Coding) : Except Err Str := hexOf (x.binary cs)
/-- `GID.base64`.  /repo/epcpy/epc_schemes/base_scheme.py:119-127 -/
def base64 (x : GID) (cs : Coding) : Except Err Str := base64Of (x.binary cs)
/-- `GID.from_hex`.  /repo/epcpy/epc_schemes/base_scheme.py:143-153 -/
def fromHex (h : Str) : Except Err GID := fromHexWith fromBinary h
/-- `GID.from_base64`.  /repo/epcpy/epc_schemes/base_scheme.py:155-167 -/
def fromBase64 (s : Str) : Except Err GID := fromBase64With fromBinary s

end GID
end Epc
