/-
The constructors of /repo/epcpy/epc_schemes/gid.py and usdod.py on an interpreter that limits the number of digits in decimal conversions
(`sys.set_int_max_str_digits`; CPython from 3.11 on, 4300 by default, at least 640, 0 for no limit).  They are the only constructors that call
`int` before they have checked the length of its argument.
-/
import Verif.Model.Gid
import Verif.Model.Usdod

namespace Epc

/-- `int(s)` on an interpreter with the given limit: ValueError when `s` has more digits than that (`_PyLong_FromString` counts digits, not
signs, underscores or white space). -/
def pyIntLim (limit : Nat) (s : Str) : Except Err Int :=
  if limit ≠ 0 ∧ limit < (s.map intNormChar).countP (fun c => (digitIn 10 c).isSome) then .error .value
  else pyInt 10 s

/-- `GID.__init__` with the limit.  /repo/epcpy/epc_schemes/gid.py:44-63 -/
def GID.newLim (limit : Nat) (uri : Str) : Except Err GID := do
  guardConvert (Rx.gidUri.fullmatch uri)
  let body ← getPart (split ':' uri) 4
  let (manager, object, serial) ← unpack3 (split '.' body)
  let m ← pyIntLim limit manager
  guardConvert (decide (m < ((2 ^ 28 : Nat) : Int)))
  let o ← pyIntLim limit object
  guardConvert (decide (o < ((2 ^ 24 : Nat) : Int)))
  let s ← pyIntLim limit serial
  guardConvert (decide (s < ((2 ^ 36 : Nat) : Int)) && !(decide (serial.length > 1) && serial.head? == some '0'))
  return ⟨uri, manager, object, serial⟩

/-- `GID.from_tag_uri` with the limit.  /repo/epcpy/epc_schemes/gid.py:101-115 -/
def GID.fromTagUriLim (limit : Nat) (t : Str) : Except Err GID := Epc.fromTagUri (GID.newLim limit) false t

/-- `USDOD.__init__` with the limit.  /repo/epcpy/epc_schemes/usdod.py:65-78 -/
def USDOD.newLim (limit : Nat) (uri : Str) : Except Err USDOD := do
  guardConvert (Rx.usdodUri.fullmatch uri)
  let body ← getPart (split ':' uri) 4
  let (cage, serial) ← unpack2 (split '.' body)
  let s ← pyIntLim limit serial
  guardConvert (decide (s < ((2 ^ 36 : Nat) : Int)) && !(decide (serial.length > 1) && serial.head? == some '0'))
  return ⟨uri, cage, serial⟩

/-- `USDOD.from_tag_uri` with the limit.  /repo/epcpy/epc_schemes/base_scheme.py:169-196 -/
def USDOD.fromTagUriLim (limit : Nat) (t : Str) : Except Err USDOD := Epc.fromTagUri (USDOD.newLim limit) true t

end Epc
