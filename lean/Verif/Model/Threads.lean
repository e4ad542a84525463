/-
The methods of the scheme objects as programs of threads that share the objects.

The attributes of an object are assigned in `__init__` (which runs before the object is shared) with a single exception: `CPI.tag_uri` stores
its result in `self._tag_uri` and then returns `self._tag_uri`.  All other methods only read attributes assigned by `__init__`; since nobody
assigns these again, reading all of them at once is the same as reading them one by one, and the model reads them in one action.
-/
import Verif.Py.Threads
import Verif.Model.Parsers

namespace Epc

/-- The four output methods of the tag encodable classes. -/
inductive Out where
  | tagUri
  | binary
  | hex
  | base64
  deriving DecidableEq, Repr

/-- A method call with its arguments. -/
inductive Method where
  /-- `gs1_key()`, `gs1_key(gtin_type=t)` -/
  | gs1Key (t : Option GtinType)
  /-- `gs1_element_string()` -/
  | gs1ElementString
  /-- `SGTIN.tag_uri`, `SGTIN.binary`, `SGTIN.hex`, `SGTIN.base64` -/
  | sgtin (out : Out) (cs : SGTIN.Coding) (f : Fin 8)
  /-- `SSCC.tag_uri`, `SSCC.binary`, `SSCC.hex`, `SSCC.base64` -/
  | sscc (out : Out) (cs : SSCC.Coding) (f : Fin 8)
  /-- `SGLN.tag_uri`, `SGLN.binary`, `SGLN.hex`, `SGLN.base64` -/
  | sgln (out : Out) (cs : SGLN.Coding) (f : Fin 8)
  /-- `GRAI.tag_uri`, `GRAI.binary`, `GRAI.hex`, `GRAI.base64` -/
  | grai (out : Out) (cs : GRAI.Coding) (f : Fin 8)
  /-- `GIAI.tag_uri`, `GIAI.binary`, `GIAI.hex`, `GIAI.base64` -/
  | giai (out : Out) (cs : GIAI.Coding) (f : Fin 8)
  /-- `GID.tag_uri`, `GID.binary`, `GID.hex`, `GID.base64` -/
  | gid (out : Out) (cs : GID.Coding)
  /-- `GSRN.tag_uri`, `GSRN.binary`, `GSRN.hex`, `GSRN.base64` -/
  | gsrn (out : Out) (cs : GSRN.Coding) (f : Fin 8)
  /-- `GSRNP.tag_uri`, `GSRNP.binary`, `GSRNP.hex`, `GSRNP.base64` -/
  | gsrnp (out : Out) (cs : GSRNP.Coding) (f : Fin 8)
  /-- `GDTI.tag_uri`, `GDTI.binary`, `GDTI.hex`, `GDTI.base64` -/
  | gdti (out : Out) (cs : GDTI.Coding) (f : Fin 8)
  /-- `CPI.tag_uri`, `CPI.binary`, `CPI.hex`, `CPI.base64` -/
  | cpi (out : Out) (cs : CPI.Coding) (f : Fin 8)
  /-- `SGCN.tag_uri`, `SGCN.binary`, `SGCN.hex`, `SGCN.base64` -/
  | sgcn (out : Out) (cs : SGCN.Coding) (f : Fin 8)
  /-- `USDOD.tag_uri`, `USDOD.binary`, `USDOD.hex`, `USDOD.base64` -/
  | usdod (out : Out) (cs : USDOD.Coding) (f : Fin 16)
  /-- `ADI.tag_uri`, `ADI.binary`, `ADI.hex`, `ADI.base64` -/
  | adi (out : Out) (cs : ADI.Coding) (f : Fin 64)
  /-- `ITIP.tag_uri`, `ITIP.binary`, `ITIP.hex`, `ITIP.base64` -/
  | itip (out : Out) (cs : ITIP.Coding) (f : Fin 8)
  deriving DecidableEq, Repr

/-- The four output methods of `SGTIN`, called on an object nobody else uses. -/
def SGTIN.out (x : SGTIN) (out : Out) (cs : SGTIN.Coding) (f : Fin 8) : Except Err Str :=
  match out with
  | .tagUri => x.tagUri cs f
  | .binary => x.binary cs f
  | .hex => x.hex cs f
  | .base64 => x.base64 cs f

/-- The four output methods of `SSCC`, called on an object nobody else uses. -/
def SSCC.out (x : SSCC) (out : Out) (cs : SSCC.Coding) (f : Fin 8) : Except Err Str :=
  match out with
  | .tagUri => x.tagUri cs f
  | .binary => x.binary cs f
  | .hex => x.hex cs f
  | .base64 => x.base64 cs f

/-- The four output methods of `SGLN`, called on an object nobody else uses. -/
def SGLN.out (x : SGLN) (out : Out) (cs : SGLN.Coding) (f : Fin 8) : Except Err Str :=
  match out with
  | .tagUri => x.tagUri cs f
  | .binary => x.binary cs f
  | .hex => x.hex cs f
  | .base64 => x.base64 cs f

/-- The four output methods of `GRAI`, called on an object nobody else uses. -/
def GRAI.out (x : GRAI) (out : Out) (cs : GRAI.Coding) (f : Fin 8) : Except Err Str :=
  match out with
  | .tagUri => x.tagUri cs f
  | .binary => x.binary cs f
  | .hex => x.hex cs f
  | .base64 => x.base64 cs f

/-- The four output methods of `GIAI`, called on an object nobody else uses. -/
def GIAI.out (x : GIAI) (out : Out) (cs : GIAI.Coding) (f : Fin 8) : Except Err Str :=
  match out with
  | .tagUri => x.tagUri cs f
  | .binary => x.binary cs f
  | .hex => x.hex cs f
  | .base64 => x.base64 cs f

/-- The four output methods of `GID`, called on an object nobody else uses. -/
def GID.out (x : GID) (out : Out) (cs : GID.Coding) : Except Err Str :=
  match out with
  | .tagUri => x.tagUri cs
  | .binary => x.binary cs
  | .hex => x.hex cs
  | .base64 => x.base64 cs

/-- The four output methods of `GSRN`, called on an object nobody else uses. -/
def GSRN.out (x : GSRN) (out : Out) (cs : GSRN.Coding) (f : Fin 8) : Except Err Str :=
  match out with
  | .tagUri => x.tagUri cs f
  | .binary => x.binary cs f
  | .hex => x.hex cs f
  | .base64 => x.base64 cs f

/-- The four output methods of `GSRNP`, called on an object nobody else uses. -/
def GSRNP.out (x : GSRNP) (out : Out) (cs : GSRNP.Coding) (f : Fin 8) : Except Err Str :=
  match out with
  | .tagUri => x.tagUri cs f
  | .binary => x.binary cs f
  | .hex => x.hex cs f
  | .base64 => x.base64 cs f

/-- The four output methods of `GDTI`, called on an object nobody else uses. -/
def GDTI.out (x : GDTI) (out : Out) (cs : GDTI.Coding) (f : Fin 8) : Except Err Str :=
  match out with
  | .tagUri => x.tagUri cs f
  | .binary => x.binary cs f
  | .hex => x.hex cs f
  | .base64 => x.base64 cs f

/-- The four output methods of `CPI`, called on an object nobody else uses. -/
def CPI.out (x : CPI) (out : Out) (cs : CPI.Coding) (f : Fin 8) : Except Err Str :=
  match out with
  | .tagUri => x.tagUri cs f
  | .binary => x.binary cs f
  | .hex => x.hex cs f
  | .base64 => x.base64 cs f

/-- The four output methods of `SGCN`, called on an object nobody else uses. -/
def SGCN.out (x : SGCN) (out : Out) (cs : SGCN.Coding) (f : Fin 8) : Except Err Str :=
  match out with
  | .tagUri => x.tagUri cs f
  | .binary => x.binary cs f
  | .hex => x.hex cs f
  | .base64 => x.base64 cs f

/-- The four output methods of `USDOD`, called on an object nobody else uses. -/
def USDOD.out (x : USDOD) (out : Out) (cs : USDOD.Coding) (f : Fin 16) : Except Err Str :=
  match out with
  | .tagUri => x.tagUri cs f
  | .binary => x.binary cs f
  | .hex => x.hex cs f
  | .base64 => x.base64 cs f

/-- The four output methods of `ADI`, called on an object nobody else uses. -/
def ADI.out (x : ADI) (out : Out) (cs : ADI.Coding) (f : Fin 64) : Except Err Str :=
  match out with
  | .tagUri => x.tagUri cs f
  | .binary => x.binary cs f
  | .hex => x.hex cs f
  | .base64 => x.base64 cs f

/-- The four output methods of `ITIP`, called on an object nobody else uses. -/
def ITIP.out (x : ITIP) (out : Out) (cs : ITIP.Coding) (f : Fin 8) : Except Err Str :=
  match out with
  | .tagUri => x.tagUri cs f
  | .binary => x.binary cs f
  | .hex => x.hex cs f
  | .base64 => x.base64 cs f

/-- What a call returns on an object nobody else uses.  Calls of a method on an object of another class are not modelled (they count as
TypeError). -/
def Scheme.answer (x : Scheme) (m : Method) : Except Err Str :=
  match m with
  | .gs1Key t => x.gs1Key t
  | .gs1ElementString => x.gs1ElementString
  | .sgtin out cs f => match x with
    | .sgtin x => x.out out cs f
    | _ => .error .type
  | .sscc out cs f => match x with
    | .sscc x => x.out out cs f
    | _ => .error .type
  | .sgln out cs f => match x with
    | .sgln x => x.out out cs f
    | _ => .error .type
  | .grai out cs f => match x with
    | .grai x => x.out out cs f
    | _ => .error .type
  | .giai out cs f => match x with
    | .giai x => x.out out cs f
    | _ => .error .type
  | .gid out cs => match x with
    | .gid x => x.out out cs
    | _ => .error .type
  | .gsrn out cs f => match x with
    | .gsrn x => x.out out cs f
    | _ => .error .type
  | .gsrnp out cs f => match x with
    | .gsrnp x => x.out out cs f
    | _ => .error .type
  | .gdti out cs f => match x with
    | .gdti x => x.out out cs f
    | _ => .error .type
  | .cpi out cs f => match x with
    | .cpi x => x.out out cs f
    | _ => .error .type
  | .sgcn out cs f => match x with
    | .sgcn x => x.out out cs f
    | _ => .error .type
  | .usdod out cs f => match x with
    | .usdod x => x.out out cs f
    | _ => .error .type
  | .adi out cs f => match x with
    | .adi x => x.out out cs f
    | _ => .error .type
  | .itip out cs f => match x with
    | .itip x => x.out out cs f
    | _ => .error .type

/-- `CPI.tag_uri`: the check, the assignment of `_tag_uri`, and `return self._tag_uri`.  /repo/epcpy/epc_schemes/cpi.py:260-291 -/
def CPI.tagUriBody (cs : CPI.Coding) (f : Fin 8) : Prog Scheme :=
  .read fun
    | .cpi x =>
      match x.badSerial cs with
      | .error e => .done (.error e)
      | .ok true => .done (.error .convert)
      | .ok false =>
        .store (tagUriPrefix ++ cs.value ++ ':' :: filterStr f ++ '.' :: x.companyPref ++ '.' :: x.cpRef ++ '.' :: x.serial)
          (.load fun v => .done (.ok v))
    | _ => .done (.error .type)

/-- The body of a method: all but `CPI.tag_uri` only read attributes that `__init__` assigned. -/
def Method.body : Method → Prog Scheme
  | .cpi .tagUri cs f => CPI.tagUriBody cs f
  | m => .read fun x => .done ((x.answer m).map some)

end Epc
