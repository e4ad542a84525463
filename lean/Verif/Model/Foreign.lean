/-
The output methods called with a coding scheme of any class and a filter value of any class.  Python does not check the annotations of the
parameters.  Of a coding scheme the methods use `.value`, `.name` and the comparison with their own members (a member of another enumeration
is never equal to them); of a filter value they use `.value` only, and the values of the filter enumerations are the decimal numerals of the
numbers below 8, 16 (USDOD) or 64 (ADI).
Generated by tools/gen_foreign.py; the bodies of `binary` are those of the model of each class.
-/
import Verif.Model.Parsers

namespace Epc

/-- A member of the `BinaryCodingScheme` of some class. -/
inductive AnyCoding where
  | sgtin (cs : SGTIN.Coding)
  | sscc (cs : SSCC.Coding)
  | sgln (cs : SGLN.Coding)
  | grai (cs : GRAI.Coding)
  | giai (cs : GIAI.Coding)
  | gsrn (cs : GSRN.Coding)
  | gsrnp (cs : GSRNP.Coding)
  | gdti (cs : GDTI.Coding)
  | cpi (cs : CPI.Coding)
  | sgcn (cs : SGCN.Coding)
  | itip (cs : ITIP.Coding)
  | gid (cs : GID.Coding)
  | usdod (cs : USDOD.Coding)
  | adi (cs : ADI.Coding)
  deriving DecidableEq, Repr

/-- `.value` of a coding scheme. -/
def AnyCoding.value : AnyCoding → Str
  | .sgtin cs => cs.value
  | .sscc cs => cs.value
  | .sgln cs => cs.value
  | .grai cs => cs.value
  | .giai cs => cs.value
  | .gsrn cs => cs.value
  | .gsrnp cs => cs.value
  | .gdti cs => cs.value
  | .cpi cs => cs.value
  | .sgcn cs => cs.value
  | .itip cs => cs.value
  | .gid cs => cs.value
  | .usdod cs => cs.value
  | .adi cs => cs.value

/-- The class the coding scheme belongs to. -/
def AnyCoding.cls : AnyCoding → Cls
  | .sgtin _ => .sgtin
  | .sscc _ => .sscc
  | .sgln _ => .sgln
  | .grai _ => .grai
  | .giai _ => .giai
  | .gsrn _ => .gsrn
  | .gsrnp _ => .gsrnp
  | .gdti _ => .gdti
  | .cpi _ => .cpi
  | .sgcn _ => .sgcn
  | .itip _ => .itip
  | .gid _ => .gid
  | .usdod _ => .usdod
  | .adi _ => .adi

namespace SGTIN

/-- `SGTIN.tag_uri` with a coding scheme and a filter value of any class.  /repo/epcpy/epc_schemes/sgtin.py:265-294 -/
def tagUriAny (x : SGTIN) (cs : AnyCoding) (f : Fin 64) : Except Err Str := do
  let bad ← match cs with
    | .sgtin cs => x.badSerial cs
    | _ => .ok false
  if bad then .error .convert
  else return tagUriPrefix ++ cs.value ++ ':' :: filterStr f ++ '.' :: x.companyPref ++ '.' :: x.itemRef ++ '.' :: x.serial

/-- `SGTIN.binary` with a coding scheme and a filter value of any class: `BinaryHeader[binary_coding_scheme.name]` comes first and finds the names of
the own coding schemes only.  /repo/epcpy/epc_schemes/sgtin.py:296-322 -/
def binaryAny (x : SGTIN) (cs : AnyCoding) (f : Fin 64) : Except Err Str :=
  match cs with
  | .sgtin cs => do
    let filterBinary ← strToBinary (filterStr f) 3
    let gtinBinary ← encodePartitionTable x.companyPref x.itemRef table
    let serialBinary ← if cs = .sgtin96 then strToBinary x.serial 38 else encodeString x.serial 140
    return cs.header ++ filterBinary ++ gtinBinary ++ serialBinary
  | _ => .error .key

/-- `SGTIN.hex` with a coding scheme and a filter value of any class.  /repo/epcpy/epc_schemes/base_scheme.py:106-117 -/
def hexAny (x : SGTIN) (cs : AnyCoding) (f : Fin 64) : Except Err Str := hexOf (x.binaryAny cs f)

/-- `SGTIN.base64` with a coding scheme and a filter value of any class.  /repo/epcpy/epc_schemes/base_scheme.py:119-127 -/
def base64Any (x : SGTIN) (cs : AnyCoding) (f : Fin 64) : Except Err Str := base64Of (x.binaryAny cs f)

end SGTIN

namespace SSCC

/-- `SSCC.tag_uri` with a coding scheme and a filter value of any class.  /repo/epcpy/epc_schemes/sscc.py:193-208 -/
def tagUriAny (x : SSCC) (cs : AnyCoding) (f : Fin 64) : Except Err Str :=
  .ok (tagUriPrefix ++ cs.value ++ ':' :: filterStr f ++ '.' :: x.companyPref ++ '.' :: x.serial)

/-- `SSCC.binary` with a coding scheme and a filter value of any class: `BinaryHeader[binary_coding_scheme.name]` comes first and finds the names of
the own coding schemes only.  /repo/epcpy/epc_schemes/sscc.py:210-231 -/
def binaryAny (x : SSCC) (cs : AnyCoding) (f : Fin 64) : Except Err Str :=
  match cs with
  | .sscc cs => do
    let filterBinary ← strToBinary (filterStr f) 3
    let ssccBinary ← encodePartitionTable x.companyPref x.serial table
    return cs.header ++ filterBinary ++ ssccBinary ++ List.replicate 24 '0'
  | _ => .error .key

/-- `SSCC.hex` with a coding scheme and a filter value of any class.  /repo/epcpy/epc_schemes/base_scheme.py:106-117 -/
def hexAny (x : SSCC) (cs : AnyCoding) (f : Fin 64) : Except Err Str := hexOf (x.binaryAny cs f)

/-- `SSCC.base64` with a coding scheme and a filter value of any class.  /repo/epcpy/epc_schemes/base_scheme.py:119-127 -/
def base64Any (x : SSCC) (cs : AnyCoding) (f : Fin 64) : Except Err Str := base64Of (x.binaryAny cs f)

end SSCC

namespace SGLN

/-- `SGLN.tag_uri` with a coding scheme and a filter value of any class.  /repo/epcpy/epc_schemes/sgln.py:202-230 -/
def tagUriAny (x : SGLN) (cs : AnyCoding) (f : Fin 64) : Except Err Str := do
  let bad ← match cs with
    | .sgln cs => x.badSerial cs
    | _ => .ok false
  if bad then .error .convert
  else return tagUriPrefix ++ cs.value ++ ':' :: filterStr f ++ '.' :: x.companyPref ++ '.' :: x.locationRef ++ '.' :: x.serial

/-- `SGLN.binary` with a coding scheme and a filter value of any class: `BinaryHeader[binary_coding_scheme.name]` comes first and finds the names of
the own coding schemes only.  /repo/epcpy/epc_schemes/sgln.py:232-257 -/
def binaryAny (x : SGLN) (cs : AnyCoding) (f : Fin 64) : Except Err Str :=
  match cs with
  | .sgln cs => do
    let filterBinary ← strToBinary (filterStr f) 3
    let glnBinary ← encodePartitionTable x.companyPref x.locationRef table
    let serialBinary ← if cs = .sgln96 then strToBinary x.serial 41 else encodeString x.serial 140
    return cs.header ++ filterBinary ++ glnBinary ++ serialBinary
  | _ => .error .key

/-- `SGLN.hex` with a coding scheme and a filter value of any class.  /repo/epcpy/epc_schemes/base_scheme.py:106-117 -/
def hexAny (x : SGLN) (cs : AnyCoding) (f : Fin 64) : Except Err Str := hexOf (x.binaryAny cs f)

/-- `SGLN.base64` with a coding scheme and a filter value of any class.  /repo/epcpy/epc_schemes/base_scheme.py:119-127 -/
def base64Any (x : SGLN) (cs : AnyCoding) (f : Fin 64) : Except Err Str := base64Of (x.binaryAny cs f)

end SGLN

namespace GRAI

/-- `GRAI.tag_uri` with a coding scheme and a filter value of any class.  /repo/epcpy/epc_schemes/grai.py:200-230 -/
def tagUriAny (x : GRAI) (cs : AnyCoding) (f : Fin 64) : Except Err Str := do
  let bad ← match cs with
    | .grai cs => x.badSerial cs
    | _ => .ok false
  if bad then .error .convert
  else return tagUriPrefix ++ cs.value ++ ':' :: filterStr f ++ '.' :: x.companyPref ++ '.' :: x.assetType ++ '.' :: x.serial

/-- `GRAI.binary` with a coding scheme and a filter value of any class: `BinaryHeader[binary_coding_scheme.name]` comes first and finds the names of
the own coding schemes only.  /repo/epcpy/epc_schemes/grai.py:232-258 -/
def binaryAny (x : GRAI) (cs : AnyCoding) (f : Fin 64) : Except Err Str :=
  match cs with
  | .grai cs => do
    let filterBinary ← strToBinary (filterStr f) 3
    let graiBinary ← encodePartitionTable x.companyPref x.assetType table
    let serialBinary ← if cs = .grai96 then strToBinary x.serial 38 else encodeString x.serial 112
    return cs.header ++ filterBinary ++ graiBinary ++ serialBinary
  | _ => .error .key

/-- `GRAI.hex` with a coding scheme and a filter value of any class.  /repo/epcpy/epc_schemes/base_scheme.py:106-117 -/
def hexAny (x : GRAI) (cs : AnyCoding) (f : Fin 64) : Except Err Str := hexOf (x.binaryAny cs f)

/-- `GRAI.base64` with a coding scheme and a filter value of any class.  /repo/epcpy/epc_schemes/base_scheme.py:119-127 -/
def base64Any (x : GRAI) (cs : AnyCoding) (f : Fin 64) : Except Err Str := base64Of (x.binaryAny cs f)

end GRAI

namespace GIAI

/-- `GIAI.tag_uri` with a coding scheme and a filter value of any class.  /repo/epcpy/epc_schemes/giai.py:259-295 -/
def tagUriAny (x : GIAI) (cs : AnyCoding) (f : Fin 64) : Except Err Str := do
  let bad ← match cs with
    | .giai cs => x.badAssetRef cs
    | _ => .ok false
  if bad then .error .convert
  else return tagUriPrefix ++ cs.value ++ ':' :: filterStr f ++ '.' :: x.companyPref ++ '.' :: x.assetRef

/-- `GIAI.binary` with a coding scheme and a filter value of any class: `BinaryHeader[binary_coding_scheme.name]` comes first and finds the names of
the own coding schemes only.  /repo/epcpy/epc_schemes/giai.py:297-326 -/
def binaryAny (x : GIAI) (cs : AnyCoding) (f : Fin 64) : Except Err Str :=
  match cs with
  | .giai cs => do
    let filterBinary ← strToBinary (filterStr f) 3
    let giaiBinary ←
      if cs = .giai96 then encodePartitionTable x.companyPref x.assetRef table96
      else encodePartitionTable x.companyPref x.assetRef table202 .string
    return cs.header ++ filterBinary ++ giaiBinary
  | _ => .error .key

/-- `GIAI.hex` with a coding scheme and a filter value of any class.  /repo/epcpy/epc_schemes/base_scheme.py:106-117 -/
def hexAny (x : GIAI) (cs : AnyCoding) (f : Fin 64) : Except Err Str := hexOf (x.binaryAny cs f)

/-- `GIAI.base64` with a coding scheme and a filter value of any class.  /repo/epcpy/epc_schemes/base_scheme.py:119-127 -/
def base64Any (x : GIAI) (cs : AnyCoding) (f : Fin 64) : Except Err Str := base64Of (x.binaryAny cs f)

end GIAI

namespace GSRN

/-- `GSRN.tag_uri` with a coding scheme and a filter value of any class.  /repo/epcpy/epc_schemes/gsrn.py:190-204 -/
def tagUriAny (x : GSRN) (cs : AnyCoding) (f : Fin 64) : Except Err Str :=
  .ok (tagUriPrefix ++ cs.value ++ ':' :: filterStr f ++ '.' :: x.companyPref ++ '.' :: x.serviceRef)

/-- `GSRN.binary` with a coding scheme and a filter value of any class: `BinaryHeader[binary_coding_scheme.name]` comes first and finds the names of
the own coding schemes only.  /repo/epcpy/epc_schemes/gsrn.py:206-226 -/
def binaryAny (x : GSRN) (cs : AnyCoding) (f : Fin 64) : Except Err Str :=
  match cs with
  | .gsrn cs => do
    let filterBinary ← strToBinary (filterStr f) 3
    let body ← encodePartitionTable x.companyPref x.serviceRef table
    return cs.header ++ filterBinary ++ body ++ List.replicate 24 '0'
  | _ => .error .key

/-- `GSRN.hex` with a coding scheme and a filter value of any class.  /repo/epcpy/epc_schemes/base_scheme.py:106-117 -/
def hexAny (x : GSRN) (cs : AnyCoding) (f : Fin 64) : Except Err Str := hexOf (x.binaryAny cs f)

/-- `GSRN.base64` with a coding scheme and a filter value of any class.  /repo/epcpy/epc_schemes/base_scheme.py:119-127 -/
def base64Any (x : GSRN) (cs : AnyCoding) (f : Fin 64) : Except Err Str := base64Of (x.binaryAny cs f)

end GSRN

namespace GSRNP

/-- `GSRNP.tag_uri` with a coding scheme and a filter value of any class.  /repo/epcpy/epc_schemes/gsrnp.py:190-206 -/
def tagUriAny (x : GSRNP) (cs : AnyCoding) (f : Fin 64) : Except Err Str :=
  .ok (tagUriPrefix ++ cs.value ++ ':' :: filterStr f ++ '.' :: x.companyPref ++ '.' :: x.serviceRef)

/-- `GSRNP.binary` with a coding scheme and a filter value of any class: `BinaryHeader[binary_coding_scheme.name]` comes first and finds the names of
the own coding schemes only.  /repo/epcpy/epc_schemes/gsrnp.py:208-228 -/
def binaryAny (x : GSRNP) (cs : AnyCoding) (f : Fin 64) : Except Err Str :=
  match cs with
  | .gsrnp cs => do
    let filterBinary ← strToBinary (filterStr f) 3
    let body ← encodePartitionTable x.companyPref x.serviceRef table
    return cs.header ++ filterBinary ++ body ++ List.replicate 24 '0'
  | _ => .error .key

/-- `GSRNP.hex` with a coding scheme and a filter value of any class.  /repo/epcpy/epc_schemes/base_scheme.py:106-117 -/
def hexAny (x : GSRNP) (cs : AnyCoding) (f : Fin 64) : Except Err Str := hexOf (x.binaryAny cs f)

/-- `GSRNP.base64` with a coding scheme and a filter value of any class.  /repo/epcpy/epc_schemes/base_scheme.py:119-127 -/
def base64Any (x : GSRNP) (cs : AnyCoding) (f : Fin 64) : Except Err Str := base64Of (x.binaryAny cs f)

end GSRNP

namespace GDTI

/-- `GDTI.tag_uri` with a coding scheme and a filter value of any class.  /repo/epcpy/epc_schemes/gdti.py:202-235 -/
def tagUriAny (x : GDTI) (cs : AnyCoding) (f : Fin 64) : Except Err Str := do
  let bad ← match cs with
    | .gdti cs => x.badSerial cs
    | _ => .ok false
  if bad then .error .convert
  else return tagUriPrefix ++ cs.value ++ ':' :: filterStr f ++ '.' :: x.companyPref ++ '.' :: x.docType ++ '.' :: x.serial

/-- `GDTI.binary` with a coding scheme and a filter value of any class: `BinaryHeader[binary_coding_scheme.name]` comes first and finds the names of
the own coding schemes only.  /repo/epcpy/epc_schemes/gdti.py:237-263 -/
def binaryAny (x : GDTI) (cs : AnyCoding) (f : Fin 64) : Except Err Str :=
  match cs with
  | .gdti cs => do
    let filterBinary ← strToBinary (filterStr f) 3
    let gdtiBinary ← encodePartitionTable x.companyPref x.docType table
    let serialBinary ← if cs = .gdti96 then strToBinary x.serial 41 else encodeString x.serial 119
    return cs.header ++ filterBinary ++ gdtiBinary ++ serialBinary
  | _ => .error .key

/-- `GDTI.hex` with a coding scheme and a filter value of any class.  /repo/epcpy/epc_schemes/base_scheme.py:106-117 -/
def hexAny (x : GDTI) (cs : AnyCoding) (f : Fin 64) : Except Err Str := hexOf (x.binaryAny cs f)

/-- `GDTI.base64` with a coding scheme and a filter value of any class.  /repo/epcpy/epc_schemes/base_scheme.py:119-127 -/
def base64Any (x : GDTI) (cs : AnyCoding) (f : Fin 64) : Except Err Str := base64Of (x.binaryAny cs f)

end GDTI

namespace CPI

/-- `CPI.tag_uri` with a coding scheme and a filter value of any class.  /repo/epcpy/epc_schemes/cpi.py:260-291 -/
def tagUriAny (x : CPI) (cs : AnyCoding) (f : Fin 64) : Except Err Str := do
  let bad ← match cs with
    | .cpi cs => x.badSerial cs
    | _ => .ok false
  if bad then .error .convert
  else return tagUriPrefix ++ cs.value ++ ':' :: filterStr f ++ '.' :: x.companyPref ++ '.' :: x.cpRef ++ '.' :: x.serial

/-- `CPI.binary` with a coding scheme and a filter value of any class: `BinaryHeader[binary_coding_scheme.name]` comes first and finds the names of
the own coding schemes only.  /repo/epcpy/epc_schemes/cpi.py:293-325 -/
def binaryAny (x : CPI) (cs : AnyCoding) (f : Fin 64) : Except Err Str :=
  match cs with
  | .cpi cs => do
    let filterBinary ← strToBinary (filterStr f) 3
    let cpiBinary ←
      if cs = .cpi96 then encodePartitionTable x.companyPref x.cpRef table96
      else encodePartitionTable x.companyPref x.cpRef tableVar .sixBit
    let serialBinary ← strToBinary x.serial (if cs = .cpi96 then 31 else 40)
    return cs.header ++ filterBinary ++ cpiBinary ++ serialBinary
  | _ => .error .key

/-- `CPI.hex` with a coding scheme and a filter value of any class.  /repo/epcpy/epc_schemes/base_scheme.py:106-117 -/
def hexAny (x : CPI) (cs : AnyCoding) (f : Fin 64) : Except Err Str := hexOf (x.binaryAny cs f)

/-- `CPI.base64` with a coding scheme and a filter value of any class.  /repo/epcpy/epc_schemes/base_scheme.py:119-127 -/
def base64Any (x : CPI) (cs : AnyCoding) (f : Fin 64) : Except Err Str := base64Of (x.binaryAny cs f)

end CPI

namespace SGCN

/-- `SGCN.tag_uri` with a coding scheme and a filter value of any class.  /repo/epcpy/epc_schemes/sgcn.py:198-213 -/
def tagUriAny (x : SGCN) (cs : AnyCoding) (f : Fin 64) : Except Err Str :=
  .ok (tagUriPrefix ++ cs.value ++ ':' :: filterStr f ++ '.' :: x.companyPref ++ '.' :: x.couponRef ++ '.' :: x.serial)

/-- `SGCN.binary` with a coding scheme and a filter value of any class: `BinaryHeader[binary_coding_scheme.name]` comes first and finds the names of
the own coding schemes only.  /repo/epcpy/epc_schemes/sgcn.py:215-237 -/
def binaryAny (x : SGCN) (cs : AnyCoding) (f : Fin 64) : Except Err Str :=
  match cs with
  | .sgcn cs => do
    let filterBinary ← strToBinary (filterStr f) 3
    let sgcnBinary ← encodePartitionTable x.companyPref x.couponRef table
    let serialBinary ← encodeNumericString x.serial 41
    return cs.header ++ filterBinary ++ sgcnBinary ++ serialBinary
  | _ => .error .key

/-- `SGCN.hex` with a coding scheme and a filter value of any class.  /repo/epcpy/epc_schemes/base_scheme.py:106-117 -/
def hexAny (x : SGCN) (cs : AnyCoding) (f : Fin 64) : Except Err Str := hexOf (x.binaryAny cs f)

/-- `SGCN.base64` with a coding scheme and a filter value of any class.  /repo/epcpy/epc_schemes/base_scheme.py:119-127 -/
def base64Any (x : SGCN) (cs : AnyCoding) (f : Fin 64) : Except Err Str := base64Of (x.binaryAny cs f)

end SGCN

namespace ITIP

/-- `ITIP.tag_uri` with a coding scheme and a filter value of any class.  /repo/epcpy/epc_schemes/itip.py:201-231 -/
def tagUriAny (x : ITIP) (cs : AnyCoding) (f : Fin 64) : Except Err Str := do
  let bad ← match cs with
    | .itip cs => x.badSerial cs
    | _ => .ok false
  if bad then .error .convert
  else return tagUriPrefix ++ cs.value ++ ':' :: filterStr f ++ '.' :: x.companyPref ++ '.' :: x.itemRef ++ '.' :: x.piece ++ '.' :: x.total ++ '.' :: x.serial

/-- `ITIP.binary` with a coding scheme and a filter value of any class: `BinaryHeader[binary_coding_scheme.name]` comes first and finds the names of
the own coding schemes only.  /repo/epcpy/epc_schemes/itip.py:233-267 -/
def binaryAny (x : ITIP) (cs : AnyCoding) (f : Fin 64) : Except Err Str :=
  match cs with
  | .itip cs => do
    let filterBinary ← strToBinary (filterStr f) 3
    let gtinBinary ← encodePartitionTable x.companyPref x.itemRef table
    let pieceBinary ← encodeFixedWidthInteger x.piece 7
    let totalBinary ← encodeFixedWidthInteger x.total 7
    let serialBinary ← if cs = .itip110 then strToBinary x.serial 38 else encodeString x.serial 140
    return cs.header ++ filterBinary ++ gtinBinary ++ pieceBinary ++ totalBinary ++ serialBinary
  | _ => .error .key

/-- `ITIP.hex` with a coding scheme and a filter value of any class.  /repo/epcpy/epc_schemes/base_scheme.py:106-117 -/
def hexAny (x : ITIP) (cs : AnyCoding) (f : Fin 64) : Except Err Str := hexOf (x.binaryAny cs f)

/-- `ITIP.base64` with a coding scheme and a filter value of any class.  /repo/epcpy/epc_schemes/base_scheme.py:119-127 -/
def base64Any (x : ITIP) (cs : AnyCoding) (f : Fin 64) : Except Err Str := base64Of (x.binaryAny cs f)

end ITIP

namespace GID

/-- `GID.tag_uri` with a coding scheme of any class.  /repo/epcpy/epc_schemes/gid.py:65-78 -/
def tagUriAny (x : GID) (cs : AnyCoding) : Except Err Str :=
  .ok (tagUriPrefix ++ cs.value ++ ':' :: x.manager ++ '.' :: x.object ++ '.' :: x.serial)

/-- `GID.binary` with a coding scheme of any class: `BinaryHeader[binary_coding_scheme.name]` comes first and finds the names of
the own coding schemes only.  /repo/epcpy/epc_schemes/gid.py:80-99 -/
def binaryAny (x : GID) (cs : AnyCoding) : Except Err Str :=
  match cs with
  | .gid cs => do
    let managerBinary ← strToBinary x.manager 28
    let objectBinary ← strToBinary x.object 24
    let serialBinary ← strToBinary x.serial 36
    return cs.header ++ managerBinary ++ objectBinary ++ serialBinary
  | _ => .error .key

/-- `GID.hex` with a coding scheme of any class.  /repo/epcpy/epc_schemes/base_scheme.py:106-117 -/
def hexAny (x : GID) (cs : AnyCoding) : Except Err Str := hexOf (x.binaryAny cs)

/-- `GID.base64` with a coding scheme of any class.  /repo/epcpy/epc_schemes/base_scheme.py:119-127 -/
def base64Any (x : GID) (cs : AnyCoding) : Except Err Str := base64Of (x.binaryAny cs)

end GID

namespace USDOD

/-- `USDOD.tag_uri` with a coding scheme and a filter value of any class.  /repo/epcpy/epc_schemes/usdod.py:80-95 -/
def tagUriAny (x : USDOD) (cs : AnyCoding) (f : Fin 64) : Except Err Str :=
  .ok (tagUriPrefix ++ cs.value ++ ':' :: filterStr f ++ '.' :: x.cage ++ '.' :: x.serial)

/-- `USDOD.binary` with a coding scheme and a filter value of any class: `BinaryHeader[binary_coding_scheme.name]` comes first and finds the names of
the own coding schemes only.  /repo/epcpy/epc_schemes/usdod.py:97-117 -/
def binaryAny (x : USDOD) (cs : AnyCoding) (f : Fin 64) : Except Err Str :=
  match cs with
  | .usdod cs => do
    let filterBinary ← strToBinary (filterStr f) 4
    let cageBinary := encodeCageCode (padLeft ' ' 6 x.cage)
    let serialBinary ← strToBinary x.serial 36
    return cs.header ++ filterBinary ++ cageBinary ++ serialBinary
  | _ => .error .key

/-- `USDOD.hex` with a coding scheme and a filter value of any class.  /repo/epcpy/epc_schemes/base_scheme.py:106-117 -/
def hexAny (x : USDOD) (cs : AnyCoding) (f : Fin 64) : Except Err Str := hexOf (x.binaryAny cs f)

/-- `USDOD.base64` with a coding scheme and a filter value of any class.  /repo/epcpy/epc_schemes/base_scheme.py:119-127 -/
def base64Any (x : USDOD) (cs : AnyCoding) (f : Fin 64) : Except Err Str := base64Of (x.binaryAny cs f)

end USDOD

namespace ADI

/-- `ADI.tag_uri` with a coding scheme and a filter value of any class.  /repo/epcpy/epc_schemes/adi.py:137-151 -/
def tagUriAny (x : ADI) (cs : AnyCoding) (f : Fin 64) : Except Err Str :=
  .ok (tagUriPrefix ++ cs.value ++ ':' :: filterStr f ++ '.' :: x.cage ++ '.' :: x.partNumber ++ '.' :: x.serial)

/-- `ADI.binary` with a coding scheme and a filter value of any class: `BinaryHeader[binary_coding_scheme.name]` comes first and finds the names of
the own coding schemes only.  /repo/epcpy/epc_schemes/adi.py:153-180 -/
def binaryAny (x : ADI) (cs : AnyCoding) (f : Fin 64) : Except Err Str :=
  match cs with
  | .adi cs => do
    let filterBinary ← strToBinary (filterStr f) 6
    let cageBinary ← encodeCageCodeSixBits x.cage
    let partBinary ← encodeStringSixBits x.partNumber
    let serialBinary ← encodeStringSixBits x.serial
    return cs.header ++ filterBinary ++ cageBinary ++ partBinary ++ serialBinary
  | _ => .error .key

/-- `ADI.hex` with a coding scheme and a filter value of any class.  /repo/epcpy/epc_schemes/base_scheme.py:106-117 -/
def hexAny (x : ADI) (cs : AnyCoding) (f : Fin 64) : Except Err Str := hexOf (x.binaryAny cs f)

/-- `ADI.base64` with a coding scheme and a filter value of any class.  /repo/epcpy/epc_schemes/base_scheme.py:119-127 -/
def base64Any (x : ADI) (cs : AnyCoding) (f : Fin 64) : Except Err Str := base64Of (x.binaryAny cs f)

end ADI

end Epc
