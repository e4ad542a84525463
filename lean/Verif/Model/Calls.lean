/-
The output methods as Python calls: positional arguments, keyword arguments, default values.
Simplification: the arguments are members of the enumerations of the class that is called (coding schemes and filter values, in either
position); anything else is not modelled.
Generated by tools/gen_calls.py.
-/
import Verif.Py.Call
import Verif.Model.Parsers

namespace Epc

/-- An argument: a member of the class's `BinaryCodingScheme`, or one of its filter values. -/
inductive Arg (κ : Type) (n : Nat) where
  | coding (c : κ)
  | filter (f : Fin n)
  deriving DecidableEq, Repr

/-- `.value` of an argument. -/
def Arg.value {κ : Type} {n : Nat} (value : κ → Str) : Arg κ n → Str
  | .coding c => value c
  | .filter f => filterStr f

/-- The body of a `tag_uri` with the parameters `binary_coding_scheme` and `filter_value`: `check` is the class's test of the serial, which
compares `binary_coding_scheme` with the coding schemes, so it is not made if that is a filter value; e.g. /repo/epcpy/epc_schemes/sgtin.py:282-294 -/
def tagUriBody {κ : Type} {n : Nat} (check : κ → Except Err Bool) (value : κ → Str) (rest : Str) (scheme filter : Arg κ n) : Except Err Str := do
  let bad ← match scheme with
    | .coding c => check c
    | .filter _ => .ok false
  if bad then .error .convert
  else return tagUriPrefix ++ scheme.value value ++ ':' :: filter.value value ++ '.' :: rest

/-- The body of a `binary` with the parameters `binary_coding_scheme` and `filter_value`.  The first line looks the name of the coding scheme up
among the headers, where no filter value is found (KeyError); the next converts the filter value, and the value of a coding scheme is no
number (ValueError); e.g. /repo/epcpy/epc_schemes/sgtin.py:312-313 -/
def binaryBody {κ : Type} {n : Nat} (binary : κ → Fin n → Except Err Str) : Arg κ n → Arg κ n → Except Err Str
  | .coding c, .filter f => binary c f
  | .coding _, .coding _ => .error .value
  | .filter _, _ => .error .key

/-- `hex(*args, **kwargs)`: `self.binary(**kwargs)`, the positional arguments are dropped.  /repo/epcpy/epc_schemes/base_scheme.py:106-117 -/
def hexCallOf {α : Type} (binaryCall : List α → List (Str × α) → Except Err Str) (_args : List α) (kwargs : List (Str × α)) : Except Err Str :=
  hexOf (binaryCall [] kwargs)

/-- `base64(*args, **kwargs)`: `self.hex(**kwargs)`.  /repo/epcpy/epc_schemes/base_scheme.py:119-127 -/
def base64CallOf {α : Type} (binaryCall : List α → List (Str × α) → Except Err Str) (_args : List α) (kwargs : List (Str × α)) : Except Err Str := do
  let hex ← hexCallOf binaryCall [] kwargs
  hexToBase64 hex

namespace SGTIN

/-- The parameters of `SGTIN.tag_uri`.  /repo/epcpy/epc_schemes/sgtin.py:265-269 -/
def tagUriParams : List (Param (Arg Coding 8)) := [⟨py "binary_coding_scheme", none⟩, ⟨py "filter_value", none⟩]

/-- The parameters of `SGTIN.binary`.  /repo/epcpy/epc_schemes/sgtin.py:296-300 -/
def binaryParams : List (Param (Arg Coding 8)) := [⟨py "binary_coding_scheme", none⟩, ⟨py "filter_value", none⟩]

/-- `SGTIN.tag_uri(*pos, **kw)`. -/
def tagUriCall (x : SGTIN) (pos : List (Arg Coding 8)) (kw : List (Str × Arg Coding 8)) : Except Err Str := do
  let args ← bindArgs tagUriParams pos kw
  match args with
  | [a, b] => tagUriBody x.badSerial Coding.value (x.companyPref ++ '.' :: x.itemRef ++ '.' :: x.serial) a b
  | _ => .error .type

/-- `SGTIN.binary(*pos, **kw)`. -/
def binaryCall (x : SGTIN) (pos : List (Arg Coding 8)) (kw : List (Str × Arg Coding 8)) : Except Err Str := do
  let args ← bindArgs binaryParams pos kw
  match args with
  | [a, b] => binaryBody x.binary a b
  | _ => .error .type

/-- `SGTIN.hex(*pos, **kw)`.  /repo/epcpy/epc_schemes/base_scheme.py:106-117 -/
def hexCall (x : SGTIN) (pos : List (Arg Coding 8)) (kw : List (Str × Arg Coding 8)) : Except Err Str := hexCallOf x.binaryCall pos kw

/-- `SGTIN.base64(*pos, **kw)`.  /repo/epcpy/epc_schemes/base_scheme.py:119-127 -/
def base64Call (x : SGTIN) (pos : List (Arg Coding 8)) (kw : List (Str × Arg Coding 8)) : Except Err Str := base64CallOf x.binaryCall pos kw

end SGTIN

namespace SSCC

/-- The parameters of `SSCC.tag_uri`.  /repo/epcpy/epc_schemes/sscc.py:193-197 -/
def tagUriParams : List (Param (Arg Coding 8)) := [⟨py "filter_value", none⟩, ⟨py "binary_coding_scheme", some (.coding .sscc96)⟩]

/-- The parameters of `SSCC.binary`.  /repo/epcpy/epc_schemes/sscc.py:210-214 -/
def binaryParams : List (Param (Arg Coding 8)) := [⟨py "filter_value", none⟩, ⟨py "binary_coding_scheme", some (.coding .sscc96)⟩]

/-- `SSCC.tag_uri(*pos, **kw)`. -/
def tagUriCall (x : SSCC) (pos : List (Arg Coding 8)) (kw : List (Str × Arg Coding 8)) : Except Err Str := do
  let args ← bindArgs tagUriParams pos kw
  match args with
  | [a, b] => tagUriBody (fun _ => .ok false) Coding.value (x.companyPref ++ '.' :: x.serial) b a
  | _ => .error .type

/-- `SSCC.binary(*pos, **kw)`. -/
def binaryCall (x : SSCC) (pos : List (Arg Coding 8)) (kw : List (Str × Arg Coding 8)) : Except Err Str := do
  let args ← bindArgs binaryParams pos kw
  match args with
  | [a, b] => binaryBody x.binary b a
  | _ => .error .type

/-- `SSCC.hex(*pos, **kw)`.  /repo/epcpy/epc_schemes/base_scheme.py:106-117 -/
def hexCall (x : SSCC) (pos : List (Arg Coding 8)) (kw : List (Str × Arg Coding 8)) : Except Err Str := hexCallOf x.binaryCall pos kw

/-- `SSCC.base64(*pos, **kw)`.  /repo/epcpy/epc_schemes/base_scheme.py:119-127 -/
def base64Call (x : SSCC) (pos : List (Arg Coding 8)) (kw : List (Str × Arg Coding 8)) : Except Err Str := base64CallOf x.binaryCall pos kw

end SSCC

namespace SGLN

/-- The parameters of `SGLN.tag_uri`.  /repo/epcpy/epc_schemes/sgln.py:202-204 -/
def tagUriParams : List (Param (Arg Coding 8)) := [⟨py "binary_coding_scheme", none⟩, ⟨py "filter_value", none⟩]

/-- The parameters of `SGLN.binary`.  /repo/epcpy/epc_schemes/sgln.py:232-236 -/
def binaryParams : List (Param (Arg Coding 8)) := [⟨py "binary_coding_scheme", none⟩, ⟨py "filter_value", none⟩]

/-- `SGLN.tag_uri(*pos, **kw)`. -/
def tagUriCall (x : SGLN) (pos : List (Arg Coding 8)) (kw : List (Str × Arg Coding 8)) : Except Err Str := do
  let args ← bindArgs tagUriParams pos kw
  match args with
  | [a, b] => tagUriBody x.badSerial Coding.value (x.companyPref ++ '.' :: x.locationRef ++ '.' :: x.serial) a b
  | _ => .error .type

/-- `SGLN.binary(*pos, **kw)`. -/
def binaryCall (x : SGLN) (pos : List (Arg Coding 8)) (kw : List (Str × Arg Coding 8)) : Except Err Str := do
  let args ← bindArgs binaryParams pos kw
  match args with
  | [a, b] => binaryBody x.binary a b
  | _ => .error .type

/-- `SGLN.hex(*pos, **kw)`.  /repo/epcpy/epc_schemes/base_scheme.py:106-117 -/
def hexCall (x : SGLN) (pos : List (Arg Coding 8)) (kw : List (Str × Arg Coding 8)) : Except Err Str := hexCallOf x.binaryCall pos kw

/-- `SGLN.base64(*pos, **kw)`.  /repo/epcpy/epc_schemes/base_scheme.py:119-127 -/
def base64Call (x : SGLN) (pos : List (Arg Coding 8)) (kw : List (Str × Arg Coding 8)) : Except Err Str := base64CallOf x.binaryCall pos kw

end SGLN

namespace GRAI

/-- The parameters of `GRAI.tag_uri`.  /repo/epcpy/epc_schemes/grai.py:200-202 -/
def tagUriParams : List (Param (Arg Coding 8)) := [⟨py "binary_coding_scheme", none⟩, ⟨py "filter_value", none⟩]

/-- The parameters of `GRAI.binary`.  /repo/epcpy/epc_schemes/grai.py:232-236 -/
def binaryParams : List (Param (Arg Coding 8)) := [⟨py "binary_coding_scheme", none⟩, ⟨py "filter_value", none⟩]

/-- `GRAI.tag_uri(*pos, **kw)`. -/
def tagUriCall (x : GRAI) (pos : List (Arg Coding 8)) (kw : List (Str × Arg Coding 8)) : Except Err Str := do
  let args ← bindArgs tagUriParams pos kw
  match args with
  | [a, b] => tagUriBody x.badSerial Coding.value (x.companyPref ++ '.' :: x.assetType ++ '.' :: x.serial) a b
  | _ => .error .type

/-- `GRAI.binary(*pos, **kw)`. -/
def binaryCall (x : GRAI) (pos : List (Arg Coding 8)) (kw : List (Str × Arg Coding 8)) : Except Err Str := do
  let args ← bindArgs binaryParams pos kw
  match args with
  | [a, b] => binaryBody x.binary a b
  | _ => .error .type

/-- `GRAI.hex(*pos, **kw)`.  /repo/epcpy/epc_schemes/base_scheme.py:106-117 -/
def hexCall (x : GRAI) (pos : List (Arg Coding 8)) (kw : List (Str × Arg Coding 8)) : Except Err Str := hexCallOf x.binaryCall pos kw

/-- `GRAI.base64(*pos, **kw)`.  /repo/epcpy/epc_schemes/base_scheme.py:119-127 -/
def base64Call (x : GRAI) (pos : List (Arg Coding 8)) (kw : List (Str × Arg Coding 8)) : Except Err Str := base64CallOf x.binaryCall pos kw

end GRAI

namespace GIAI

/-- The parameters of `GIAI.tag_uri`.  /repo/epcpy/epc_schemes/giai.py:259-261 -/
def tagUriParams : List (Param (Arg Coding 8)) := [⟨py "binary_coding_scheme", none⟩, ⟨py "filter_value", none⟩]

/-- The parameters of `GIAI.binary`.  /repo/epcpy/epc_schemes/giai.py:297-301 -/
def binaryParams : List (Param (Arg Coding 8)) := [⟨py "binary_coding_scheme", none⟩, ⟨py "filter_value", none⟩]

/-- `GIAI.tag_uri(*pos, **kw)`. -/
def tagUriCall (x : GIAI) (pos : List (Arg Coding 8)) (kw : List (Str × Arg Coding 8)) : Except Err Str := do
  let args ← bindArgs tagUriParams pos kw
  match args with
  | [a, b] => tagUriBody x.badAssetRef Coding.value (x.companyPref ++ '.' :: x.assetRef) a b
  | _ => .error .type

/-- `GIAI.binary(*pos, **kw)`. -/
def binaryCall (x : GIAI) (pos : List (Arg Coding 8)) (kw : List (Str × Arg Coding 8)) : Except Err Str := do
  let args ← bindArgs binaryParams pos kw
  match args with
  | [a, b] => binaryBody x.binary a b
  | _ => .error .type

/-- `GIAI.hex(*pos, **kw)`.  /repo/epcpy/epc_schemes/base_scheme.py:106-117 -/
def hexCall (x : GIAI) (pos : List (Arg Coding 8)) (kw : List (Str × Arg Coding 8)) : Except Err Str := hexCallOf x.binaryCall pos kw

/-- `GIAI.base64(*pos, **kw)`.  /repo/epcpy/epc_schemes/base_scheme.py:119-127 -/
def base64Call (x : GIAI) (pos : List (Arg Coding 8)) (kw : List (Str × Arg Coding 8)) : Except Err Str := base64CallOf x.binaryCall pos kw

end GIAI

namespace GSRN

/-- The parameters of `GSRN.tag_uri`.  /repo/epcpy/epc_schemes/gsrn.py:190-194 -/
def tagUriParams : List (Param (Arg Coding 8)) := [⟨py "binary_coding_scheme", some (.coding .gsrn96)⟩, ⟨py "filter_value", some (.filter 0)⟩]

/-- The parameters of `GSRN.binary`.  /repo/epcpy/epc_schemes/gsrn.py:206-210 -/
def binaryParams : List (Param (Arg Coding 8)) := [⟨py "binary_coding_scheme", some (.coding .gsrn96)⟩, ⟨py "filter_value", some (.filter 0)⟩]

/-- `GSRN.tag_uri(*pos, **kw)`. -/
def tagUriCall (x : GSRN) (pos : List (Arg Coding 8)) (kw : List (Str × Arg Coding 8)) : Except Err Str := do
  let args ← bindArgs tagUriParams pos kw
  match args with
  | [a, b] => tagUriBody (fun _ => .ok false) Coding.value (x.companyPref ++ '.' :: x.serviceRef) a b
  | _ => .error .type

/-- `GSRN.binary(*pos, **kw)`. -/
def binaryCall (x : GSRN) (pos : List (Arg Coding 8)) (kw : List (Str × Arg Coding 8)) : Except Err Str := do
  let args ← bindArgs binaryParams pos kw
  match args with
  | [a, b] => binaryBody x.binary a b
  | _ => .error .type

/-- `GSRN.hex(*pos, **kw)`.  /repo/epcpy/epc_schemes/base_scheme.py:106-117 -/
def hexCall (x : GSRN) (pos : List (Arg Coding 8)) (kw : List (Str × Arg Coding 8)) : Except Err Str := hexCallOf x.binaryCall pos kw

/-- `GSRN.base64(*pos, **kw)`.  /repo/epcpy/epc_schemes/base_scheme.py:119-127 -/
def base64Call (x : GSRN) (pos : List (Arg Coding 8)) (kw : List (Str × Arg Coding 8)) : Except Err Str := base64CallOf x.binaryCall pos kw

end GSRN

namespace GSRNP

/-- The parameters of `GSRNP.tag_uri`.  /repo/epcpy/epc_schemes/gsrnp.py:190-194 -/
def tagUriParams : List (Param (Arg Coding 8)) := [⟨py "binary_coding_scheme", some (.coding .gsrnp96)⟩, ⟨py "filter_value", some (.filter 0)⟩]

/-- The parameters of `GSRNP.binary`.  /repo/epcpy/epc_schemes/gsrnp.py:208-212 -/
def binaryParams : List (Param (Arg Coding 8)) := [⟨py "binary_coding_scheme", some (.coding .gsrnp96)⟩, ⟨py "filter_value", some (.filter 0)⟩]

/-- `GSRNP.tag_uri(*pos, **kw)`. -/
def tagUriCall (x : GSRNP) (pos : List (Arg Coding 8)) (kw : List (Str × Arg Coding 8)) : Except Err Str := do
  let args ← bindArgs tagUriParams pos kw
  match args with
  | [a, b] => tagUriBody (fun _ => .ok false) Coding.value (x.companyPref ++ '.' :: x.serviceRef) a b
  | _ => .error .type

/-- `GSRNP.binary(*pos, **kw)`. -/
def binaryCall (x : GSRNP) (pos : List (Arg Coding 8)) (kw : List (Str × Arg Coding 8)) : Except Err Str := do
  let args ← bindArgs binaryParams pos kw
  match args with
  | [a, b] => binaryBody x.binary a b
  | _ => .error .type

/-- `GSRNP.hex(*pos, **kw)`.  /repo/epcpy/epc_schemes/base_scheme.py:106-117 -/
def hexCall (x : GSRNP) (pos : List (Arg Coding 8)) (kw : List (Str × Arg Coding 8)) : Except Err Str := hexCallOf x.binaryCall pos kw

/-- `GSRNP.base64(*pos, **kw)`.  /repo/epcpy/epc_schemes/base_scheme.py:119-127 -/
def base64Call (x : GSRNP) (pos : List (Arg Coding 8)) (kw : List (Str × Arg Coding 8)) : Except Err Str := base64CallOf x.binaryCall pos kw

end GSRNP

namespace GDTI

/-- The parameters of `GDTI.tag_uri`.  /repo/epcpy/epc_schemes/gdti.py:202-206 -/
def tagUriParams : List (Param (Arg Coding 8)) := [⟨py "binary_coding_scheme", none⟩, ⟨py "filter_value", none⟩]

/-- The parameters of `GDTI.binary`.  /repo/epcpy/epc_schemes/gdti.py:237-241 -/
def binaryParams : List (Param (Arg Coding 8)) := [⟨py "binary_coding_scheme", none⟩, ⟨py "filter_value", none⟩]

/-- `GDTI.tag_uri(*pos, **kw)`. -/
def tagUriCall (x : GDTI) (pos : List (Arg Coding 8)) (kw : List (Str × Arg Coding 8)) : Except Err Str := do
  let args ← bindArgs tagUriParams pos kw
  match args with
  | [a, b] => tagUriBody x.badSerial Coding.value (x.companyPref ++ '.' :: x.docType ++ '.' :: x.serial) a b
  | _ => .error .type

/-- `GDTI.binary(*pos, **kw)`. -/
def binaryCall (x : GDTI) (pos : List (Arg Coding 8)) (kw : List (Str × Arg Coding 8)) : Except Err Str := do
  let args ← bindArgs binaryParams pos kw
  match args with
  | [a, b] => binaryBody x.binary a b
  | _ => .error .type

/-- `GDTI.hex(*pos, **kw)`.  /repo/epcpy/epc_schemes/base_scheme.py:106-117 -/
def hexCall (x : GDTI) (pos : List (Arg Coding 8)) (kw : List (Str × Arg Coding 8)) : Except Err Str := hexCallOf x.binaryCall pos kw

/-- `GDTI.base64(*pos, **kw)`.  /repo/epcpy/epc_schemes/base_scheme.py:119-127 -/
def base64Call (x : GDTI) (pos : List (Arg Coding 8)) (kw : List (Str × Arg Coding 8)) : Except Err Str := base64CallOf x.binaryCall pos kw

end GDTI

namespace CPI

/-- The parameters of `CPI.tag_uri`.  /repo/epcpy/epc_schemes/cpi.py:260-262 -/
def tagUriParams : List (Param (Arg Coding 8)) := [⟨py "binary_coding_scheme", none⟩, ⟨py "filter_value", none⟩]

/-- The parameters of `CPI.binary`.  /repo/epcpy/epc_schemes/cpi.py:293-297 -/
def binaryParams : List (Param (Arg Coding 8)) := [⟨py "binary_coding_scheme", none⟩, ⟨py "filter_value", none⟩]

/-- `CPI.tag_uri(*pos, **kw)`. -/
def tagUriCall (x : CPI) (pos : List (Arg Coding 8)) (kw : List (Str × Arg Coding 8)) : Except Err Str := do
  let args ← bindArgs tagUriParams pos kw
  match args with
  | [a, b] => tagUriBody x.badSerial Coding.value (x.companyPref ++ '.' :: x.cpRef ++ '.' :: x.serial) a b
  | _ => .error .type

/-- `CPI.binary(*pos, **kw)`. -/
def binaryCall (x : CPI) (pos : List (Arg Coding 8)) (kw : List (Str × Arg Coding 8)) : Except Err Str := do
  let args ← bindArgs binaryParams pos kw
  match args with
  | [a, b] => binaryBody x.binary a b
  | _ => .error .type

/-- `CPI.hex(*pos, **kw)`.  /repo/epcpy/epc_schemes/base_scheme.py:106-117 -/
def hexCall (x : CPI) (pos : List (Arg Coding 8)) (kw : List (Str × Arg Coding 8)) : Except Err Str := hexCallOf x.binaryCall pos kw

/-- `CPI.base64(*pos, **kw)`.  /repo/epcpy/epc_schemes/base_scheme.py:119-127 -/
def base64Call (x : CPI) (pos : List (Arg Coding 8)) (kw : List (Str × Arg Coding 8)) : Except Err Str := base64CallOf x.binaryCall pos kw

end CPI

namespace SGCN

/-- The parameters of `SGCN.tag_uri`.  /repo/epcpy/epc_schemes/sgcn.py:198-202 -/
def tagUriParams : List (Param (Arg Coding 8)) := [⟨py "filter_value", none⟩, ⟨py "binary_coding_scheme", some (.coding .sgcn96)⟩]

/-- The parameters of `SGCN.binary`.  /repo/epcpy/epc_schemes/sgcn.py:215-219 -/
def binaryParams : List (Param (Arg Coding 8)) := [⟨py "filter_value", none⟩, ⟨py "binary_coding_scheme", some (.coding .sgcn96)⟩]

/-- `SGCN.tag_uri(*pos, **kw)`. -/
def tagUriCall (x : SGCN) (pos : List (Arg Coding 8)) (kw : List (Str × Arg Coding 8)) : Except Err Str := do
  let args ← bindArgs tagUriParams pos kw
  match args with
  | [a, b] => tagUriBody (fun _ => .ok false) Coding.value (x.companyPref ++ '.' :: x.couponRef ++ '.' :: x.serial) b a
  | _ => .error .type

/-- `SGCN.binary(*pos, **kw)`. -/
def binaryCall (x : SGCN) (pos : List (Arg Coding 8)) (kw : List (Str × Arg Coding 8)) : Except Err Str := do
  let args ← bindArgs binaryParams pos kw
  match args with
  | [a, b] => binaryBody x.binary b a
  | _ => .error .type

/-- `SGCN.hex(*pos, **kw)`.  /repo/epcpy/epc_schemes/base_scheme.py:106-117 -/
def hexCall (x : SGCN) (pos : List (Arg Coding 8)) (kw : List (Str × Arg Coding 8)) : Except Err Str := hexCallOf x.binaryCall pos kw

/-- `SGCN.base64(*pos, **kw)`.  /repo/epcpy/epc_schemes/base_scheme.py:119-127 -/
def base64Call (x : SGCN) (pos : List (Arg Coding 8)) (kw : List (Str × Arg Coding 8)) : Except Err Str := base64CallOf x.binaryCall pos kw

end SGCN

namespace USDOD

/-- The parameters of `USDOD.tag_uri`.  /repo/epcpy/epc_schemes/usdod.py:80-84 -/
def tagUriParams : List (Param (Arg Coding 16)) := [⟨py "filter_value", none⟩, ⟨py "binary_coding_scheme", some (.coding .usdod96)⟩]

/-- The parameters of `USDOD.binary`.  /repo/epcpy/epc_schemes/usdod.py:97-101 -/
def binaryParams : List (Param (Arg Coding 16)) := [⟨py "filter_value", none⟩, ⟨py "binary_coding_scheme", some (.coding .usdod96)⟩]

/-- `USDOD.tag_uri(*pos, **kw)`. -/
def tagUriCall (x : USDOD) (pos : List (Arg Coding 16)) (kw : List (Str × Arg Coding 16)) : Except Err Str := do
  let args ← bindArgs tagUriParams pos kw
  match args with
  | [a, b] => tagUriBody (fun _ => .ok false) Coding.value (x.cage ++ '.' :: x.serial) b a
  | _ => .error .type

/-- `USDOD.binary(*pos, **kw)`. -/
def binaryCall (x : USDOD) (pos : List (Arg Coding 16)) (kw : List (Str × Arg Coding 16)) : Except Err Str := do
  let args ← bindArgs binaryParams pos kw
  match args with
  | [a, b] => binaryBody x.binary b a
  | _ => .error .type

/-- `USDOD.hex(*pos, **kw)`.  /repo/epcpy/epc_schemes/base_scheme.py:106-117 -/
def hexCall (x : USDOD) (pos : List (Arg Coding 16)) (kw : List (Str × Arg Coding 16)) : Except Err Str := hexCallOf x.binaryCall pos kw

/-- `USDOD.base64(*pos, **kw)`.  /repo/epcpy/epc_schemes/base_scheme.py:119-127 -/
def base64Call (x : USDOD) (pos : List (Arg Coding 16)) (kw : List (Str × Arg Coding 16)) : Except Err Str := base64CallOf x.binaryCall pos kw

end USDOD

namespace ADI

/-- The parameters of `ADI.tag_uri`.  /repo/epcpy/epc_schemes/adi.py:137-141 -/
def tagUriParams : List (Param (Arg Coding 64)) := [⟨py "filter_value", none⟩, ⟨py "binary_coding_scheme", some (.coding .adiVar)⟩]

/-- The parameters of `ADI.binary`.  /repo/epcpy/epc_schemes/adi.py:153-157 -/
def binaryParams : List (Param (Arg Coding 64)) := [⟨py "filter_value", none⟩, ⟨py "binary_coding_scheme", some (.coding .adiVar)⟩]

/-- `ADI.tag_uri(*pos, **kw)`. -/
def tagUriCall (x : ADI) (pos : List (Arg Coding 64)) (kw : List (Str × Arg Coding 64)) : Except Err Str := do
  let args ← bindArgs tagUriParams pos kw
  match args with
  | [a, b] => tagUriBody (fun _ => .ok false) Coding.value (x.cage ++ '.' :: x.partNumber ++ '.' :: x.serial) b a
  | _ => .error .type

/-- `ADI.binary(*pos, **kw)`. -/
def binaryCall (x : ADI) (pos : List (Arg Coding 64)) (kw : List (Str × Arg Coding 64)) : Except Err Str := do
  let args ← bindArgs binaryParams pos kw
  match args with
  | [a, b] => binaryBody x.binary b a
  | _ => .error .type

/-- `ADI.hex(*pos, **kw)`.  /repo/epcpy/epc_schemes/base_scheme.py:106-117 -/
def hexCall (x : ADI) (pos : List (Arg Coding 64)) (kw : List (Str × Arg Coding 64)) : Except Err Str := hexCallOf x.binaryCall pos kw

/-- `ADI.base64(*pos, **kw)`.  /repo/epcpy/epc_schemes/base_scheme.py:119-127 -/
def base64Call (x : ADI) (pos : List (Arg Coding 64)) (kw : List (Str × Arg Coding 64)) : Except Err Str := base64CallOf x.binaryCall pos kw

end ADI

namespace ITIP

/-- The parameters of `ITIP.tag_uri`.  /repo/epcpy/epc_schemes/itip.py:201-203 -/
def tagUriParams : List (Param (Arg Coding 8)) := [⟨py "binary_coding_scheme", none⟩, ⟨py "filter_value", none⟩]

/-- The parameters of `ITIP.binary`.  /repo/epcpy/epc_schemes/itip.py:233-237 -/
def binaryParams : List (Param (Arg Coding 8)) := [⟨py "filter_value", none⟩, ⟨py "binary_coding_scheme", none⟩]

/-- `ITIP.tag_uri(*pos, **kw)`. -/
def tagUriCall (x : ITIP) (pos : List (Arg Coding 8)) (kw : List (Str × Arg Coding 8)) : Except Err Str := do
  let args ← bindArgs tagUriParams pos kw
  match args with
  | [a, b] => tagUriBody x.badSerial Coding.value (x.companyPref ++ '.' :: x.itemRef ++ '.' :: x.piece ++ '.' :: x.total ++ '.' :: x.serial) a b
  | _ => .error .type

/-- `ITIP.binary(*pos, **kw)`. -/
def binaryCall (x : ITIP) (pos : List (Arg Coding 8)) (kw : List (Str × Arg Coding 8)) : Except Err Str := do
  let args ← bindArgs binaryParams pos kw
  match args with
  | [a, b] => binaryBody x.binary b a
  | _ => .error .type

/-- `ITIP.hex(*pos, **kw)`.  /repo/epcpy/epc_schemes/base_scheme.py:106-117 -/
def hexCall (x : ITIP) (pos : List (Arg Coding 8)) (kw : List (Str × Arg Coding 8)) : Except Err Str := hexCallOf x.binaryCall pos kw

/-- `ITIP.base64(*pos, **kw)`.  /repo/epcpy/epc_schemes/base_scheme.py:119-127 -/
def base64Call (x : ITIP) (pos : List (Arg Coding 8)) (kw : List (Str × Arg Coding 8)) : Except Err Str := base64CallOf x.binaryCall pos kw

end ITIP

namespace GID

/-- The parameter of `GID.tag_uri`.  /repo/epcpy/epc_schemes/gid.py:65-68 -/
def tagUriParams : List (Param Coding) := [⟨py "binary_coding_scheme", some .gid96⟩]

/-- The parameter of `GID.binary`.  /repo/epcpy/epc_schemes/gid.py:80-83 -/
def binaryParams : List (Param Coding) := [⟨py "binary_coding_scheme", some .gid96⟩]

/-- `GID.tag_uri(*pos, **kw)`. -/
def tagUriCall (x : GID) (pos : List Coding) (kw : List (Str × Coding)) : Except Err Str := do
  let args ← bindArgs tagUriParams pos kw
  match args with
  | [a] => x.tagUri a
  | _ => .error .type

/-- `GID.binary(*pos, **kw)`. -/
def binaryCall (x : GID) (pos : List Coding) (kw : List (Str × Coding)) : Except Err Str := do
  let args ← bindArgs binaryParams pos kw
  match args with
  | [a] => x.binary a
  | _ => .error .type

/-- `GID.hex(*pos, **kw)`.  /repo/epcpy/epc_schemes/base_scheme.py:106-117 -/
def hexCall (x : GID) (pos : List Coding) (kw : List (Str × Coding)) : Except Err Str := hexCallOf x.binaryCall pos kw

/-- `GID.base64(*pos, **kw)`.  /repo/epcpy/epc_schemes/base_scheme.py:119-127 -/
def base64Call (x : GID) (pos : List Coding) (kw : List (Str × Coding)) : Except Err Str := base64CallOf x.binaryCall pos kw

end GID
end Epc
