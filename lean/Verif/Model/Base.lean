/-
Model of /repo/epcpy/epc_schemes/base_scheme.py and of a few Python idioms shared by the scheme classes.
-/
import Verif.Model.Regexes

namespace Epc

/-- `a, b = parts`. -/
def unpack2 : List Str → Except Err (Str × Str)
  | [a, b] => .ok (a, b)
  | _ => .error .value

/-- `a, b, c = parts`. -/
def unpack3 : List Str → Except Err (Str × Str × Str)
  | [a, b, c] => .ok (a, b, c)
  | _ => .error .value

/-- `a, *rest = parts`. -/
def unpack1s : List Str → Except Err (Str × List Str)
  | a :: r => .ok (a, r)
  | _ => .error .value

/-- `a, b, *rest = parts`. -/
def unpack2s : List Str → Except Err (Str × Str × List Str)
  | a :: b :: r => .ok (a, b, r)
  | _ => .error .value

/-- `a, b, c, d, *rest = parts`. -/
def unpack4s : List Str → Except Err (Str × Str × Str × Str × List Str)
  | a :: b :: c :: d :: r => .ok (a, b, c, d, r)
  | _ => .error .value

/-- `":".join(uri.split(":")[4:])`. -/
def uriBody (uri : Str) : Str := joinWith ':' ((split ':' uri).drop 4)

/-- `if not cond: raise ConvertException`. -/
def guardConvert (cond : Bool) : Except Err Unit := if cond then .ok () else .error .convert

/-- Pattern `\(.{n}\)`, e.g. /repo/epcpy/epc_schemes/sgtin.py:258 -/
def parenLen (n : Nat) (s : Str) : Option Nat :=
  fixedLen ((· == '(') :: (List.replicate n anyChar ++ [(· == ')')])) s

/-- `not s.isnumeric() or int(s) >= pow(2, bits) or (len(s) > 1 and s[0] == "0")`, the test for a serial that the
short coding schemes cannot hold, e.g. /repo/epcpy/epc_schemes/sgtin.py:282-286 -/
def badNumericSerial (s : Str) (bits : Nat) : Except Err Bool :=
  if !isNumeric s then .ok true
  else do
    let i ← pyInt 10 s
    return decide (i ≥ ((2 ^ bits : Nat) : Int)) || (decide (s.length > 1) && s.head? == some '0')

/-- `TagEncodable.TAG_URI_PREFIX`.  /repo/epcpy/epc_schemes/base_scheme.py:74 -/
def tagUriPrefix : Str := py "urn:epc:tag:"

/-- `TagEncodable.from_tag_uri`; `new` is the class constructor `cls`.
/repo/epcpy/epc_schemes/base_scheme.py:169-196 -/
def fromTagUri {α : Type} (new : Str → Except Err α) (includesFilter : Bool) (t : Str) : Except Err α :=
  if !Rx.tagUri.matchPrefix t then .error .convert
  else do
    let epcScheme ← getPart (split ':' t) 3
    let value ←
      if includesFilter then
        (.ok (joinWith '.' ((split '.' (joinWith ':' ((split ':' t).drop 3))).drop 1)) : Except Err Str)
      else getPart (split ':' t) 4
    let name ← getPart (split '-' epcScheme) 0
    new (py "urn:epc:id:" ++ name ++ ':' :: value)

/-- `TagEncodable.hex`, applied to the result of `self.binary(...)`.
/repo/epcpy/epc_schemes/base_scheme.py:106-117 -/
def hexOf (binary : Except Err Str) : Except Err Str := do
  let binary ← binary
  let padding := (16 - binary.length % 16) % 16
  let padded := padRight '0' (binary.length + padding) binary
  let i ← pyInt 2 padded
  return fmtHexUpper i

/-- `TagEncodable.base64`, applied to the result of `self.binary(...)`.
/repo/epcpy/epc_schemes/base_scheme.py:119-127 -/
def base64Of (binary : Except Err Str) : Except Err Str := do
  let hex ← hexOf binary
  hexToBase64 hex

/-- `TagEncodable.from_hex`; `fromBinary` is the class's `from_binary`.
/repo/epcpy/epc_schemes/base_scheme.py:143-153 -/
def fromHexWith {α : Type} (fromBinary : Str → Except Err α) (h : Str) : Except Err α := do
  let b ← hexToBinary h
  fromBinary b

/-- `TagEncodable.from_base64`.  /repo/epcpy/epc_schemes/base_scheme.py:155-167 -/
def fromBase64With {α : Type} (fromBinary : Str → Except Err α) (s : Str) : Except Err α := do
  let h ← base64ToHex s
  fromHexWith fromBinary h

/-- `f"{binary_to_int(b)}"`. -/
def binIntStr (b : Str) : Except Err Str := do
  let i ← binaryToInt b
  return intStr i

/-- `.value` of a filter value: filter enumerations are `"0"`, `"1"`, ... -/
def filterStr (n : Nat) : Str := natStr n

end Epc
