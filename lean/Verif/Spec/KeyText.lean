/-
Specification vocabulary: the components of the URIs of the classes with a GS1 key, and what of them is in the key.
-/
import Verif.Spec.Basic
import Verif.Spec.Serial
import Verif.Model.Parsers

namespace Epc.Spec

/-- The URI with company prefix `C`, reference `R` and, for the classes that have one, serial, lot or extension `S`. -/
def keyedUri : Cls → Str → Str → Str → Str
  | .sgtin, C, R, S => py "urn:epc:id:sgtin:" ++ joinWith '.' [C, R, S]
  | .lgtin, C, R, S => py "urn:epc:class:lgtin:" ++ joinWith '.' [C, R, S]
  | .sscc, C, R, _ => py "urn:epc:id:sscc:" ++ joinWith '.' [C, R]
  | .gsrn, C, R, _ => py "urn:epc:id:gsrn:" ++ joinWith '.' [C, R]
  | .gsrnp, C, R, _ => py "urn:epc:id:gsrnp:" ++ joinWith '.' [C, R]
  | .gsin, C, R, _ => py "urn:epc:id:gsin:" ++ joinWith '.' [C, R]
  | .pgln, C, R, _ => py "urn:epc:id:pgln:" ++ joinWith '.' [C, R]
  | .sgln, C, R, S => py "urn:epc:id:sgln:" ++ joinWith '.' [C, R, S]
  | .grai, C, R, S => py "urn:epc:id:grai:" ++ joinWith '.' [C, R, S]
  | .gdti, C, R, S => py "urn:epc:id:gdti:" ++ joinWith '.' [C, R, S]
  | .sgcn, C, R, S => py "urn:epc:id:sgcn:" ++ joinWith '.' [C, R, S]
  | .giai, C, R, _ => py "urn:epc:id:giai:" ++ joinWith '.' [C, R]
  | .ginc, C, R, _ => py "urn:epc:id:ginc:" ++ joinWith '.' [C, R]
  | _, _, _, _ => []

/-- The key without its check digit: GTIN and SSCC have the first digit of the reference in front of the company prefix. -/
def keyText : Cls → Str → Str → Str → Str
  | .sgtin, C, R, _ | .lgtin, C, R, _ | .sscc, C, R, _ => R.take 1 ++ C ++ R.drop 1
  | .gsrn, C, R, _ | .gsrnp, C, R, _ | .gsin, C, R, _ | .pgln, C, R, _ | .sgln, C, R, _ => C ++ R
  | .grai, C, R, S | .gdti, C, R, S => C ++ R ++ unescapeWith uriEscapes S
  | .sgcn, C, R, S => C ++ R ++ S
  | .giai, C, R, _ => C ++ unescapeWith uriEscapes (R.takeWhile (· ≠ ':'))
  | .ginc, C, R, _ => C ++ unescapeWith uriEscapes R
  | _, _, _, _ => []

/-- What the reference and the serial mean for the key. -/
def keyRest : Cls → Str → Str → Str × Str
  | .grai, R, S | .gdti, R, S => (R, unescapeWith uriEscapes S)
  | .sgcn, R, S => (R, S)
  | .giai, R, _ => (unescapeWith uriEscapes (R.takeWhile (· ≠ ':')), [])
  | .ginc, R, _ => (unescapeWith uriEscapes R, [])
  | _, R, _ => (R, [])

end Epc.Spec
