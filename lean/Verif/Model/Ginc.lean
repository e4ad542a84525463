/-
Model of /repo/epcpy/epc_schemes/ginc.py.
-/
import Verif.Model.Base

namespace Epc

/-- Instance of class `GINC`: the attributes set by `__init__`. -/
structure GINC where
  epcUri : Str
  ginc : Str
  deriving DecidableEq, Repr

namespace GINC

/-- `GINC.__init__`.  /repo/epcpy/epc_schemes/ginc.py:36-62 -/
def new (uri : Str) : Except Err GINC := do
  guardConvert (Rx.gincUri.fullmatch uri)
  let (companyPref, rest) ← unpack1s (split '.' (uriBody uri))
  let ref := joinWith '.' rest
  verifyGs3a3 ref
  let ref := replaceUriEscapes ref
  guardConvert (decide (6 ≤ companyPref.length ∧ companyPref.length ≤ 12))
  guardConvert (decide (ref.length ≠ 0))
  guardConvert (decide ((companyPref ++ ref).length ≤ 30))
  return ⟨uri, companyPref ++ ref⟩

/-- `GINC.gs1_key`.  /repo/epcpy/epc_schemes/ginc.py:64-70 -/
def gs1Key (x : GINC) : Str := x.ginc

/-- `GINC.gs1_element_string`.  /repo/epcpy/epc_schemes/ginc.py:72-78 -/
def gs1ElementString (x : GINC) : Except Err Str := .ok (py "(401)" ++ x.ginc)

/-- `GINC.from_gs1_element_string`.  /repo/epcpy/epc_schemes/ginc.py:80-105 -/
def fromGs1ElementString (s : Str) (n : Int) : Except Err GINC := do
  guardConvert (Rx.gincElem.fullmatch s)
  let digits := sliceI s 5 (5 + n)
  let chars := revertUriEscapes (sliceFromI s (5 + n))
  new (py "urn:epc:id:ginc:" ++ digits ++ '.' :: chars)

end GINC
end Epc
