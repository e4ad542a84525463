/-
Model of /repo/epcpy/epc_schemes/gsin.py.
-/
import Verif.Model.Base

namespace Epc

/-- Instance of class `GSIN`: the attributes set by `__init__`. -/
structure GSIN where
  epcUri : Str
  companyPref : Str
  shipperRef : Str
  gsin : Str
  deriving DecidableEq, Repr

namespace GSIN

/-- The module's own `calculate_checksum`.  /repo/epcpy/epc_schemes/gsin.py:12-29 -/
def checksum (digits : Str) : Except Err Nat := do
  let ds ← digits.mapM digitInt
  return (10 - (3 * (odds ds).sum + (evens ds).sum) % 10) % 10

/-- `GSIN.__init__`.  /repo/epcpy/epc_schemes/gsin.py:51-69 -/
def new (uri : Str) : Except Err GSIN := do
  guardConvert (Rx.gsinUri.fullmatch uri)
  let body ← getPart (split ':' uri) 4
  let (companyPref, shipperRef) ← unpack2 (split '.' body)
  guardConvert (decide ((companyPref ++ shipperRef).length = 16 ∧ (6 ≤ companyPref.length ∧ companyPref.length ≤ 12)))
  let checkDigit ← checksum (companyPref ++ shipperRef)
  return ⟨uri, companyPref, shipperRef, companyPref ++ shipperRef ++ natStr checkDigit⟩

/-- `GSIN.gs1_key`.  /repo/epcpy/epc_schemes/gsin.py:71-77 -/
def gs1Key (x : GSIN) : Str := x.gsin

/-- `GSIN.gs1_element_string`.  /repo/epcpy/epc_schemes/gsin.py:79-85 -/
def gs1ElementString (x : GSIN) : Except Err Str := .ok (py "(402)" ++ x.gsin)

/-- `GSIN.from_gs1_element_string`.  /repo/epcpy/epc_schemes/gsin.py:87-112 -/
def fromGs1ElementString (s : Str) (n : Int) : Except Err GSIN := do
  guardConvert (Rx.gsinElem.fullmatch s)
  let digits := sliceI s 5 (-1)
  new (py "urn:epc:id:gsin:" ++ sliceToI digits n ++ '.' :: sliceFromI digits n)

end GSIN
end Epc
