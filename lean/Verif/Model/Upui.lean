/-
Model of /repo/epcpy/epc_schemes/upui.py.
-/
import Verif.Model.Base

namespace Epc

/-- Instance of class `UPUI`: the attributes set by `__init__`. -/
structure UPUI where
  epcUri : Str
  companyPref : Str
  itemRef : Str
  tpx : Str
  deriving DecidableEq, Repr

namespace UPUI

/-- `UPUI.__init__`: the length of the company prefix is not checked.  /repo/epcpy/epc_schemes/upui.py:36-58 -/
def new (uri : Str) : Except Err UPUI := do
  guardConvert (Rx.upuiUri.fullmatch uri)
  let (companyPref, itemRef, rest) ← unpack2s (split '.' (uriBody uri))
  let tpx := joinWith '.' rest
  verifyGs3a3 tpx
  let tpx := replaceUriEscapes tpx
  guardConvert (decide (1 ≤ tpx.length ∧ tpx.length ≤ 28))
  guardConvert (decide ((companyPref ++ itemRef).length = 13))
  return ⟨uri, companyPref, itemRef, tpx⟩

/-- `UPUI.gs1_element_string`.  /repo/epcpy/epc_schemes/upui.py:60-69 -/
def gs1ElementString (x : UPUI) : Except Err Str := do
  let first ← getIdx x.itemRef 0
  let checkDigit ← calculateChecksum (first :: x.companyPref ++ x.itemRef.drop 1)
  return py "(01)" ++ first :: x.companyPref ++ x.itemRef.drop 1 ++ natStr checkDigit ++ py "(235)" ++ x.tpx

/-- `UPUI.from_gs1_element_string`.  /repo/epcpy/epc_schemes/upui.py:71-98 -/
def fromGs1ElementString (s : Str) (n : Int) : Except Err UPUI := do
  guardConvert (Rx.upuiElem.fullmatch s)
  let digits := slice s 4 18
  let chars := revertUriEscapes (s.drop 23)
  let first ← getIdx digits 0
  new (py "urn:epc:id:upui:" ++ sliceI digits 1 (1 + n) ++ '.' :: first :: sliceI digits (1 + n) (-1) ++ '.' :: chars)

end UPUI
end Epc
