/-
Model of /repo/epcpy/epc_schemes/lgtin.py.
-/
import Verif.Model.Sgtin

namespace Epc

/-- Instance of class `LGTIN`: the attributes set by `__init__`. -/
structure LGTIN where
  epcUri : Str
  companyPref : Str
  itemRef : Str
  lot : Str
  gtin14 : Str
  deriving DecidableEq, Repr

namespace LGTIN

/-- `LGTIN.__init__`.  /repo/epcpy/epc_schemes/lgtin.py:45-80 -/
def new (uri : Str) : Except Err LGTIN := do
  guardConvert (Rx.lgtinClass.fullmatch uri)
  let (companyPref, itemRef, rest) ← unpack2s (split '.' (uriBody uri))
  let lot := joinWith '.' rest
  verifyGs3a3 lot
  let lot := replaceUriEscapes lot
  guardConvert (decide (6 ≤ companyPref.length ∧ companyPref.length ≤ 12))
  guardConvert (decide ((companyPref ++ itemRef).length = 13))
  guardConvert (decide (1 ≤ lot.length ∧ lot.length ≤ 20))
  let first ← getIdx itemRef 0
  let checkDigit ← calculateChecksum (first :: companyPref ++ itemRef.drop 1)
  return ⟨uri, companyPref, itemRef, lot,
    zfill 14 (first :: companyPref ++ itemRef.drop 1 ++ natStr checkDigit)⟩

/-- `LGTIN.gtin`.  /repo/epcpy/epc_schemes/lgtin.py:94-111 -/
def gtin (x : LGTIN) (t : GtinType := .gtin14) : Except Err Str :=
  if t ≠ .gtin14 ∧ startsWith x.gtin14 (List.replicate (14 - t.toNat) '0') = false then .error .convert
  else .ok (slice x.gtin14 (14 - t.toNat) 14)

/-- `LGTIN.gs1_key`.  /repo/epcpy/epc_schemes/lgtin.py:82-92 -/
def gs1Key (x : LGTIN) (t : GtinType := .gtin14) : Except Err Str := x.gtin t

/-- `LGTIN.gs1_element_string`.  /repo/epcpy/epc_schemes/lgtin.py:113-121 -/
def gs1ElementString (x : LGTIN) : Except Err Str := .ok (py "(01)" ++ x.gtin14 ++ py "(10)" ++ x.lot)

/-- `LGTIN.from_gs1_element_string`.  /repo/epcpy/epc_schemes/lgtin.py:123-149 -/
def fromGs1ElementString (s : Str) (n : Int) : Except Err LGTIN := do
  guardConvert (Rx.lgtinElem.fullmatch s)
  let (_, digits, chars) ← unpack3 (splitNoCap (parenLen 2) s)
  let chars := revertUriEscapes chars
  let first ← getIdx digits 0
  new (py "urn:epc:class:lgtin:" ++ sliceI digits 1 (n + 1) ++ '.' :: first :: sliceI digits (1 + n) (-1) ++
    '.' :: chars)

end LGTIN
end Epc
