/-
Model of /repo/epcpy/epc_schemes/pgln.py.
-/
import Verif.Model.Base

namespace Epc

/-- Instance of class `PGLN`: the attributes set by `__init__`. -/
structure PGLN where
  epcUri : Str
  companyPref : Str
  partyRef : Str
  pgln : Str
  deriving DecidableEq, Repr

namespace PGLN

/-- `PGLN.__init__`.  /repo/epcpy/epc_schemes/pgln.py:31-48 -/
def new (uri : Str) : Except Err PGLN := do
  guardConvert (Rx.pglnUri.fullmatch uri)
  let body ← getPart (split ':' uri) 4
  let (companyPref, partyRef) ← unpack2 (split '.' body)
  guardConvert (decide ((companyPref ++ partyRef).length = 12 ∧ (6 ≤ companyPref.length ∧ companyPref.length ≤ 12)))
  let checkDigit ← calculateChecksum (companyPref ++ partyRef)
  return ⟨uri, companyPref, partyRef, companyPref ++ partyRef ++ natStr checkDigit⟩

/-- `PGLN.gs1_key`.  /repo/epcpy/epc_schemes/pgln.py:50-56 -/
def gs1Key (x : PGLN) : Str := x.pgln

/-- `PGLN.gs1_element_string`.  /repo/epcpy/epc_schemes/pgln.py:58-64 -/
def gs1ElementString (x : PGLN) : Except Err Str := .ok (py "(417)" ++ x.pgln)

/-- `PGLN.from_gs1_element_string`.  /repo/epcpy/epc_schemes/pgln.py:66-91 -/
def fromGs1ElementString (s : Str) (n : Int) : Except Err PGLN := do
  guardConvert (Rx.pglnElem.fullmatch s)
  let digits := s.drop 5
  new (py "urn:epc:id:pgln:" ++ sliceToI digits n ++ '.' :: sliceI digits n (-1))

end PGLN
end Epc
