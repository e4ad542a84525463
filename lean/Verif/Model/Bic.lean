/-
Model of /repo/epcpy/epc_schemes/bic.py.
-/
import Verif.Model.Base

namespace Epc

/-- Instance of class `BIC`: the attributes set by `__init__`. -/
structure BIC where
  epcUri : Str
  containerCode : Str
  ownerCode : Str
  equipmentCategory : Str
  serial : Str
  checkDigit : Str
  deriving DecidableEq, Repr

namespace BIC

/-- `BIC.__init__`.  /repo/epcpy/epc_schemes/bic.py:22-36 -/
def new (uri : Str) : Except Err BIC := do
  guardConvert (Rx.bicUri.fullmatch uri)
  let code ← getPart (split ':' uri) 4
  let category ← getIdx code 3
  let checkDigit ← getIdx code 10
  return ⟨uri, code, slice code 0 3, [category], slice code 4 10, [checkDigit]⟩

end BIC
end Epc
