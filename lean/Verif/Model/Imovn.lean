/-
Model of /repo/epcpy/epc_schemes/imovn.py.
-/
import Verif.Model.Base

namespace Epc

/-- Instance of class `IMOVN`: the attributes set by `__init__`. -/
structure IMOVN where
  epcUri : Str
  vesselNumber : Str
  deriving DecidableEq, Repr

namespace IMOVN

/-- `IMOVN.__init__`.  /repo/epcpy/epc_schemes/imovn.py:22-30 -/
def new (uri : Str) : Except Err IMOVN := do
  guardConvert (Rx.imovnUri.fullmatch uri)
  let vessel ← getPart (split ':' uri) 4
  return ⟨uri, vessel⟩

end IMOVN
end Epc
