/-
/repo/epcpy/epc_schemes/bic.py
-/
import Verif.Refine.Base
import Verif.Model.Bic
set_option linter.unusedSimpArgs false

namespace Epc.Src
open Epc.Spec

theorem sem_BIC (n : Nat) (u : Str) : (level (n + 10)).app (.cls .BIC) [.str u] [] = (lift (Epc.BIC.new u)).map objBIC := by
  rw [app_cls (by rw [mro_BIC, chain_BIC]) rfl (by decide)]
  exe [runInit, BIC.__init__, Epc.BIC.new, init_EPCScheme, objBIC, bic.BIC_URI_REGEX]

end Epc.Src
