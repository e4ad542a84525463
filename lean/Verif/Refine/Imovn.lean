/-
/repo/epcpy/epc_schemes/imovn.py
-/
import Verif.Refine.Base
import Verif.Model.Imovn
set_option linter.unusedSimpArgs false

namespace Epc.Src
open Epc.Spec

theorem sem_IMOVN (n : Nat) (u : Str) : (level (n + 10)).app (.cls .IMOVN) [.str u] [] = (lift (Epc.IMOVN.new u)).map objIMOVN := by
  rw [app_cls (by rw [mro_IMOVN, chain_IMOVN]) rfl (by decide)]
  exe [runInit, IMOVN.__init__, Epc.IMOVN.new, init_EPCScheme, objIMOVN, imovn.IMOVN_URI_REGEX]

end Epc.Src
