/-
/repo/epcpy/epc_schemes/pgln.py
-/
import Verif.Refine.Base
import Verif.Model.Pgln
set_option linter.unusedSimpArgs false

namespace Epc.Src
open Epc.Spec

theorem sem_PGLN (n : Nat) (u : Str) : (level (n + 10)).app (.cls .PGLN) [.str u] [] = (lift (Epc.PGLN.new u)).map objPGLN := by
  rw [app_cls (by rw [mro_PGLN, chain_PGLN]) rfl (by decide)]
  exe [runInit, PGLN.__init__, Epc.PGLN.new, init_GS1Keyed, objPGLN, pgln.PGLN_URI_REGEX]

theorem sem_PGLN_gs1_key (n : Nat) (x : Epc.PGLN) :
    (level (n + 10)).app (.bound PGLN.gs1_key (objPGLN x)) [] [] = .ok (.str x.gs1Key) := rfl

theorem sem_PGLN_gs1_element_string (n : Nat) (x : Epc.PGLN) :
    (level (n + 10)).app (.bound PGLN.gs1_element_string (objPGLN x)) [] [] = (lift x.gs1ElementString).map .str := by
  rw [app_bound]
  exe [PGLN.gs1_element_string, Epc.PGLN.gs1ElementString, objPGLN]

theorem sem_PGLN_from_gs1_element_string (n : Nat) (s : Str) (k : Int) :
    (level (n + 11)).app (.bound PGLN.from_gs1_element_string (.cls .PGLN)) [.str s, .int k] [] =
      (lift (Epc.PGLN.fromGs1ElementString s k)).map objPGLN := by
  rw [app_bound]
  exe [PGLN.from_gs1_element_string, Epc.PGLN.fromGs1ElementString, sem_PGLN]

end Epc.Src
