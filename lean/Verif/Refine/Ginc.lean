/-
/repo/epcpy/epc_schemes/ginc.py
-/
import Verif.Refine.Base
import Verif.Model.Ginc
set_option linter.unusedSimpArgs false

namespace Epc.Src
open Epc.Spec

theorem sem_GINC (n : Nat) (u : Str) : (level (n + 10)).app (.cls .GINC) [.str u] [] = (lift (Epc.GINC.new u)).map objGINC := by
  rw [app_cls (by rw [mro_GINC, chain_GINC]) rfl (by decide)]
  exe [runInit, GINC.__init__, Epc.GINC.new, init_GS1Keyed, objGINC, ginc.GINC_URI_REGEX]

theorem sem_GINC_gs1_key (n : Nat) (x : Epc.GINC) :
    (level (n + 10)).app (.bound GINC.gs1_key (objGINC x)) [] [] = .ok (.str x.gs1Key) := rfl

theorem sem_GINC_gs1_element_string (n : Nat) (x : Epc.GINC) :
    (level (n + 10)).app (.bound GINC.gs1_element_string (objGINC x)) [] [] = (lift x.gs1ElementString).map .str := by
  rw [app_bound]
  exe [GINC.gs1_element_string, Epc.GINC.gs1ElementString, objGINC]

theorem sem_GINC_from_gs1_element_string (n : Nat) (s : Str) (k : Int) :
    (level (n + 11)).app (.bound GINC.from_gs1_element_string (.cls .GINC)) [.str s, .int k] [] =
      (lift (Epc.GINC.fromGs1ElementString s k)).map objGINC := by
  rw [app_bound]
  exe [GINC.from_gs1_element_string, Epc.GINC.fromGs1ElementString, sem_GINC]

end Epc.Src
