/-
/repo/epcpy/epc_schemes/upui.py
-/
import Verif.Refine.Base
import Verif.Model.Upui
set_option linter.unusedSimpArgs false

namespace Epc.Src
open Epc.Spec

theorem sem_UPUI (n : Nat) (u : Str) : (level (n + 10)).app (.cls .UPUI) [.str u] [] = (lift (Epc.UPUI.new u)).map objUPUI := by
  rw [app_cls (by rw [mro_UPUI, chain_UPUI]) rfl (by decide)]
  exe [runInit, UPUI.__init__, Epc.UPUI.new, init_GS1Element, objUPUI, upui.UPUI_URI_REGEX]

theorem sem_UPUI_gs1_element_string (n : Nat) (x : Epc.UPUI) :
    (level (n + 10)).app (.bound UPUI.gs1_element_string (objUPUI x)) [] [] = (lift x.gs1ElementString).map .str := by
  rw [app_bound]
  exe [UPUI.gs1_element_string, Epc.UPUI.gs1ElementString, objUPUI]

theorem sem_UPUI_from_gs1_element_string (n : Nat) (s : Str) (k : Int) :
    (level (n + 11)).app (.bound UPUI.from_gs1_element_string (.cls .UPUI)) [.str s, .int k] [] =
      (lift (Epc.UPUI.fromGs1ElementString s k)).map objUPUI := by
  rw [app_bound]
  exe [UPUI.from_gs1_element_string, Epc.UPUI.fromGs1ElementString, sem_UPUI]

end Epc.Src
