/-
/repo/epcpy/epc_schemes/lgtin.py
-/
import Verif.Refine.Base
import Verif.Model.Lgtin
set_option linter.unusedSimpArgs false

namespace Epc.Src
open Epc.Spec

theorem sem_LGTIN (n : Nat) (u : Str) : (level (n + 10)).app (.cls .LGTIN) [.str u] [] = (lift (Epc.LGTIN.new u)).map objLGTIN := by
  rw [app_cls (by rw [mro_LGTIN, chain_LGTIN]) rfl (by decide)]
  exe [runInit, LGTIN.__init__, Epc.LGTIN.new, init_GS1Keyed, objLGTIN, lgtin.LGTIN_CLASS_REGEX]

theorem sem_LGTIN_gtin (n : Nat) (x : Epc.LGTIN) (t : GtinType) :
    (level (n + 9)).app (.bound LGTIN.gtin (objLGTIN x)) [] [(.gtin_type, .int t.toNat)] = (lift (x.gtin t)).map .str := by
  rw [app_bound]
  run [LGTIN.gtin, objLGTIN, del]
  exact gtin_form _ t

theorem sem_LGTIN_gs1_key (n : Nat) (x : Epc.LGTIN) (t : GtinType) :
    (level (n + 10)).app (.bound LGTIN.gs1_key (objLGTIN x)) [] [(.gtin_type, .int t.toNat)] = (lift (x.gs1Key t)).map .str := by
  rw [app_bound]
  have h := sem_LGTIN_gtin n x t
  simp only [objLGTIN] at h
  exe [LGTIN.gs1_key, Epc.LGTIN.gs1Key, objLGTIN, del, h]

theorem sem_LGTIN_gs1_element_string (n : Nat) (x : Epc.LGTIN) :
    (level (n + 10)).app (.bound LGTIN.gs1_element_string (objLGTIN x)) [] [] = (lift x.gs1ElementString).map .str := by
  rw [app_bound]
  exe [LGTIN.gs1_element_string, Epc.LGTIN.gs1ElementString, objLGTIN]

theorem sem_LGTIN_from_gs1_element_string (n : Nat) (s : Str) (k : Int) :
    (level (n + 11)).app (.bound LGTIN.from_gs1_element_string (.cls .LGTIN)) [.str s, .int k] [] =
      (lift (Epc.LGTIN.fromGs1ElementString s k)).map objLGTIN := by
  rw [app_bound]
  exe [LGTIN.from_gs1_element_string, Epc.LGTIN.fromGs1ElementString, sem_LGTIN]

end Epc.Src
