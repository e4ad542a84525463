/-
/repo/epcpy/epc_schemes/gsin.py
-/
import Verif.Refine.Base
import Verif.Model.Gsin
set_option linter.unusedSimpArgs false

namespace Epc.Src
open Epc.Spec

theorem elt_gsin (n : Nat) (env : Env) (h1 : get .int env = .none) (c : Char) :
    runElt (level n) .gsin env .d gsin.calculate_checksum.elt1 (.str [c]) = (lift (digitInt c)).map (fun k => .int (k : Int)) := by
  unfold runElt gsin.calculate_checksum.elt1
  go [get_set_self, get_set_ne, h1, ne_eq, not_false_iff, pyInt_single, Int.ofNat_eq_natCast]

theorem sem_gsin_checksum (n : Nat) (s : Str) :
    (level (n + 2)).app (.func gsin.calculate_checksum) [.str s] [] = (lift (Epc.GSIN.checksum s)).map (fun k => .int (k : Int)) := by
  rw [app_func]
  have := elt_gsin (n + 1) [(.digits, .str s)] rfl
  go [gsin.calculate_checksum, Epc.GSIN.checksum, map_ints this, getSlice_second, mod_ten, mul_nat, ten_sub_mod, drop_one_map,
      List.drop_zero, everySecond_map, sumInts_map, odds]

theorem sem_GSIN (n : Nat) (u : Str) : (level (n + 10)).app (.cls .GSIN) [.str u] [] = (lift (Epc.GSIN.new u)).map objGSIN := by
  rw [app_cls (by rw [mro_GSIN, chain_GSIN]) rfl (by decide)]
  exe [runInit, sem_gsin_checksum, GSIN.__init__, Epc.GSIN.new, init_GS1Keyed, objGSIN, gsin.GSIN_URI_REGEX]

theorem sem_GSIN_gs1_key (n : Nat) (x : Epc.GSIN) :
    (level (n + 10)).app (.bound GSIN.gs1_key (objGSIN x)) [] [] = .ok (.str x.gs1Key) := rfl

theorem sem_GSIN_gs1_element_string (n : Nat) (x : Epc.GSIN) :
    (level (n + 10)).app (.bound GSIN.gs1_element_string (objGSIN x)) [] [] = (lift x.gs1ElementString).map .str := by
  rw [app_bound]
  exe [GSIN.gs1_element_string, Epc.GSIN.gs1ElementString, objGSIN]

theorem sem_GSIN_from_gs1_element_string (n : Nat) (s : Str) (k : Int) :
    (level (n + 11)).app (.bound GSIN.from_gs1_element_string (.cls .GSIN)) [.str s, .int k] [] =
      (lift (Epc.GSIN.fromGs1ElementString s k)).map objGSIN := by
  rw [app_bound]
  exe [GSIN.from_gs1_element_string, Epc.GSIN.fromGs1ElementString, sem_GSIN]

end Epc.Src
