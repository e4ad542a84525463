/-
Numbers as arguments: `gtin` and `gs1_key` of SGTIN and LGTIN with an integer as kind of GTIN, and `SGTIN.from_gtin_plus_serial` with an integer as
serial, executed from the source.
-/
import Verif.Refine.Sgtin
import Verif.Refine.Lgtin
import Verif.Model.Numbers
set_option linter.unusedSimpArgs false

namespace Epc.Src
open Epc.Spec

theorem gtin_number (g : Str) (k : Int) :
    (if (!(k == ((14 : Nat) : Int))) = true then
      if (!startsWith g (repeatStr ['0'] (((14 : Nat) : Int) - k))) = true then (Except.error (Exn.err Err.convert) : M Val)
      else Except.ok (Val.str (sliceI g (((14 : Nat) : Int) - k) ((14 : Nat) : Int)))
    else Except.ok (Val.str (sliceI g (((14 : Nat) : Int) - k) ((14 : Nat) : Int)))) =
    (lift (if k ≠ 14 ∧ startsWith g (zeros (14 - k)) = false then .error .convert else .ok (sliceI g (14 - k) 14))).map .str := by
  have hr : repeatStr ['0'] (((14 : Nat) : Int) - k) = zeros (14 - k) := by
    show _ = List.replicate _ _
    unfold repeatStr
    simp [List.flatten_replicate_singleton]
  rw [hr]
  by_cases hk : k = 14
  · subst hk; rfl
  · cases h : startsWith g (zeros (14 - k)) <;> simp [hk, h, lift, Except.map]

theorem int_SGTIN_gtin (n : Nat) (x : Epc.SGTIN) (k : Int) :
    (level (n + 9)).app (.bound SGTIN.gtin (objSGTIN x)) [] [(.gtin_type, .int k)] = (lift (x.gtinInt k)).map .str := by
  rw [app_bound]
  run [SGTIN.gtin, objSGTIN, tagAttrs, del]
  exact gtin_number _ k

theorem int_SGTIN_gs1_key (n : Nat) (x : Epc.SGTIN) (k : Int) :
    (level (n + 10)).app (.bound SGTIN.gs1_key (objSGTIN x)) [] [(.gtin_type, .int k)] = (lift (x.gs1KeyInt k)).map .str := by
  rw [app_bound]
  have h := int_SGTIN_gtin n x k
  simp only [objSGTIN, tagAttrs] at h
  exe [SGTIN.gs1_key, Epc.SGTIN.gs1KeyInt, objSGTIN, tagAttrs, del, h]

theorem int_LGTIN_gtin (n : Nat) (x : Epc.LGTIN) (k : Int) :
    (level (n + 9)).app (.bound LGTIN.gtin (objLGTIN x)) [] [(.gtin_type, .int k)] = (lift (x.gtinInt k)).map .str := by
  rw [app_bound]
  run [LGTIN.gtin, objLGTIN, del]
  exact gtin_number _ k

theorem int_LGTIN_gs1_key (n : Nat) (x : Epc.LGTIN) (k : Int) :
    (level (n + 10)).app (.bound LGTIN.gs1_key (objLGTIN x)) [] [(.gtin_type, .int k)] = (lift (x.gs1KeyInt k)).map .str := by
  rw [app_bound]
  have h := int_LGTIN_gtin n x k
  simp only [objLGTIN] at h
  exe [LGTIN.gs1_key, Epc.LGTIN.gs1KeyInt, objLGTIN, del, h]

theorem int_SGTIN_from_gtin_plus_serial (n : Nat) (g : Str) (s k : Int) :
    (level (n + 11)).app (.bound SGTIN.from_gtin_plus_serial (.cls .SGTIN)) [.str g, .int s, .int k] [] =
      (lift (Epc.SGTIN.fromGtinPlusInt g s k)).map objSGTIN := by
  rw [app_bound]
  exe [SGTIN.from_gtin_plus_serial, Epc.SGTIN.fromGtinPlusInt, Epc.SGTIN.fromGtinPlusSerial, sem_SGTIN]

end Epc.Src
