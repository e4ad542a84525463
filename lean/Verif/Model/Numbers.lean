/-
Numbers passed where the annotations or docstrings name a text or an enumeration: the serial of `SGTIN.from_gtin_plus_serial`, and the kind of
GTIN of `gtin` (the members of `GTIN_TYPE` are integers, and arithmetic is all that is done with them).
-/
import Verif.Model.Sgtin
import Verif.Model.Lgtin

namespace Epc

/-- `SGTIN.from_gtin_plus_serial(gtin, k, n)` for an integer `k`: the serial is `str(k)`.  (From 4301 digits on `str` itself raises ValueError;
the model raises ConvertException.)  /repo/epcpy/epc_schemes/sgtin.py:176-193 -/
def SGTIN.fromGtinPlusInt (gtin : Str) (k n : Int) : Except Err SGTIN := SGTIN.fromGtinPlusSerial gtin (intStr k) n

/-- `k * "0"` for an integer `k`: empty for negative numbers. -/
def zeros (k : Int) : Str := List.replicate k.toNat '0'

/-- `SGTIN.gtin(gtin_type=n)` for an integer `n`.  /repo/epcpy/epc_schemes/sgtin.py:207-224 -/
def SGTIN.gtinInt (x : SGTIN) (n : Int) : Except Err Str :=
  if n ≠ 14 ∧ startsWith x.gtin14 (zeros (14 - n)) = false then .error .convert
  else .ok (sliceI x.gtin14 (14 - n) 14)

/-- `SGTIN.gs1_key(gtin_type=n)` for an integer `n`.  /repo/epcpy/epc_schemes/sgtin.py:195-205 -/
def SGTIN.gs1KeyInt (x : SGTIN) (n : Int) : Except Err Str := x.gtinInt n

/-- `LGTIN.gtin(gtin_type=n)` for an integer `n`.  /repo/epcpy/epc_schemes/lgtin.py:94-111 -/
def LGTIN.gtinInt (x : LGTIN) (n : Int) : Except Err Str :=
  if n ≠ 14 ∧ startsWith x.gtin14 (zeros (14 - n)) = false then .error .convert
  else .ok (sliceI x.gtin14 (14 - n) 14)

/-- `LGTIN.gs1_key(gtin_type=n)` for an integer `n`.  /repo/epcpy/epc_schemes/lgtin.py:82-92 -/
def LGTIN.gs1KeyInt (x : LGTIN) (n : Int) : Except Err Str := x.gtinInt n

end Epc
