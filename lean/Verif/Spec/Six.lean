/-
Specification of the six-bit character code of the EPC Tag Data Standard (used by CPI-var and ADI-var).
-/
import Verif.Spec.Basic

namespace Epc.Spec

/-- The low six bits of a character code, most significant bit first. -/
def sixBit (c : Char) : Str := [32, 16, 8, 4, 2, 1].map fun w => if c.toNat / w % 2 = 1 then '1' else '0'

/-- A string in the six-bit character code, without the terminator. -/
def sixBits (raw : Str) : Str := raw.flatMap sixBit

/-- The terminator `000000` also appears, not necessarily aligned, before the end of the encoded string. -/
def EarlyTerminator (raw : Str) : Prop := py "000000" <:+: sixBits raw ++ py "00000"

instance (raw : Str) : Decidable (EarlyTerminator raw) := by unfold EarlyTerminator; infer_instance

end Epc.Spec
