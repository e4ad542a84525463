/-
Specification vocabulary for GS1 element strings.
-/
import Verif.Spec.Basic

namespace Epc.Spec

/-- The text contains a parenthesised group of exactly `k` characters, as application identifiers have. -/
def HasGroup (k : Nat) (s : Str) : Prop := ∃ p m q, s = p ++ '(' :: (m ++ ')' :: q) ∧ m.length = k

/-- `t` is `s` with its check digit put right: behind `pre` and `n` digits stands the check digit of these digits, and nothing
else has changed. -/
def Corrected (pre : Str) (n : Nat) (s t : Str) : Prop :=
  ∃ body k k' rest, body.length = n ∧ s = pre ++ (body ++ k :: rest) ∧ t = pre ++ (body ++ k' :: rest) ∧
    Digits (body ++ [k']) ∧ CheckDigitOk (body ++ [k'])

end Epc.Spec
