/-
The set of rewriting rules that turn patterns into regular expressions.
-/
import Lean.Meta.Tactic.Simp.RegisterCommand

/-- The meaning of patterns. -/
register_simp_attr pats
