/-
The simp set with which source code is executed symbolically.
-/
import Lean.Meta.Tactic.Simp.RegisterCommand

/-- Rules of symbolic execution. -/
register_simp_attr src
