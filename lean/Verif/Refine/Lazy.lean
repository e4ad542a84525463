/-
Symbolic execution that does not enter the continuation of a step before the step is evaluated.
-/
import Verif.Refine.Common
set_option linter.unusedSimpArgs false

namespace Epc.Src

theorem bind_first {α β : Type} (f : α → M β) {x y : M α} (h : x = y) : (x >>= f) = (y >>= f) := by rw [h]

/-- Two sequences with the same first step. -/
theorem same_step {α β : Type} {x : Except Err α} {f g : α → M β} (h : ∀ a, x = .ok a → f a = g a) : (lift x >>= f) = (lift x >>= g) := by
  cases x with
  | error e => rfl
  | ok a => exact h a rfl

open Lean Meta Simp in
/-- Evaluate the first step of a sequence, and go on with the rest only if it has a result. -/
simproc_decl lazyBind (@bind _ _ _ _ _ _) := fun e => do
  let_expr Bind.bind m _ α β x f := e | return .continue
  let m ← whnfR m
  unless m.isAppOfArity ``Except 1 do return .continue
  unless m.appArg!.isConstOf ``Exn do return .done { expr := e }
  let r ← simp x
  let x' := r.expr
  let lhs := r.proof?
  let finish (rhs : Lean.Expr) (pf : Lean.Expr) (stop : Bool) : SimpM Step := do
    let pf ← match lhs with
      | some h => mkEqTrans (← mkAppM ``bind_first #[f, h]) pf
      | none => pure pf
    let res : Simp.Result := { expr := rhs, proof? := some pf }
    return if stop then .done res else .visit res
  match_expr x' with
  | Except.ok _ _ a =>
    finish (mkApp f a).headBeta (← mkAppOptM ``m_ok_bind #[α, β, a, f]) false
  | Except.error _ _ err =>
    let pf ← mkAppOptM ``m_error_bind #[α, β, err, f]
    let some (_, _, rhs) := (← inferType pf).eq? | return .continue
    finish rhs pf true
  | Bind.bind _ _ γ _ y g =>
    let pf ← mkAppOptM ``m_assoc #[γ, α, β, y, g, f]
    let some (_, _, rhs) := (← inferType pf).eq? | return .continue
    let rhs := rhs.headBeta
    finish rhs pf true
  | ite _ c dec a b =>
    let pf := mkAppN (mkConst ``m_ite) #[α, β, c, dec, a, b, f]
    let some (_, _, rhs) := (← inferType pf).eq? | return .continue
    finish rhs pf false
  | _ =>
    match lhs with
    | some h =>
      let pf ← mkAppM ``bind_first #[f, h]
      let some (_, _, rhs) := (← inferType pf).eq? | return .continue
      return .done { expr := rhs, proof? := some pf }
    | none => return .done { expr := mkApp (mkApp e.appFn!.appFn! x') f }

/-- Execute as far as possible. -/
macro "run" "[" ts:Lean.Parser.Tactic.simpLemma,* "]" : tactic => `(tactic| simp only [src, reduceCtorEq, ↓reduceIte, ↓lazyBind, $ts,*])

theorem same_if {α : Type} {c : Prop} [Decidable c] {a a' b b' : α} (h : c → a = a') (h' : ¬ c → b = b') :
    (if c then a else b) = (if c then a' else b') := by
  by_cases hc : c
  · rw [if_pos hc, if_pos hc, h hc]
  · rw [if_neg hc, if_neg hc, h' hc]

theorem same_if_iff {α : Type} {c d : Prop} [Decidable c] [Decidable d] {a a' b b' : α} (hd : c ↔ d) (h : c → a = a') (h' : ¬ c → b = b') :
    (if c then a else b) = (if d then a' else b') := by
  by_cases hc : c
  · rw [if_pos hc, if_pos (hd.1 hc), h hc]
  · rw [if_neg hc, if_neg (fun x => hc (hd.2 x)), h' hc]

/-- Execute two programs that take the same steps. -/
macro "go" "[" ts:Lean.Parser.Tactic.simpLemma,* "]" : tactic =>
  `(tactic| repeat' (first | with_reducible rfl | (with_reducible refine same_step fun _ _ => ?_) | (with_reducible refine same_if (fun _ => ?_) (fun _ => ?_)) | run [$ts,*]))

end Epc.Src
