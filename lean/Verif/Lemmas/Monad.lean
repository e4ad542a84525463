/-
Equations for the exception monad, used to step through the model functions.
-/
import Verif.Model.Base

namespace Epc

theorem ok_bind {α β : Type} (a : α) (f : α → Except Err β) : (Except.ok a >>= f) = f a := rfl
theorem error_bind {α β : Type} (e : Err) (f : α → Except Err β) : ((Except.error e : Except Err α) >>= f) = .error e := rfl
theorem pure_ok {α : Type} (a : α) : (pure a : Except Err α) = .ok a := rfl

theorem bind_ok_iff {α β : Type} {x : Except Err α} {f : α → Except Err β} {b : β} :
    (x >>= f) = .ok b ↔ ∃ a, x = .ok a ∧ f a = .ok b := by
  cases x with
  | ok a => simp [ok_bind]
  | error e => simp [error_bind]

theorem bind_error_iff {α β : Type} {x : Except Err α} {f : α → Except Err β} {e : Err} :
    (x >>= f) = .error e ↔ x = .error e ∨ ∃ a, x = .ok a ∧ f a = .error e := by
  cases x with
  | ok a => simp [ok_bind]
  | error e => simp [error_bind]

theorem guard_true {c : Bool} (h : c = true) : guardConvert c = .ok () := by simp [guardConvert, h]
theorem guard_false {c : Bool} (h : c = false) : guardConvert c = .error .convert := by simp [guardConvert, h]

theorem guard_ok_iff {c : Bool} {u : Unit} : guardConvert c = .ok u ↔ c = true := by
  cases c <;> simp [guardConvert]

theorem guard_error_iff {c : Bool} {e : Err} : guardConvert c = .error e ↔ c = false ∧ e = .convert := by
  cases c <;> simp [guardConvert, eq_comm]

theorem guard_bind_ok {α : Type} {c : Bool} {f : Unit → Except Err α} {b : α} :
    (guardConvert c >>= f) = .ok b ↔ c = true ∧ f () = .ok b := by
  cases c <;> simp [guardConvert, ok_bind, error_bind]

theorem guard_bind_error {α : Type} {c : Bool} {f : Unit → Except Err α} {e : Err} :
    (guardConvert c >>= f) = .error e ↔ (c = false ∧ e = .convert) ∨ (c = true ∧ f () = .error e) := by
  cases c <;> simp [guardConvert, ok_bind, error_bind, eq_comm]

theorem unit_bind_ok {α : Type} {x : Except Err Unit} {f : Unit → Except Err α} {b : α} :
    (x >>= f) = .ok b ↔ x = .ok () ∧ f () = .ok b := by
  cases x with
  | ok a => simp [ok_bind]
  | error e => simp [error_bind]

theorem map_ok_iff {α β : Type} {x : Except Err α} {f : α → β} {b : β} :
    x.map f = .ok b ↔ ∃ a, x = .ok a ∧ f a = b := by
  cases x <;> simp [Except.map]

theorem getPart_ok {l : List Str} {i : Nat} {s : Str} (h : l[i]? = some s) : getPart l i = .ok s := by
  simp [getPart, h]

theorem getPart_ok_iff {l : List Str} {i : Nat} {s : Str} : getPart l i = .ok s ↔ l[i]? = some s := by
  unfold getPart; cases h : l[i]? <;> simp

end Epc
