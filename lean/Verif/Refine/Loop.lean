/-
Loops that append to a text, and comprehensions.
-/
import Verif.Refine.Format

namespace Epc.Src
open Epc.Spec

/-- Two environments that differ in two names only. -/
def Same (x y : Nm) (e e' : Env) : Prop := ∀ z, z ≠ x → z ≠ y → get z e = get z e'

theorem Same.set_left {x y : Nm} {e e' : Env} (h : Same x y e e') (v : Val) : Same x y (set x v e) e' := by
  intro z hx hy
  rw [get_set_ne hx, h z hx hy]

theorem Same.set_right {x y : Nm} {e e' : Env} (h : Same x y e e') (v : Val) : Same x y (set y v e) e' := by
  intro z hx hy
  rw [get_set_ne hy, h z hx hy]

/-- What the body of a loop over texts, which appends to a text, does. -/
def Appends (x y : Nm) (env₀ : Env) (piece : Str → Except Err Str) (body : Env → M Flow) : Prop :=
  ∀ g r env, Same x y env env₀ → get y env = some (.str r) →
    body (set x (.str g) env) = (lift (piece g) >>= fun t => .ok (.next (set y (.str (r ++ t)) (set x (.str g) env)))) ∨
    piece g = .ok [] ∧ body (set x (.str g) env) = .ok (.cont (set x (.str g) env))

theorem loop_appends {x y : Nm} (hxy : x ≠ y) {env₀ : Env} {piece : Str → Except Err Str} {body : Env → M Flow}
    (h : Appends x y env₀ piece body) (l : List Str) : ∀ (r : Str) (env : Env), Same x y env env₀ → get y env = some (.str r) →
      (∀ e, l.mapM piece = .error e → forLoop (fun env v => .ok (set x v env)) body (l.map .str) env = .error (.err e)) ∧
      (∀ ts, l.mapM piece = .ok ts → ∃ env', Same x y env' env₀ ∧ get y env' = some (.str (r ++ ts.flatten)) ∧
        forLoop (fun env v => .ok (set x v env)) body (l.map .str) env = .ok (.next env')) := by
  induction l with
  | nil =>
    intro r env hs hr
    refine ⟨fun e he => ?_, fun ts hts => ?_⟩
    · cases he
    · cases hts
      exact ⟨env, hs, by simpa using hr, rfl⟩
  | cons g l ih =>
    intro r env hs hr
    have hg : get y (set x (.str g) env) = some (.str r) := by rw [get_set_ne (Ne.symm hxy), hr]
    rw [List.mapM_cons]
    rcases h g r env hs hr with hb | ⟨hp, hb⟩
    · have hf : forLoop (fun env v => .ok (set x v env)) body ((g :: l).map .str) env =
          lift (piece g) >>= fun t => forLoop (fun env v => .ok (set x v env)) body (l.map .str) (set y (.str (r ++ t)) (set x (.str g) env)) := by
        rw [List.map_cons, forLoop]
        rw [m_ok_bind, hb]
        cases piece g <;> rfl
      rw [hf]
      cases hp : piece g with
      | error e =>
        refine ⟨fun e' he => ?_, fun ts hts => ?_⟩
        · cases he; rfl
        · cases hts
      | ok t =>
        have := ih (r ++ t) (set y (.str (r ++ t)) (set x (.str g) env)) ((hs.set_left _).set_right _) (get_set_self _ _ _)
        rw [lift_ok, m_ok_bind]
        simp only [ok_bind]
        refine ⟨fun e he => ?_, fun ts hts => ?_⟩
        · refine this.1 e ?_
          cases hm : l.mapM piece with
          | error e' => rw [hm] at he; exact he
          | ok ts => rw [hm] at he; cases he
        · cases hm : l.mapM piece with
          | error e' => rw [hm] at hts; cases hts
          | ok ts' =>
            rw [hm] at hts
            cases hts
            obtain ⟨env', h1, h2, h3⟩ := this.2 ts' hm
            exact ⟨env', h1, by simpa using h2, h3⟩
    · have hf : forLoop (fun env v => .ok (set x v env)) body ((g :: l).map .str) env =
          forLoop (fun env v => .ok (set x v env)) body (l.map .str) (set x (.str g) env) := by
        rw [List.map_cons, forLoop]
        rw [m_ok_bind, hb]
        rfl
      rw [hf]
      have := ih r (set x (.str g) env) (hs.set_left _) hg
      rw [hp]
      simp only [ok_bind]
      refine ⟨fun e he => ?_, fun ts hts => ?_⟩
      · refine this.1 e ?_
        cases hm : l.mapM piece with
        | error e' => rw [hm] at he; exact he
        | ok ts => rw [hm] at he; cases he
      · cases hm : l.mapM piece with
        | error e' => rw [hm] at hts; cases hts
        | ok ts' =>
          rw [hm] at hts
          cases hts
          obtain ⟨env', h1, h2, h3⟩ := this.2 ts' hm
          exact ⟨env', h1, by simpa using h2, h3⟩

/-- A comprehension over texts. -/
theorem map_texts {f : Val → M Val} {piece : Str → Except Err Str} (h : ∀ s, f (.str s) = (lift (piece s)).map .str) (l : List Str) :
    (l.map Val.str).mapM f = (lift (l.mapM piece)).map (fun ts => ts.map .str) := by
  induction l with
  | nil => rfl
  | cons a l ih =>
    rw [List.map_cons, List.mapM_cons, List.mapM_cons, ih, h]
    cases piece a with
    | error e => rfl
    | ok t => cases l.mapM piece <;> rfl

/-- A comprehension over the characters of a text. -/
theorem map_chars {f : Val → M Val} {piece : Char → Except Err Str} (h : ∀ c, f (.str [c]) = (lift (piece c)).map .str) (l : Str) :
    (l.map (fun c => Val.str [c])).mapM f = (lift (l.mapM piece)).map (fun ts => ts.map .str) := by
  induction l with
  | nil => rfl
  | cons a l ih =>
    rw [List.map_cons, List.mapM_cons, List.mapM_cons, ih, h]
    cases piece a with
    | error e => rfl
    | ok t => cases l.mapM piece <;> rfl

end Epc.Src
