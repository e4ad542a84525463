/-
The binding of arguments meets its specification.
-/
import Verif.Spec.Call
import Verif.Model.Calls
import Verif.Lemmas.Monad

namespace Epc
open Spec

/-- Name and default value. -/
def Param.pair {α : Type} (p : Param α) : Str × Option α := (p.name, p.default)

theorem bindParam_some {α : Type} {p : Param α} {a v : α} {kw : List (Str × α)} : bindParam p (some a) kw = .ok v ↔ a = v ∧ kw.lookup p.name = none := by
  unfold bindParam
  cases kw.lookup p.name <;> simp

theorem bindParam_none {α : Type} {p : Param α} {v : α} {kw : List (Str × α)} :
    bindParam p none kw = .ok v ↔ kw.lookup p.name = some v ∨ (kw.lookup p.name = none ∧ p.default = some v) := by
  unfold bindParam
  cases kw.lookup p.name <;> cases p.default <;> simp

theorem bindParam_error {α : Type} {p : Param α} {g : Option α} {kw : List (Str × α)} {e : Err} (h : bindParam p g kw = .error e) : e = .type := by
  unfold bindParam at h
  split at h <;> first | cases h <;> done | (cases h; rfl)

theorem bindParams_error {α : Type} : ∀ {ps : List (Param α)} {pos : List α} {kw : List (Str × α)} {e : Err}, bindParams ps pos kw = .error e → e = .type
  | [], [], _, _, h => by cases h
  | [], _ :: _, _, _, h => by cases h; rfl
  | p :: ps, pos, kw, e, h => by
    unfold bindParams at h
    rw [bind_error_iff] at h
    rcases h with h | ⟨v, _, h⟩
    · exact bindParam_error h
    · rw [bind_error_iff] at h
      rcases h with h | ⟨vs, _, h⟩
      · exact bindParams_error h
      · cases h

theorem bindParams_ok {α : Type} : ∀ {ps : List (Param α)} {pos : List α} {kw : List (Str × α)} {vs : List α}, bindParams ps pos kw = .ok vs ↔
    vs.length = ps.length ∧ pos.length ≤ ps.length ∧ vs.take pos.length = pos ∧ (∀ p ∈ ps.take pos.length, kw.lookup p.name = none) ∧
    ∀ i p v, pos.length ≤ i → ps[i]? = some p → vs[i]? = some v → kw.lookup p.name = some v ∨ (kw.lookup p.name = none ∧ p.default = some v)
  | [], [], kw, vs => by
    unfold bindParams
    constructor
    · intro h; cases h; simp
    · rintro ⟨h, -⟩
      rw [List.length_nil, List.length_eq_zero_iff] at h
      rw [h]
  | [], a :: pos, kw, vs => by
    unfold bindParams
    constructor
    · intro h; cases h
    · rintro ⟨-, h, -⟩; simp at h
  | p :: ps, [], kw, vs => by
    unfold bindParams
    rw [bind_ok_iff]
    simp only [List.head?_nil, List.tail_nil, bind_ok_iff, bindParam_none, bindParams_ok, pure_ok]
    constructor
    · rintro ⟨v, hv, ws, ⟨h1, h2, h3, h4, h5⟩, e⟩
      cases e
      refine ⟨by simp [h1], by simp, by simp, by simp, fun i q w _ hq hw => ?_⟩
      cases i with
      | zero => cases hq; cases hw; exact hv
      | succ i => exact h5 i q w (by simp) (by simpa using hq) (by simpa using hw)
    · rintro ⟨h1, -, -, -, h5⟩
      cases vs with
      | nil => simp at h1
      | cons v ws =>
        exact ⟨v, h5 0 p v (by simp) rfl rfl, ws, ⟨by simpa using h1, by simp, by simp, by simp, fun i q w _ hq hw => h5 (i + 1) q w (by simp) (by simpa using hq) (by simpa using hw)⟩, rfl⟩
  | p :: ps, a :: pos, kw, vs => by
    unfold bindParams
    rw [bind_ok_iff]
    simp only [List.head?_cons, List.tail_cons, bind_ok_iff, bindParam_some, bindParams_ok, pure_ok]
    constructor
    · rintro ⟨v, ⟨rfl, hn⟩, ws, ⟨h1, h2, h3, h4, h5⟩, e⟩
      cases e
      refine ⟨by simp [h1], by simpa using h2, by simp [h3], ?_, fun i q w hi hq hw => ?_⟩
      · intro q hq
        rw [List.length_cons, List.take_succ_cons] at hq
        rcases List.mem_cons.1 hq with rfl | hq
        · exact hn
        · exact h4 q hq
      · cases i with
        | zero => simp at hi
        | succ i => exact h5 i q w (by simpa using hi) (by simpa using hq) (by simpa using hw)
    · rintro ⟨h1, h2, h3, h4, h5⟩
      cases vs with
      | nil => simp at h1
      | cons v ws =>
        rw [List.length_cons, List.take_succ_cons] at h3
        injection h3 with e1 e2
        exact ⟨v, ⟨e1.symm, h4 p (by simp)⟩, ws, ⟨by simpa using h1, by simpa using h2, e2, fun q hq => h4 q (by simp [hq]),
          fun i q w hi hq hw => h5 (i + 1) q w (by simpa using hi) (by simpa using hq) (by simpa using hw)⟩, rfl⟩

theorem lookup_none_iff {α : Type} {kw : List (Str × α)} {n : Str} : kw.lookup n = none ↔ ∀ k ∈ kw, k.1 ≠ n := by
  induction kw with
  | nil => simp
  | cons k kw ih =>
    obtain ⟨m, v⟩ := k
    rw [List.lookup_cons]
    by_cases h : n = m
    · subst h; simp
    · rw [show (n == m) = false by simpa using h]
      simp only [List.mem_cons, forall_eq_or_imp]
      rw [ih]
      exact ⟨fun H => ⟨fun e => h e.symm, H⟩, fun H => H.2⟩

theorem bindArgs_iff {α : Type} {ps : List (Param α)} {pos : List α} {kw : List (Str × α)} {vs : List α} (hn : (ps.map (·.name)).Nodup) :
    bindArgs ps pos kw = .ok vs ↔ Passes (ps.map Param.pair) pos kw vs := by
  have key : (∀ k ∈ kw, k.1 ∈ ps.map (·.name)) ∧ (∀ p ∈ ps.take pos.length, kw.lookup p.name = none) ↔
      ∀ k ∈ kw, k.1 ∈ (ps.drop pos.length).map (·.name) := by
    have hsplit : ps.map (·.name) = (ps.take pos.length).map (·.name) ++ (ps.drop pos.length).map (·.name) := by
      rw [← List.map_append, List.take_append_drop]
    rw [hsplit] at hn ⊢
    have hd := (List.nodup_append.1 hn).2.2
    constructor
    · rintro ⟨h1, h2⟩ k hk
      rcases List.mem_append.1 (h1 k hk) with h | h
      · obtain ⟨p, hp, e⟩ := List.mem_map.1 h
        exact absurd e.symm (lookup_none_iff.1 (h2 p hp) k hk)
      · exact h
    · intro h
      refine ⟨fun k hk => List.mem_append.2 (.inr (h k hk)), fun p hp => lookup_none_iff.2 fun k hk e => ?_⟩
      exact hd p.name (List.mem_map.2 ⟨p, hp, rfl⟩) k.1 (h k hk) e.symm
  unfold bindArgs Passes
  have hany : kw.any (fun k => ps.all (fun p => p.name != k.1)) = false ↔ ∀ k ∈ kw, k.1 ∈ ps.map (·.name) := by
    rw [List.any_eq_false]
    refine forall_congr' fun k => forall_congr' fun _ => ?_
    rw [List.all_eq_true, List.mem_map]
    constructor
    · intro h
      exact Classical.byContradiction fun hc => h fun p hp => by
        rw [bne_iff_ne]
        exact fun e => hc ⟨p, hp, e⟩
    · rintro ⟨p, hp, e⟩ h
      exact (bne_iff_ne.1 (h p hp)) e
  have hget : ∀ (i : Nat) (q : Str × Option α), (ps.map Param.pair)[i]? = some q ↔ ∃ p : Param α, ps[i]? = some p ∧ p.pair = q := by
    intro i q
    rw [List.getElem?_map, Option.map_eq_some_iff]
  have hlast : (∀ i p v, pos.length ≤ i → (ps.map Param.pair)[i]? = some p → vs[i]? = some v →
      kw.lookup p.1 = some v ∨ (kw.lookup p.1 = none ∧ p.2 = some v)) ↔
      ∀ i (p : Param α) v, pos.length ≤ i → ps[i]? = some p → vs[i]? = some v → kw.lookup p.name = some v ∨ (kw.lookup p.name = none ∧ p.default = some v) := by
    constructor
    · intro h i p v hi hp hv
      exact h i p.pair v hi ((hget i _).2 ⟨p, hp, rfl⟩) hv
    · intro h i q v hi hq hv
      obtain ⟨p, hp, rfl⟩ := (hget i q).1 hq
      exact h i p v hi hp hv
  rw [hlast, ← List.map_drop, List.map_map, List.length_map]
  rw [show ((fun x : Str × Option α => x.1) ∘ Param.pair) = (fun p : Param α => p.name) from rfl, ← key]
  split
  · next h =>
    constructor
    · intro hc; cases hc
    · rintro ⟨-, -, -, ⟨h1, -⟩, -⟩
      rw [hany.2 h1] at h
      exact Bool.noConfusion h
  · next h =>
    rw [bindParams_ok]
    have h1 := hany.1 (by simpa using h)
    constructor
    · rintro ⟨a, b, c, d, e⟩; exact ⟨a, b, c, ⟨h1, d⟩, e⟩
    · rintro ⟨a, b, c, ⟨_, d⟩, e⟩; exact ⟨a, b, c, d, e⟩

theorem bindArgs_none {α : Type} {ps : List (Param α)} {pos : List α} {kw : List (Str × α)} (hn : (ps.map (·.name)).Nodup)
    (h : ¬ ∃ vs, Passes (ps.map Param.pair) pos kw vs) : bindArgs ps pos kw = .error .type := by
  cases e : bindArgs ps pos kw with
  | ok vs => exact absurd ⟨vs, (bindArgs_iff hn).1 e⟩ h
  | error x =>
    unfold bindArgs at e
    split at e
    · cases e; rfl
    · rw [bindParams_error e]

theorem tagUriBody_typed {κ : Type} {n : Nat} (check : κ → Except Err Bool) (value : κ → Str) (rest : Str) (c : κ) (f : Fin n) :
    tagUriBody check value rest (.coding c) (.filter f) = (check c >>= fun bad =>
      if bad then .error .convert else .ok (tagUriPrefix ++ value c ++ ':' :: filterStr f ++ '.' :: rest)) := rfl

/-- Without positional arguments the order of two parameters is immaterial. -/
theorem passes_swap {α : Type} {m n : Str} {d e : Option α} {kw : List (Str × α)} {v w : α} :
    Passes [(m, d), (n, e)] [] kw [v, w] ↔ Passes [(n, e), (m, d)] [] kw [w, v] := by
  have key : ∀ {m n : Str} {d e : Option α} {v w : α}, Passes [(m, d), (n, e)] [] kw [v, w] → Passes [(n, e), (m, d)] [] kw [w, v] := by
    rintro m n d e v w ⟨-, -, -, h4, h5⟩
    refine ⟨rfl, by simp, rfl, fun k hk => ?_, fun i p u _ hp hu => ?_⟩
    · have := h4 k hk
      simp only [List.length_nil, List.drop_zero, List.map_cons, List.map_nil, List.mem_cons, List.not_mem_nil, or_false] at this ⊢
      exact this.symm
    · match i, hp, hu with
      | 0, hp, hu => cases hp; cases hu; exact h5 1 _ _ (by simp) rfl rfl
      | 1, hp, hu => cases hp; cases hu; exact h5 0 _ _ (by simp) rfl rfl
      | i + 2, hp, _ => simp at hp
  exact ⟨key, key⟩

end Epc
