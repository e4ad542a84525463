/-
The method resolution order contains exactly the classes a class derives from.
-/
import Verif.Model.Classes
import Verif.Spec.Class
import Verif.Lemmas.ParseTag
import Verif.Lemmas.TagUri

namespace Epc
open Spec

theorem c3Merge_mem {κ : Type} [DecidableEq κ] {fuel : Nat} {ls : List (List κ)} {r : List κ} (h : c3Merge fuel ls = some r) (x : κ) :
    x ∈ r ↔ ∃ l ∈ ls, x ∈ l := by
  induction fuel generalizing ls r with
  | zero =>
    unfold c3Merge at h
    split at h
    · rename_i e
      cases h
      have : ∀ l ∈ ls, l = [] := by
        intro l hl
        have h1 : l ∉ ls.filter (fun l => !l.isEmpty) := by rw [e]; simp
        cases l with
        | nil => rfl
        | cons a l => exact absurd (List.mem_filter.2 ⟨hl, rfl⟩) h1
      constructor
      · intro h; cases h
      · rintro ⟨l, hl, hx⟩; rw [this l hl] at hx; cases hx
    · cases h
  | succ fuel ih =>
    unfold c3Merge at h
    have hmem : (∃ l ∈ ls, x ∈ l) ↔ ∃ l ∈ ls.filter (fun l => !l.isEmpty), x ∈ l := by
      constructor
      · rintro ⟨l, hl, hx⟩
        refine ⟨l, List.mem_filter.2 ⟨hl, ?_⟩, hx⟩
        cases l with
        | nil => cases hx
        | cons a l => rfl
      · rintro ⟨l, hl, hx⟩; exact ⟨l, (List.mem_filter.1 hl).1, hx⟩
    rw [hmem]
    split at h
    · rename_i e
      cases h
      rw [e]
      simp
    · rename_i ls' _
      rename_i e
      dsimp only at h
      split at h
      · cases h
      · rename_i c hc
        obtain ⟨r', hr', rfl⟩ := Option.map_eq_some_iff.1 h
        have hc' := List.mem_of_find?_eq_some hc
        obtain ⟨l0, hl0, hl0c⟩ := List.mem_filterMap.1 hc'
        rw [List.mem_cons, ih hr']
        constructor
        · rintro (rfl | ⟨l, hl, hx⟩)
          · exact ⟨l0, hl0, List.mem_of_mem_head? hl0c⟩
          · obtain ⟨l', hl', rfl⟩ := List.mem_map.1 hl
            refine ⟨l', hl', ?_⟩
            split at hx
            · exact List.mem_of_mem_tail hx
            · exact hx
        · rintro ⟨l, hl, hx⟩
          by_cases hh : l.head? = some c
          · cases l with
            | nil => cases hx
            | cons a l =>
              cases hh
              rcases List.mem_cons.1 hx with rfl | hx
              · exact .inl rfl
              · exact .inr ⟨l, List.mem_map.2 ⟨c :: l, hl, by simp⟩, hx⟩
          · exact .inr ⟨l, List.mem_map.2 ⟨l, hl, by simp [hh]⟩, hx⟩

theorem mapM_mem {α β : Type} {f : α → Option β} {l : List α} {r : List β} (h : l.mapM f = some r) :
    (∀ y ∈ r, ∃ x ∈ l, f x = some y) ∧ ∀ x ∈ l, ∃ y ∈ r, f x = some y := by
  induction l generalizing r with
  | nil => simp at h; subst h; simp
  | cons a l ih =>
    simp only [List.mapM_cons, Option.bind_eq_bind, Option.bind_eq_some_iff, Option.pure_def, Option.some.injEq] at h
    obtain ⟨b, hb, r', hr', rfl⟩ := h
    obtain ⟨h1, h2⟩ := ih hr'
    constructor
    · intro y hy
      rcases List.mem_cons.1 hy with rfl | hy
      · exact ⟨a, by simp, hb⟩
      · obtain ⟨x, hx, e⟩ := h1 y hy; exact ⟨x, by simp [hx], e⟩
    · intro x hx
      rcases List.mem_cons.1 hx with rfl | hx
      · exact ⟨b, by simp, hb⟩
      · obtain ⟨y, hy, e⟩ := h2 x hx; exact ⟨y, by simp [hy], e⟩

/-- For every hierarchy: if the class has a method resolution order, its members are the classes it derives from. -/
theorem mro_mem {κ : Type} [DecidableEq κ] {stmt : κ → ClassStmt κ} {fuel : Nat} {c : κ} {r : List κ} (h : mro stmt fuel c = some r) (d : κ) :
    d ∈ r ↔ Derives (fun c => (stmt c).bases) c d := by
  induction fuel generalizing c r d with
  | zero => cases h
  | succ fuel ih =>
    simp only [mro, Option.bind_eq_bind, Option.bind_eq_some_iff, Option.pure_def, Option.some.injEq] at h
    obtain ⟨orders, ho, rest, hr, rfl⟩ := h
    obtain ⟨h1, h2⟩ := mapM_mem ho
    rw [List.mem_cons, c3Merge_mem hr]
    constructor
    · rintro (rfl | ⟨l, hl, hd⟩)
      · exact .refl _
      · rcases List.mem_append.1 hl with hl | hl
        · obtain ⟨b, hb, e⟩ := h1 l hl
          exact .base hb ((ih e d).1 hd)
        · rw [List.mem_singleton.1 hl] at hd
          exact .base hd (.refl d)
    · intro hd
      cases hd with
      | refl => exact .inl rfl
      | base hb hd =>
        obtain ⟨l, hl, e⟩ := h2 _ hb
        exact .inr ⟨l, List.mem_append.2 (.inl hl), (ih e d).2 hd⟩

theorem PyCls.forall {p : PyCls → Prop} (h0 : p .object) (h1 : p .epcScheme) (h2 : p .tagEncodable) (h3 : p .gs1Element) (h4 : p .gs1Keyed)
    (hs : ∀ c ∈ Cls.all, p (.scheme c)) : ∀ c, p c
  | .object => h0
  | .epcScheme => h1
  | .tagEncodable => h2
  | .gs1Element => h3
  | .gs1Keyed => h4
  | .scheme c => hs c (Cls.mem_all c)

theorem PyCls.mro_some (c : PyCls) : Epc.mro PyCls.stmt 8 c = some c.mro := by
  have : (Epc.mro PyCls.stmt 8 c).isSome = true := by
    revert c
    apply PyCls.forall <;> decide +kernel
  unfold PyCls.mro
  cases h : Epc.mro PyCls.stmt 8 c with
  | none => rw [h] at this; cases this
  | some r => rfl

theorem lookupIn_own {κ : Type} {stmt : κ → ClassStmt κ} {n : Str} {l : List κ} {d : κ} {b : Binding} (h : lookupIn stmt n l = some (d, b)) :
    d ∈ l ∧ (stmt d).own n = some b := by
  induction l with
  | nil => cases h
  | cons c cs ih =>
    unfold lookupIn at h
    split at h
    · rename_i e
      cases h
      exact ⟨by simp, e⟩
    · have := ih h
      exact ⟨by simp [this.1], this.2⟩

theorem stub_names {d : PyCls} {m : Str} (h : d.stub m = true) :
    m ∈ [py "tag_uri", py "binary", py "from_binary", py "gs1_element_string", py "from_gs1_element_string", py "gs1_key"] := by
  cases d <;> simp [PyCls.stub] at h ⊢
  all_goals first
    | (rcases h with h | h | h <;> simp [h]; done)
    | (rcases h with h | h <;> simp [h]; done)
    | (simp [h]; done)

theorem next_names {d : PyCls} {m m' : Str} (h : d.next m = some m') :
    m ∈ [py "hex", py "base64", py "from_hex", py "from_base64"] := by
  cases d <;> simp only [PyCls.next, reduceCtorEq] at h
  split at h
  · rename_i e; simp [e]
  · split at h
    · rename_i e; simp [e]
    · split at h
      · rename_i e; simp [e]
      · split at h
        · rename_i e; simp [e]
        · cases h

end Epc
