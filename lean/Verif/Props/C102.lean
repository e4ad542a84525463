/-
C102: threads that share objects, executed from the source.
-/
import Verif.Lemmas.Shared
import Verif.Props.C97

namespace Epc.Src
open Spec Grammar

/-- The attribute that calls assign is read in one place, and by nothing else in the source: in the statement after the assignment. -/
theorem C102_attribute :
    (∀ c : Cl, ∀ p ∈ methodsOf c, ._tag_uri ∈ p.2.reads → c = .CPI ∧ p.1 = .tag_uri) ∧
    (∀ m : Mod, ∀ p ∈ functionsOf m, ._tag_uri ∉ p.2.reads) ∧
    ∃ first e, CPI.tag_uri.body = first ++ [.assign (.attr .self ._tag_uri) e, .ret (.attr (.name .self) ._tag_uri)] ∧
      ._tag_uri ∉ readsAll first ∧ ._tag_uri ∉ e.attrs ∧ assignsAll first = [] := by
  refine ⟨fun c => ?_, fun m => ?_, CPI.tag_uri.body.take 1,
    (match CPI.tag_uri.body[1]? with | some (Stmt.assign _ e) => e | _ => Expr.none), rfl, ?_, ?_, ?_⟩
  · cases c <;> decide +kernel
  · cases m <;> decide +kernel
  all_goals decide +kernel

/-- Without interruption `tag_uri` of a CPI returns what it assigns, however the attribute was set before. -/
theorem C102_tag_uri (u : Str) (o o' : Val) (h : construct .CPI [.str u] = .ok o) (hu : Used o o') (args : List Val) (kw : List (Nm × Val)) :
    invoke o' .tag_uri args kw = toAssign o' args kw := by
  obtain ⟨x, hx, rfl⟩ := constructed (c := .cpi) h
  obtain ⟨y, hy, rfl⟩ := map_ok_iff.1 hx
  rw [← tag_uri_split]
  rcases hu with rfl | ⟨-, v, rfl⟩ <;> exact invoke_eq rfl (fun _ => rfl) rfl

/-- What a call may return when other threads use its object: what it returns alone, or, if it is `CPI.tag_uri`, what another such call on the same object
returns alone, which made its assignment after that of this call and before its return. -/
theorem C102_calls (objects : Nat → Val) (calls : Nat → SharedCall) (schedule : List Nat)
    (ho : ∀ k, ∃ c u, construct (clOf c) [.str u] = .ok (objects k)) (i : Nat) (r : M Val)
    (hr : (Shared.run objects calls schedule).stage i = .done r) :
    r = alone objects calls i ∨
    (tags objects calls i ∧ (∃ v, alone objects calls i = .ok v) ∧
      ∃ j, j ≠ i ∧ (calls j).object = (calls i).object ∧ tags objects calls j ∧ r = alone objects calls j ∧
      ∃ a b c d, schedule = a ++ i :: b ++ j :: c ++ i :: d ∧ a.count i = 1 ∧ i ∉ b ∧ i ∉ c ∧ (a ++ i :: b).count j = 1) := by
  have hx : ∀ k, ∃ x, objects k = objScheme x := fun k => by
    obtain ⟨c, u, h⟩ := ho k
    obtain ⟨x, -, hx⟩ := constructed h
    exact ⟨x, hx⟩
  have hp := place_run (calls := calls) hx schedule i
  unfold Place at hp
  rw [hr] at hp
  rcases hp with hp | ⟨h1, h2, v, b', d, rfl, hb, hl⟩
  · exact .inl hp
  · rcases hl with hl | ⟨j, hj, hobj, ht, ha, a, b, c, he, h3, h4, h5, h6⟩
    · exact .inl hl.symm
    · exact .inr ⟨h1, h2, j, hj, hobj, ht, ha.symm, a, b, c, d, by rw [hb, he], h3, h4, h5, h6⟩

/-- All methods but `CPI.tag_uri` return what they return alone, whatever other threads do; and so does `CPI.tag_uri` if no other call of it on the same
object takes part in the schedule. -/
theorem C102_undisturbed (objects : Nat → Val) (calls : Nat → SharedCall) (schedule : List Nat)
    (ho : ∀ k, ∃ c u, construct (clOf c) [.str u] = .ok (objects k)) (i : Nat) (r : M Val)
    (hr : (Shared.run objects calls schedule).stage i = .done r)
    (h : (calls i).method ≠ .tag_uri ∨ ∀ j ∈ schedule, j ≠ i → (calls j).method = .tag_uri → (calls j).object ≠ (calls i).object) :
    r = alone objects calls i := by
  have hm : ∀ {k}, tags objects calls k → (calls k).method = .tag_uri := by
    intro k hk
    unfold tags assignsTag at hk
    split at hk
    · assumption
    · cases hk
  rcases C102_calls objects calls schedule ho i r hr with h' | ⟨h1, -, j, hj, hobj, ht, -, a, b, c, d, rfl, -⟩
  · exact h'
  · rcases h with h | h
    · exact absurd (hm h1) h
    · exact absurd hobj (h j (by simp) hj (hm ht))

/-- Every call ends after at most three actions. -/
theorem C102_ends (objects : Nat → Val) (calls : Nat → SharedCall) (schedule : List Nat)
    (ho : ∀ k, ∃ c u, construct (clOf c) [.str u] = .ok (objects k)) (i : Nat) (h : 3 ≤ schedule.count i) :
    ∃ r, (Shared.run objects calls schedule).stage i = .done r := by
  have hx : ∀ k, ∃ x, objects k = objScheme x := fun k => by
    obtain ⟨c, u, h⟩ := ho k
    obtain ⟨x, -, hx⟩ := constructed h
    exact ⟨x, hx⟩
  have hp := place_run (calls := calls) hx schedule i
  unfold Place at hp
  split at hp
  · omega
  · omega
  · omega
  · rename_i r hs
    exact ⟨r, hs⟩

/-- Two threads ask one CPI for tag URIs with filter values 1 and 2. -/
def twoCalls : Nat → SharedCall
  | 0 => ⟨0, .tag_uri, [], [(.binary_coding_scheme, (codings .CPI).getD 0 .none), (.filter_value, (members .CPIFilterValue).getD 1 .none)]⟩
  | _ => ⟨0, .tag_uri, [], [(.binary_coding_scheme, (codings .CPI).getD 0 .none), (.filter_value, (members .CPIFilterValue).getD 2 .none)]⟩

/-- The same, with the CPI. -/
def someCPI : Val := ((construct .CPI [.str (py "urn:epc:id:cpi:0614141.123456.123456789")]).toOption).getD .none

/-- It happens that a call returns the tag URI that the other one asked for. -/
theorem C102_race : ∃ (objects : Nat → Val) (calls : Nat → SharedCall) (schedule : List Nat),
    (∀ k, ∃ c u, construct (clOf c) [.str u] = .ok (objects k)) ∧
    ∃ r, (Shared.run objects calls schedule).stage 0 = .done r ∧ r ≠ alone objects calls 0 := by
  refine ⟨fun _ => someCPI, twoCalls, [0, 0, 1, 1, 0], fun _ => ⟨.cpi, py "urn:epc:id:cpi:0614141.123456.123456789", ?_⟩, ?_⟩
  · have hok : (construct (clOf .cpi) [.str (py "urn:epc:id:cpi:0614141.123456.123456789")]).toBool = true := by decide +kernel
    show construct (clOf .cpi) _ = Except.ok someCPI
    unfold someCPI
    cases hc : construct (clOf .cpi) [.str (py "urn:epc:id:cpi:0614141.123456.123456789")] with
    | ok o => rw [show construct .CPI [.str (py "urn:epc:id:cpi:0614141.123456.123456789")] = .ok o from hc]; rfl
    | error e => rw [hc] at hok; cases hok
  · have h1 : (match (Shared.run (fun _ => someCPI) twoCalls [0, 0, 1, 1, 0]).stage 0 with
        | .done r => returnsStr r (py "urn:epc:tag:cpi-96:2.0614141.123456.123456789")
        | _ => false) = true := by decide +kernel
    have h2 : returnsStr (alone (fun _ => someCPI) twoCalls 0) (py "urn:epc:tag:cpi-96:1.0614141.123456.123456789") = true := by decide +kernel
    split at h1
    · rename_i r hr
      refine ⟨r, hr, fun e => ?_⟩
      rw [e] at h1
      unfold returnsStr at h1 h2
      split at h1
      · rename_i t ht
        rw [ht] at h2
        rw [beq_iff_eq] at h1 h2
        rw [h1] at h2
        revert h2
        decide
      · cases h1
    · cases h1

/-- Uninterrupted, both calls get their own. -/
example : (match (Shared.run (fun _ => someCPI) twoCalls [0, 1, 0, 0, 1, 1]).stage 0, (Shared.run (fun _ => someCPI) twoCalls [0, 1, 0, 0, 1, 1]).stage 1 with
    | .done r, .done s => returnsStr r (py "urn:epc:tag:cpi-96:1.0614141.123456.123456789") && returnsStr s (py "urn:epc:tag:cpi-96:2.0614141.123456.123456789")
    | _, _ => false) = true := by decide +kernel

end Epc.Src
