/-
C73: the outcome of a call does not depend on the calls made before.
C74: nor on the calls other threads make at the same time; false for `CPI.tag_uri`.
-/
import Verif.Lemmas.Threads

namespace Epc

/-- One client makes any calls on any objects, in any order and as often as it likes: every call has the outcome it has as the only call on
the object.  (The client is thread 0; a call takes at most five actions.) -/
theorem C73_history (objects : Nat → Scheme) (calls : List (Call Method)) (schedule : List Nat)
    (h : 5 * calls.length ≤ schedule.count 0) :
    ∃ t, ((World.start objects [calls]).run Method.body schedule).threads[0]? = some t ∧
      t.log = calls.map fun c => (c, ((objects c.1).answer c.2).map some) := by
  obtain ⟨t, ht, _, _, hlog⟩ := run_finished objects [calls] schedule (i := 0) rfl h
  obtain ⟨_, hg⟩ := schedule_good objects [calls] schedule ht
  refine ⟨t, ht, ?_⟩
  have hall : ∀ e ∈ t.log, e.2 = right objects e.1 := by
    intro e he
    rcases hg.log e he with h | ⟨_, _, j, cs, _, hj, hcs, _⟩
    · exact h
    · cases j with
      | zero => exact absurd rfl hj
      | succ j => simp at hcs
  rw [log_eq hall, hlog]
  rfl

/-- Also before the client has finished: the calls made so far have the outcomes they have as the only call. -/
theorem C73_prefix (objects : Nat → Scheme) (calls : List (Call Method)) (schedule : List Nat) :
    ∃ t, ((World.start objects [calls]).run Method.body schedule).threads[0]? = some t ∧
      t.log = (calls.take t.log.length).map fun c => (c, ((objects c.1).answer c.2).map some) := by
  obtain ⟨t, ht⟩ := run_thread objects [calls] schedule (i := 0) rfl
  obtain ⟨_, hg⟩ := schedule_good objects [calls] schedule ht
  refine ⟨t, ht, ?_⟩
  have hall : ∀ e ∈ t.log, e.2 = right objects e.1 := by
    intro e he
    rcases hg.log e he with h | ⟨_, _, j, cs, _, hj, hcs, _⟩
    · exact h
    · cases j with
      | zero => exact absurd rfl hj
      | succ j => simp at hcs
  have hc := hg.calls
  simp only [List.getElem?_cons_zero, Option.some.injEq] at hc
  have hpre : calls.take t.log.length = t.log.map Prod.fst := by
    rw [hc, List.append_assoc, List.take_append_of_le_length (by simp), List.take_of_length_le (by simp)]
  rw [hpre]
  exact log_eq hall

/-- The objects of two CPIs used below. -/
private def someCpi : Nat → Scheme
  | 0 => .cpi ⟨py "urn:epc:id:cpi:0614141.5PQ7%2FZ43.12345", py "0614141", py "5PQ7%2FZ43", py "12345"⟩
  | _ => .cpi ⟨py "urn:epc:id:cpi:0614141.123456.123456789", py "0614141", py "123456", py "123456789"⟩

/-- They are what the constructor returns. -/
example : (CPI.new (py "urn:epc:id:cpi:0614141.5PQ7%2FZ43.12345")).map Scheme.cpi = .ok (someCpi 0) ∧
    (CPI.new (py "urn:epc:id:cpi:0614141.123456.123456789")).map Scheme.cpi = .ok (someCpi 1) := by decide +kernel

/-- A history with a call that raises between two that return. -/
example : ((World.start someCpi [[(0, .cpi .tagUri .cpiVar 1), (0, .cpi .tagUri .cpi96 1), (0, .cpi .tagUri .cpiVar 2)]]).run Method.body
      (List.replicate 15 0)).threads[0]?.map (fun t => t.log.map Prod.snd) =
    some [.ok (some (py "urn:epc:tag:cpi-var:1.0614141.5PQ7%2FZ43.12345")), .error .convert,
      .ok (some (py "urn:epc:tag:cpi-var:2.0614141.5PQ7%2FZ43.12345"))] := by decide +kernel

/-- The full claim of C74 fails: two clients ask the same CPI for its tag URI with filter values 1 and 2; the first has stored its result in
the object, the second stores its own before the first returns what the object holds. -/
theorem C74_claim_false :
    ¬ ∀ (objects : Nat → Scheme) (clients : List (List (Call Method))) (schedule : List Nat) (i : Nat) (t : Thread Scheme Method),
      ((World.start objects clients).run Method.body schedule).threads[i]? = some t →
      ∀ e ∈ t.log, e.2 = ((objects e.1.1).answer e.1.2).map some := by
  intro h
  have hrun : ((World.start someCpi [[(0, .cpi .tagUri .cpiVar 1)], [(0, .cpi .tagUri .cpiVar 2)]]).run Method.body
      [0, 0, 0, 1, 1, 1, 0, 0]).threads[0]?.map (fun t => t.log) =
      some [((0, .cpi .tagUri .cpiVar 1), .ok (some (py "urn:epc:tag:cpi-var:2.0614141.5PQ7%2FZ43.12345")))] := by decide +kernel
  obtain ⟨t, ht, hlog⟩ := Option.map_eq_some_iff.1 hrun
  have := h someCpi _ _ 0 t ht _ (by rw [hlog]; exact List.mem_singleton.2 rfl)
  revert this
  decide +kernel

/-- Every method except `CPI.tag_uri`: whatever other threads do, on the same object or on others, the outcome is that of the only call. -/
theorem C74_other_methods (objects : Nat → Scheme) (clients : List (List (Call Method))) (schedule : List Nat) (i : Nat)
    (t : Thread Scheme Method) (ht : ((World.start objects clients).run Method.body schedule).threads[i]? = some t)
    (c : Call Method) (r : Outcome) (he : (c, r) ∈ t.log) (hm : ∀ cs f, c.2 ≠ .cpi .tagUri cs f) :
    r = ((objects c.1).answer c.2).map some := by
  obtain ⟨_, hg⟩ := schedule_good objects clients schedule ht
  rcases hg.log _ he with h | ⟨⟨cs, f, h⟩, _⟩
  · exact h
  · exact absurd h (hm cs f)

/-- `CPI.tag_uri`: the outcome is that of the only call, or the tag URI that another thread asks the same object for.  In particular it is
never `None`, never a mixture, and an exception is always the one of the call itself.  Missing: the second case; see `C74_claim_false`. -/
theorem C74_tag_uri_partial (objects : Nat → Scheme) (clients : List (List (Call Method))) (schedule : List Nat) (i : Nat)
    (t : Thread Scheme Method) (ht : ((World.start objects clients).run Method.body schedule).threads[i]? = some t)
    (c : Call Method) (r : Outcome) (he : (c, r) ∈ t.log) :
    r = ((objects c.1).answer c.2).map some ∨
    ((∃ own, (objects c.1).answer c.2 = .ok own) ∧ ∃ j calls cs f v, j ≠ i ∧ clients[j]? = some calls ∧
      (c.1, .cpi .tagUri cs f) ∈ calls ∧ (objects c.1).answer (.cpi .tagUri cs f) = .ok v ∧ r = .ok (some v)) := by
  obtain ⟨_, hg⟩ := schedule_good objects clients schedule ht
  rcases hg.log _ he with h | ⟨_, ⟨own, hown⟩, j, calls, c', hj, hcl, hc', ho, ⟨cs, f, hm⟩, hr, v, hv⟩
  · exact .inl h
  · refine .inr ⟨?_, j, calls, cs, f, v, hj, hcl, ?_, ?_, hv⟩
    · dsimp only [right] at hown
      cases ha : (objects c.1).answer c.2 with
      | error e => rw [ha] at hown; cases hown
      | ok own => exact ⟨own, rfl⟩
    · have : c' = (c.1, .cpi .tagUri cs f) := Prod.ext ho hm
      rw [← this]; exact hc'
    · dsimp only at hr hv
      rw [hv, right, ho, hm] at hr
      dsimp only at hr
      cases ha : (objects c.1).answer (.cpi .tagUri cs f) with
      | error e => rw [ha] at hr; cases hr
      | ok w => rw [ha] at hr; cases hr; rfl

/-- A client that is the only one to ask an object for its tag URI, or whose competitors ask with the same arguments, gets the right
answer. -/
theorem C74_unshared (objects : Nat → Scheme) (clients : List (List (Call Method))) (schedule : List Nat) (i : Nat)
    (t : Thread Scheme Method) (ht : ((World.start objects clients).run Method.body schedule).threads[i]? = some t)
    (c : Call Method) (r : Outcome) (he : (c, r) ∈ t.log)
    (hc : ∀ j calls cs f, j ≠ i → clients[j]? = some calls → (c.1, .cpi .tagUri cs f) ∈ calls → c.2 = .cpi .tagUri cs f) :
    r = ((objects c.1).answer c.2).map some := by
  rcases C74_tag_uri_partial objects clients schedule i t ht c r he with h | ⟨_, j, calls, cs, f, v, hj, hcl, hmem, ha, hr⟩
  · exact h
  · rw [hc j calls cs f hj hcl hmem, ha, hr]; rfl

/-- No call waits for another thread: a client that has made five actions for each of its calls has finished them, in its order. -/
theorem C74_finishes (objects : Nat → Scheme) (clients : List (List (Call Method))) (schedule : List Nat) (i : Nat)
    (calls : List (Call Method)) (hi : clients[i]? = some calls) (h : 5 * calls.length ≤ schedule.count i) :
    ∃ t, ((World.start objects clients).run Method.body schedule).threads[i]? = some t ∧ t.log.map Prod.fst = calls := by
  obtain ⟨t, ht, _, _, hl⟩ := run_finished objects clients schedule hi h
  exact ⟨t, ht, hl⟩

/-- Two clients on two CPIs: every call gets its own answer although the actions alternate. -/
example : ((World.start someCpi [[(0, .cpi .tagUri .cpiVar 1), (1, .cpi .tagUri .cpi96 2)], [(1, .cpi .binary .cpi96 3), (1, .gs1ElementString)]]).run
      Method.body [0, 1, 0, 1, 0, 1, 0, 1, 0, 1, 0, 1, 0, 1, 0, 1, 0, 1, 0]).threads.map (fun t => t.log.map Prod.snd) =
    [[.ok (some (py "urn:epc:tag:cpi-var:1.0614141.5PQ7%2FZ43.12345")), .ok (some (py "urn:epc:tag:cpi-96:2.0614141.123456.123456789"))],
      [((someCpi 1).answer (.cpi .binary .cpi96 3)).map some, .ok (some (py "(8010)0614141123456(8011)123456789"))]] := by decide +kernel

end Epc
