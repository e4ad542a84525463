/-
Texts whose fields are numbers: `from_binary` only sees the numbers.
-/
import Verif.Spec.Fields
import Verif.Lemmas.HexIn
import Verif.Lemmas.DecodeAll

namespace Epc
open Spec

theorem pyInt_lt {b : Nat} (hb : 0 < b) {s : Str} {i : Int} (h : pyInt b s = .ok i) : i.natAbs < b ^ s.length := by
  have key : ∀ t n, t.Sublist (s.map intNormChar) → digitsVal b (dropBasePrefix b t) = some n → n < b ^ s.length := by
    intro t n ht hd
    have h1 := digitsVal_count hd
    have h2 := ((dropBasePrefix_sub b t).trans ht).countP_le (p := fun c => (digitIn b c).isSome)
    have h3 := Nat.le_trans h2 List.countP_le_length
    rw [List.length_map] at h3
    exact Nat.lt_of_lt_of_le h1 (Nat.pow_le_pow_right hb h3)
  have hs := strip_sub (s.map intNormChar)
  unfold pyInt at h
  dsimp only at h
  split at h
  · next t e =>
    rw [e] at hs
    split at h
    · next n hd =>
      cases h
      simpa using key t n ((List.sublist_cons_self _ _).trans hs) hd
    · cases h
  · next t e =>
    rw [e] at hs
    split at h
    · next n hd =>
      cases h
      simpa using key t n ((List.sublist_cons_self _ _).trans hs) hd
    · cases h
  · split at h
    · next n hd =>
      cases h
      simpa using key _ n hs hd
    · cases h

theorem pyInt_nil (b : Nat) : pyInt b [] = .error .value := rfl

theorem pyInt_bitsOf {w n : Nat} (hw : 0 < w) (h : n < 2 ^ w) : pyInt 2 (bitsOf w n) = .ok n := by
  rw [← bin_bitsOf hw h]; exact pyInt_bin w n

theorem length_fieldBits (s : Str) : (fieldBits s).length = s.length := by
  unfold fieldBits
  split
  · exact length_bitsOf _ _
  · rfl

theorem pyInt_fieldBits (s : Str) : pyInt 2 (fieldBits s) = pyInt 2 s := by
  unfold fieldBits
  split
  · next n h =>
    have hlt : n < 2 ^ s.length := pyInt_lt (by decide) h
    have hne : 0 < s.length := by
      cases s with
      | nil => rw [pyInt_nil] at h; cases h
      | cons _ _ => simp
    rw [pyInt_bitsOf hne hlt, h]
    rfl
  · rfl

theorem length_fieldsBits : ∀ (ws : List Nat) (s : Str), (fieldsBits s ws).length = s.length
  | [], _ => rfl
  | w :: ws, s => by
    rw [fieldsBits, List.length_append, length_fieldBits, length_fieldsBits ws, List.length_take, List.length_drop]
    omega

/-- Both texts have the same number in the field. -/
def Same (b b' : Str) (lo w : Nat) : Prop := pyInt 2 ((b.drop lo).take w) = pyInt 2 ((b'.drop lo).take w)

theorem same_head (s : Str) (w : Nat) (ws : List Nat) (h : w ≤ s.length) : Same s (fieldsBits s (w :: ws)) 0 w := by
  have hl : (fieldBits (s.take w)).length = w := by rw [length_fieldBits, List.length_take]; omega
  unfold Same
  rw [fieldsBits, List.drop_zero, List.drop_zero, List.take_left' hl, pyInt_fieldBits]

theorem same_tail {s : Str} {w : Nat} {ws : List Nat} {lo n : Nat} (h : w ≤ s.length) (hs : Same (s.drop w) (fieldsBits (s.drop w) ws) lo n) :
    Same s (fieldsBits s (w :: ws)) (w + lo) n := by
  have hl : (fieldBits (s.take w)).length = w := by rw [length_fieldBits, List.length_take]; omega
  unfold Same at *
  rw [fieldsBits, ← List.drop_drop, ← List.drop_drop, List.drop_left' hl]
  exact hs

theorem drop_fieldsBits {s : Str} {w : Nat} {ws : List Nat} (h : w ≤ s.length) : (fieldsBits s (w :: ws)).drop w = fieldsBits (s.drop w) ws := by
  have hl : (fieldBits (s.take w)).length = w := by rw [length_fieldBits, List.length_take]; omega
  rw [fieldsBits, List.drop_left' hl]

/-- The field that follows the widths `pre`. -/
theorem same_fields : ∀ (pre : List Nat) (w : Nat) (post : List Nat) (s : Str), pre.sum + w ≤ s.length →
    Same s (fieldsBits s (pre ++ w :: post)) pre.sum w
  | [], w, post, s, h => by
    rw [List.sum_nil, List.nil_append]
    exact same_head s w post (by simpa using h)
  | p :: pre, w, post, s, h => by
    rw [List.sum_cons, List.cons_append]
    rw [List.sum_cons] at h
    exact same_tail (by omega) (same_fields pre w post (s.drop p) (by rw [List.length_drop]; omega))

/-- The same behind the header. -/
theorem same_behind {b : Str} {k : Nat} (hk : k ≤ b.length) (pre : List Nat) (w : Nat) (post : List Nat) (h : k + pre.sum + w ≤ b.length) :
    Same b (b.take k ++ fieldsBits (b.drop k) (pre ++ w :: post)) (k + pre.sum) w := by
  have := same_fields pre w post (b.drop k) (by rw [List.length_drop]; omega)
  unfold Same at *
  have hl : (b.take k).length = k := by rw [List.length_take]; omega
  rw [← List.drop_drop, ← List.drop_drop, List.drop_left' hl]
  exact this

theorem Bits_fieldsBits : ∀ (ws : List Nat) (s : Str), s.length = ws.sum →
    (∀ pre w post, ws = pre ++ w :: post → ∃ n, Reads ((s.drop pre.sum).take w) n) → Bits (fieldsBits s ws)
  | [], s, h, _ => by
    have : s = [] := List.length_eq_zero_iff.1 (by simpa using h)
    subst this
    intro c hc; cases hc
  | w :: ws, s, h, hr => by
    rw [List.sum_cons] at h
    rw [fieldsBits, Bits_append]
    refine ⟨?_, Bits_fieldsBits ws _ (by rw [List.length_drop]; omega) fun pre v post e => ?_⟩
    · obtain ⟨n, hn⟩ := hr [] w ws rfl
      rw [List.sum_nil, List.drop_zero] at hn
      unfold Reads at hn
      unfold fieldBits
      rw [hn]
      exact Bits_bitsOf _ _
    · obtain ⟨n, hn⟩ := hr (w :: pre) v post (by rw [e]; rfl)
      rw [List.sum_cons, ← List.drop_drop] at hn
      exact ⟨n, hn⟩

theorem rowByP_mem {t : List Row} {p : Int} {r : Row} (h : rowByP t p = .ok r) : r ∈ t ∧ (r.P : Int) = p := by
  unfold rowByP at h
  split at h
  · next r' e =>
    cases h
    exact ⟨List.mem_of_find?_eq_some e, by simpa using List.find?_some e⟩
  · cases h

/-- The partition decoder sees the numbers of partition value and company prefix, and the reference. -/
theorem decodePartitionTable_congr {q q' : Str} {t : List Row} {mode : PartMode} (h3 : Same q q' 0 3)
    (hC : ∀ r ∈ t, pyInt 2 (q.take 3) = .ok (r.P : Int) → Same q q' 3 r.M ∧
      decodeRef ((q.drop (3 + r.M)).take r.N) r mode = decodeRef ((q'.drop (3 + r.M)).take r.N) r mode) :
    decodePartitionTable q t mode = decodePartitionTable q' t mode := by
  unfold Same at h3
  rw [List.drop_zero, List.drop_zero] at h3
  unfold decodePartitionTable binaryToInt
  rw [← h3]
  cases hp : pyInt 2 (q.take 3) with
  | error e => rfl
  | ok p =>
    rw [ok_bind, ok_bind]
    cases hr : rowByP t p with
    | error e => cases e <;> rfl
    | ok r =>
      obtain ⟨hmem, hP⟩ := rowByP_mem hr
      obtain ⟨h1, h2⟩ := hC r hmem (by rw [hp, hP])
      unfold Same at h1
      show ((pyInt 2 (slice q 3 (3 + r.M))) >>= _) = (pyInt 2 (slice q' 3 (3 + r.M))) >>= _
      have h1 : pyInt 2 (slice q 3 (3 + r.M)) = pyInt 2 (slice q' 3 (3 + r.M)) := by
        rw [slice_eq, slice_eq, Nat.add_sub_cancel_left, h1]
      have hd : decodeRef (slice q (3 + r.M) (3 + r.M + r.N)) r mode = decodeRef (slice q' (3 + r.M) (3 + r.M + r.N)) r mode := by
        rw [slice_eq, slice_eq, Nat.add_sub_cancel_left, h2]
      dsimp only
      rw [h1, hd]

theorem decodeRef_same {d d' : Str} {r : Row} {mode : PartMode} (hm : mode = .plain ∨ mode = .unpadded) (h : pyInt 2 d = pyInt 2 d') :
    decodeRef d r mode = decodeRef d' r mode := by
  rcases hm with rfl | rfl
  · show (if r.K ≠ 0 then (do let i ← binaryToInt d; return intStr i) else _) = (if r.K ≠ 0 then (do let i ← binaryToInt d'; return intStr i) else _)
    unfold binaryToInt
    rw [h]
  · show (if r.K ≠ 0 then (do let i ← binaryToInt d; return intStr i) else _) = (if r.K ≠ 0 then (do let i ← binaryToInt d'; return intStr i) else _)
    unfold binaryToInt
    rw [h]

theorem same_inner {b b' : Str} {lo W i w : Nat} (hw : i + w ≤ W) (h : Same b b' (lo + i) w) : Same ((b.drop lo).take W) ((b'.drop lo).take W) i w := by
  unfold Same at *
  rw [List.drop_take, List.drop_take, List.take_take, List.take_take, Nat.min_eq_left (by omega), List.drop_drop, List.drop_drop]
  exact h

/-- The partition field, all of it numbers. -/
theorem key_same {b b' : Str} {lo W p : Nat} {t : List Row} {mode : PartMode} (ht : StdTable t) (hW : ∀ r ∈ t, 3 + r.M + r.N = W)
    (hm : mode = .plain ∨ mode = .unpadded) (h3 : 3 ≤ W) (hP : Reads ((b.drop lo).take 3) p) (h1 : Same b b' lo 3)
    (h2 : Same b b' (lo + 3) (prefixBits (12 - p))) (h4 : Same b b' (lo + 3 + prefixBits (12 - p)) (W - 3 - prefixBits (12 - p))) :
    decodePartitionTable ((b.drop lo).take W) t mode = decodePartitionTable ((b'.drop lo).take W) t mode := by
  refine decodePartitionTable_congr (same_inner (by omega) h1) fun r hr hp => ?_
  rw [List.take_take, Nat.min_eq_left h3] at hp
  unfold Reads at hP
  rw [hP] at hp
  have e : p = r.P := by injection hp with hp; omega
  have hM := (ht.2.2.1 r hr).2
  have hN := hW r hr
  subst e
  rw [← hM] at h2 h4
  refine ⟨same_inner (by omega) h2, decodeRef_same hm ?_⟩
  rw [show W - 3 - r.M = r.N by omega, Nat.add_assoc] at h4
  exact same_inner (by omega) h4

/-- The partition field with a textual reference. -/
theorem key_same_text {q q' : Str} {p : Nat} {t : List Row} {mode : PartMode} (ht : StdTable t)
    (hP : Reads (q.take 3) p) (h1 : Same q q' 0 3)
    (h2 : Same q q' 3 (prefixBits (12 - p))) (h4 : q.drop (3 + prefixBits (12 - p)) = q'.drop (3 + prefixBits (12 - p))) :
    decodePartitionTable q t mode = decodePartitionTable q' t mode := by
  refine decodePartitionTable_congr h1 fun r hr hp => ?_
  unfold Reads at hP
  rw [hP] at hp
  have e : p = r.P := by injection hp with hp; omega
  have hM := (ht.2.2.1 r hr).2
  subst e
  rw [← hM] at h2 h4
  exact ⟨h2, by rw [h4]⟩

theorem prefixBits_le_40 (n : Nat) : prefixBits n ≤ 40 := by
  unfold prefixBits
  split <;> omega

theorem length_behind {b : Str} {k : Nat} {ws : List Nat} : (b.take k ++ fieldsBits (b.drop k) ws).length = b.length := by
  rw [List.length_append, length_fieldsBits, List.length_take, List.length_drop]; omega

theorem take_behind {b : Str} {k : Nat} {ws : List Nat} (hk : k ≤ b.length) : (b.take k ++ fieldsBits (b.drop k) ws).take k = b.take k :=
  List.take_left' (by rw [List.length_take]; omega)

theorem same_at {b : Str} {lo : Nat} (pre : List Nat) (w : Nat) (post : List Nat) (e : lo = 8 + pre.sum) (h : lo + w ≤ b.length) :
    Same b (b.take 8 ++ fieldsBits (b.drop 8) (pre ++ w :: post)) lo w := by
  subst e
  exact same_behind (by omega) pre w post h

theorem drop_fieldsBits_sum : ∀ (ws : List Nat) (s : Str), ws.sum ≤ s.length → (fieldsBits s ws).drop ws.sum = s.drop ws.sum
  | [], s, _ => rfl
  | w :: ws, s, h => by
    rw [List.sum_cons] at h ⊢
    rw [← List.drop_drop, drop_fieldsBits (by omega), drop_fieldsBits_sum ws _ (by rw [List.length_drop]; omega), List.drop_drop]

/-- What follows the rewritten fields is kept. -/
theorem drop_behind {b : Str} {lo : Nat} {ws : List Nat} (e : lo = 8 + ws.sum) (h : lo ≤ b.length) :
    (b.take 8 ++ fieldsBits (b.drop 8) ws).drop lo = b.drop lo := by
  subst e
  have hl : (b.take 8).length = 8 := by rw [List.length_take]; omega
  rw [← List.drop_drop, List.drop_left' hl, drop_fieldsBits_sum ws _ (by rw [List.length_drop]; omega), List.drop_drop]

end Epc
