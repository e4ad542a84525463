/-
The seven-bit string codec on canonical serials.
-/
import Verif.Lemmas.Escape

namespace Epc
open Spec

theorem mapM_cons_ok {α β : Type} {f : α → Except Err β} {a : α} {b : β} {l : List α} {r : List β}
    (h1 : f a = .ok b) (h2 : l.mapM f = .ok r) : (a :: l).mapM f = .ok (b :: r) := by
  rw [List.mapM_cons, h1, h2]; rfl

theorem mapM_map_ok {α β : Type} {f : α → Except Err β} {g : α → β} {l : List α}
    (h : ∀ a ∈ l, f a = .ok (g a)) : l.mapM f = .ok (l.map g) := by
  induction l with
  | nil => rfl
  | cons a l ih => exact mapM_cons_ok (h a (by simp)) (ih (fun b hb => h b (by simp [hb])))

theorem mapM_append_ok {α β : Type} {f : α → Except Err β} {l l' : List α} {r r' : List β}
    (h1 : l.mapM f = .ok r) (h2 : l'.mapM f = .ok r') : (l ++ l').mapM f = .ok (r ++ r') := by
  rw [List.mapM_append, h1, h2]; rfl

/-- Splitting steps. -/
theorem splitCap_none {m : Str → Option Nat} {x : Char} {xs h : Str} {t : List Str} (hm : m (x :: xs) = none)
    (hs : splitCap m xs = h :: t) : splitCap m (x :: xs) = (x :: h) :: t := by
  unfold splitCap at *
  rw [splitCapGo, hm]; simp only [hs]

theorem splitCap_three {m : Str → Option Nat} {x y z : Char} {xs : Str} (hm : m (x :: y :: z :: xs) = some 3) :
    splitCap m (x :: y :: z :: xs) = [] :: [x, y, z] :: splitCap m xs := by
  unfold splitCap
  rw [splitCapGo, hm]; simp [splitCapGo]

theorem splitCap_one {m : Str → Option Nat} {x : Char} {xs : Str} (hm : m (x :: xs) = some 1) :
    splitCap m (x :: xs) = [] :: [x] :: splitCap m xs := by
  unfold splitCap
  rw [splitCapGo, hm]; simp

theorem splitCap_nil (m : Str → Option Nat) : splitCap m [] = [[]] := rfl

/-- The seven-bit code of a text. -/
def code7 (raw : Str) : Str := raw.flatMap (fun c => bin 7 c.toNat)

theorem code7_cons (c : Char) (raw : Str) : code7 (c :: raw) = bin 7 c.toNat ++ code7 raw := rfl

theorem length_code7 {raw : Str} (h : ∀ c ∈ raw, c.toNat < 128) : (code7 raw).length = 7 * raw.length := by
  induction raw with
  | nil => rfl
  | cons c raw ih =>
    rw [code7_cons, List.length_append, length_bin (by decide) (h c (by simp)), ih (fun x hx => h x (by simp [hx]))]
    simp; omega

theorem Bits_code7 (raw : Str) : Bits (code7 raw) := by
  intro c hc
  obtain ⟨x, _, hx⟩ := List.mem_flatMap.1 hc
  exact Bits_bin 7 x.toNat c hx

theorem encodePiece_plain {h : Str} (hh : ∀ c ∈ h, c ≠ '%') : encodeStringPiece h = .ok (code7 h) := by
  cases h with
  | nil => rfl
  | cons c t =>
    unfold encodeStringPiece
    simp only [if_pos (hh c (by simp))]
    rw [mapM_map_ok (f := fun s : Char => strToBinary (natStr s.toNat) 7) (g := fun c : Char => bin 7 c.toNat)
      (fun a _ => strToBinary_natStr _ _)]
    rfl

/-- The seven escapes as pieces. -/
theorem encodePiece_escape {c : Char} (h : c = '"' ∨ c = '%' ∨ c = '&' ∨ c = '/' ∨ c = '<' ∨ c = '>' ∨ c = '?') :
    encodeStringPiece (escChar c) = .ok (bin 7 c.toNat) ∧
      ∃ y z, escChar c = ['%', y, z] ∧ isHexA y = true ∧ isHexA z = true := by
  rcases h with h | h | h | h | h | h | h <;> subst h
  · exact ⟨by decide +kernel, '2', '2', by decide⟩
  · exact ⟨by decide +kernel, '2', '5', by decide⟩
  · exact ⟨by decide +kernel, '2', '6', by decide⟩
  · exact ⟨by decide +kernel, '2', 'F', by decide⟩
  · exact ⟨by decide +kernel, '3', 'C', by decide⟩
  · exact ⟨by decide +kernel, '3', 'E', by decide⟩
  · exact ⟨by decide +kernel, '3', 'F', by decide⟩

theorem encode_pieces (raw : Str) : ∃ h t ps, splitCap escapeLen (escape raw) = h :: t ∧ (∀ c ∈ h, c ≠ '%') ∧
    t.mapM encodeStringPiece = .ok ps ∧ code7 h ++ ps.flatten = code7 raw := by
  induction raw with
  | nil => exact ⟨[], [], [], rfl, by simp, rfl, rfl⟩
  | cons c raw ih =>
    obtain ⟨h, t, ps, h1, h2, h3, h4⟩ := ih
    have e : escape (c :: raw) = escChar c ++ escape raw := rfl
    rcases escChar_cases c with hc | ⟨hc, hc'⟩
    · obtain ⟨e1, y, z, e2, hy, hz⟩ := encodePiece_escape hc
      refine ⟨[], escChar c :: splitCap escapeLen (escape raw), bin 7 c.toNat :: code7 h :: ps, ?_, by simp, ?_, ?_⟩
      · rw [e, e2]
        exact splitCap_three (by simp [escapeLen, fixedLen, fixedMatch, hy, hz])
      · rw [h1]
        exact mapM_cons_ok e1 (mapM_cons_ok (encodePiece_plain h2) h3)
      · rw [code7_cons, ← h4]; simp [code7]
    · refine ⟨c :: h, t, ps, ?_, ?_, h3, ?_⟩
      · rw [e, hc]
        exact splitCap_none (by simp [escapeLen, fixedLen, fixedMatch, hc']) h1
      · intro x hx
        rcases List.mem_cons.1 hx with rfl | hx
        · exact hc'
        · exact h2 x hx
      · rw [code7_cons, code7_cons, List.append_assoc, h4]

/-- Encoding the escaped form of a text. -/
theorem encodeString_escape (raw : Str) (n : Nat) : encodeString (escape raw) n = .ok (padRight '0' n (code7 raw)) := by
  obtain ⟨h, t, ps, h1, h2, h3, h4⟩ := encode_pieces raw
  unfold encodeString
  rw [h1, mapM_cons_ok (encodePiece_plain h2) h3]
  show Except.ok _ = _
  rw [List.flatten_cons, h4]

/-! ### decoding -/

theorem fixedMatch_any7 {s : Str} (h : ∀ c ∈ s, c = '0' ∨ c = '1') (k : Nat) :
    fixedMatch (List.replicate k anyChar) s = decide (k ≤ s.length) := by
  induction k generalizing s with
  | zero => simp [fixedMatch]
  | succ k ih =>
    cases s with
    | nil => simp [List.replicate_succ, fixedMatch]
    | cons c s =>
      have hc : anyChar c = true := by
        rcases h c (by simp) with rfl | rfl <;> decide
      rw [List.replicate_succ, fixedMatch, hc, ih (fun x hx => h x (by simp [hx]))]
      simp

theorem findAllGo_skip (m : Str → Option Nat) (a b : Str) : findAllGo m a.length (a ++ b) = findAllGo m 0 b := by
  induction a with
  | nil => rfl
  | cons x a ih => rw [List.length_cons, List.cons_append, findAllGo, ih]

theorem findAll_chunk {a b : Str} {k : Nat} (ha : a.length = k + 1) (hb : ∀ c ∈ a ++ b, c = '0' ∨ c = '1') :
    findAll (fixedLen (List.replicate (k + 1) anyChar)) (a ++ b) =
      a :: findAll (fixedLen (List.replicate (k + 1) anyChar)) b := by
  cases a with
  | nil => simp at ha
  | cons x a =>
    have hm : fixedLen (List.replicate (k + 1) anyChar) (x :: (a ++ b)) = some (k + 1) := by
      unfold fixedLen
      rw [fixedMatch_any7 (by simpa using hb), if_pos (by simp at ha; simp; omega)]
      simp
    simp only [List.length_cons, Nat.add_right_cancel_iff] at ha
    rw [List.cons_append, findAll, findAllGo, hm]
    simp only [Nat.add_sub_cancel]
    rw [← ha, findAllGo_skip]
    simp [findAll]

theorem findAll_short {a : Str} {k : Nat} (ha : a.length < k) (hb : ∀ c ∈ a, c = '0' ∨ c = '1') :
    findAll (fixedLen (List.replicate k anyChar)) a = [] := by
  induction a with
  | nil => rfl
  | cons x a ih =>
    have hm : fixedLen (List.replicate k anyChar) (x :: a) = none := by
      unfold fixedLen
      rw [fixedMatch_any7 hb, if_neg (by simpa using ha)]
    rw [findAll, findAllGo, hm]
    exact ih (by simp at ha; omega) (fun c hc => hb c (by simp [hc]))

theorem decodeString_zeros (k : Nat) : decodeString (List.replicate k '0') = .ok [] := by
  induction k using Nat.strongRecOn with
  | ind k ih =>
    by_cases hk : k < 7
    · unfold decodeString
      rw [findAll_short (by simpa using hk) (by intro c hc; left; exact (List.mem_replicate.1 hc).2)]
      rfl
    · obtain ⟨j, rfl⟩ : ∃ j, k = 7 + j := ⟨k - 7, by omega⟩
      have := ih j (by omega)
      unfold decodeString at *
      rw [← List.replicate_append_replicate, findAll_chunk (by simp) (by
        intro c hc; left
        rw [List.mem_append] at hc
        rcases hc with hc | hc <;> exact (List.mem_replicate.1 hc).2)]
      cases hq : (findAll (fixedLen (List.replicate (6 + 1) anyChar)) (List.replicate j '0')).mapM decodeBinaryChar with
      | error e => rw [hq] at this; cases this
      | ok r =>
        rw [hq] at this
        rw [mapM_cons_ok (b := []) (by decide) hq]
        exact this

theorem decodeChar7 {c : Char} (h : c ∈ gs82) : decodeBinaryChar (bin 7 c.toNat) = .ok (escChar c) := by
  have : ∀ c ∈ gs82, decodeBinaryChar (bin 7 c.toNat) = .ok (escChar c) := by decide +kernel
  exact this c h

theorem gs82_lt {c : Char} (h : c ∈ gs82) : c.toNat < 128 := isGs3a3Any_lt ((mem_gs82 c).1 h)

theorem decodeString_append {raw : Str} (h : ∀ c ∈ raw, c ∈ gs82) (k : Nat) :
    decodeString (code7 raw ++ List.replicate k '0') = .ok (escape raw) := by
  induction raw with
  | nil => exact decodeString_zeros k
  | cons c raw ih =>
    have ih := ih (fun x hx => h x (by simp [hx]))
    have hc := h c (by simp)
    unfold decodeString at *
    rw [code7_cons, List.append_assoc, findAll_chunk (length_bin (by decide) (gs82_lt hc)) (by
      intro x hx
      simp only [List.mem_append] at hx
      rcases hx with hx | hx | hx
      · exact Bits_bin _ _ x hx
      · exact Bits_code7 _ x hx
      · exact .inl (List.mem_replicate.1 hx).2)]
    cases hq : (findAll (fixedLen (List.replicate (6 + 1) anyChar)) (code7 raw ++ List.replicate k '0')).mapM decodeBinaryChar with
    | error e => rw [hq] at ih; cases ih
    | ok r =>
      rw [hq] at ih
      rw [mapM_cons_ok (decodeChar7 hc) hq]
      show Except.ok _ = _
      have ih : Except.ok r.flatten = Except.ok (ε := Err) (escape raw) := ih
      injection ih with ih
      rw [List.flatten_cons, ih]; rfl

/-- Decoding the encoding of a canonical serial. -/
theorem decode_encode7 {raw : Str} (h : ∀ c ∈ raw, c ∈ gs82) (n : Nat) :
    decodeString (padRight '0' n (code7 raw)) = .ok (escape raw) := decodeString_append h _

end Epc
