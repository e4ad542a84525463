namespace GSIN

theorem elem_lang (s : Str) : Rx.gsinElem.fullmatch s = true ↔ ∃ d, (Dec d ∧ d.length = 17) ∧ s = py "(402)" ++ d :=
  (fullmatch_iff _ _).trans (lang_elemB _ _ _)

theorem from_eq {d : Str} (n : Int) (hd : Dec d) (hl : d.length = 17) :
    fromGs1ElementString (py "(402)" ++ d) n =
      new (py "urn:epc:id:gsin" ++ ':' :: (sliceToI (d.take 16) n ++ '.' :: sliceFromI (d.take 16) n)) := by
  have hm : Rx.gsinElem.fullmatch (py "(402)" ++ d) = true := (elem_lang _).2 ⟨_, ⟨hd, hl⟩, rfl⟩
  have h1 : sliceI (py "(402)" ++ d) 5 (-1) = d.take 16 := by
    have hlen : (py "(402)" ++ d).length = 22 := by rw [List.length_append, hl]; rfl
    unfold sliceI
    rw [hlen, show clampIdx 22 5 = 5 from rfl, show clampIdx 22 (-1) = 21 from rfl]
    unfold slice
    rw [List.take_append_of_le_length (l₁ := py "(402)" ++ d) (l₂ := []) (by rw [hlen]; decide) |>.symm, List.append_nil]
    rw [List.take_append, List.drop_append]
    rfl
  unfold fromGs1ElementString
  rw [guard_true hm, ok_bind, h1]
  show new (_ ++ _ ++ _) = _
  simp

theorem from_iff (s : Str) (n : Int) (x : GSIN) : fromGs1ElementString s n = .ok x ↔
    ∃ C I k, (Dec (C ++ (I ++ [k])) ∧ C.length + I.length = 16) ∧ clampIdx 16 n = C.length ∧
      s = py "(402)" ++ (C ++ (I ++ [k])) ∧ new (py "urn:epc:id:gsin" ++ ':' :: (C ++ '.' :: I)) = .ok x := by
  constructor
  · intro h
    have hm : Rx.gsinElem.fullmatch s = true := by
      unfold fromGs1ElementString at h
      exact (guard_bind_ok.1 h).1
    obtain ⟨d, ⟨hd, hl⟩, rfl⟩ := (elem_lang s).1 hm
    rw [from_eq n hd hl] at h
    obtain ⟨k, hk⟩ := last_char hl
    have ht : (d.take 16).length = 16 := by rw [List.length_take]; omega
    have e : sliceToI (d.take 16) n ++ sliceFromI (d.take 16) n = d.take 16 := List.take_append_drop _ _
    refine ⟨_, _, k, ⟨?_, ?_⟩, ?_, ?_, h⟩
    · rw [← List.append_assoc, e, ← hk]; exact hd
    · rw [← List.length_append, e, ht]
    · unfold sliceToI
      have := clampIdx_le' 16 n
      rw [List.length_take, ht]; omega
    · rw [← List.append_assoc (sliceToI _ _), e, ← hk]
  · rintro ⟨C, I, k, ⟨hd, hlen⟩, hn, rfl, h⟩
    have hl : (C ++ (I ++ [k])).length = 17 := by
      simp only [List.length_append, List.length_cons, List.length_nil]; omega
    have ht : (C ++ (I ++ [k])).take 16 = C ++ I := by
      rw [← List.append_assoc]; exact take_append_eq (by rw [List.length_append]; exact hlen)
    have e1 : sliceToI (C ++ I) n = C := by
      unfold sliceToI; rw [List.length_append, hlen, hn]; exact take_append_eq rfl
    have e2 : sliceFromI (C ++ I) n = I := by
      unfold sliceFromI; rw [List.length_append, hlen, hn]; exact drop_append_eq rfl
    rw [from_eq n hd hl, ht, e1, e2]
    exact h

end GSIN

namespace ITIP

theorem elem_lang (s : Str) : Rx.itipElem.fullmatch s = true ↔
    ∃ d c, (Dec d ∧ d.length = 18) ∧ ((∀ a ∈ c, a ∈ gs82) ∧ 1 ≤ c.length ∧ c.length ≤ 20) ∧ s = py "(8006)" ++ (d ++ (py "(21)" ++ c)) :=
  (fullmatch_iff _ _).trans (lang_elemA _ _ _ (by decide) _)

theorem from_eq {i : Char} {d c : Str} (n : Int) (hd : Dec (i :: d)) (hl : (i :: d).length = 18)
    (hc : (∀ a ∈ c, a ∈ gs82) ∧ 1 ≤ c.length ∧ c.length ≤ 20) :
    fromGs1ElementString (py "(8006)" ++ (i :: d ++ (py "(21)" ++ c))) n =
      new (py "urn:epc:id:itip" ++ ':' :: (sliceI (i :: d) 1 (1 + n) ++ '.' :: ((i :: sliceI (i :: d) (1 + n) (-5)) ++ '.' ::
        (slice (i :: d) 14 16 ++ '.' :: ((i :: d).drop 16 ++ '.' :: escape c))))) := by
  have hm : Rx.itipElem.fullmatch (py "(8006)" ++ (i :: d ++ (py "(21)" ++ c))) = true := (elem_lang _).2 ⟨_, c, ⟨hd, hl⟩, hc, rfl⟩
  have h1 : slice (py "(8006)" ++ (i :: d ++ (py "(21)" ++ c))) 6 24 = i :: d := slice_append rfl (by rw [hl]; rfl)
  have h2 : (py "(8006)" ++ (i :: d ++ (py "(21)" ++ c))).drop 28 = c := drop_append3 (by rw [hl]; rfl)
  have h3 : sliceI (i :: d) (-4) (-2) = slice (i :: d) 14 16 := by unfold sliceI; rw [hl]; rfl
  have h4 : sliceFromI (i :: d) (-2) = (i :: d).drop 16 := by unfold sliceFromI; rw [hl]; rfl
  unfold fromGs1ElementString
  rw [guard_true hm, ok_bind, h1, h2, ← revertUriEscapes_eq, ← h3, ← h4]
  show new (_ ++ _ ++ _ ++ _ ++ _ ++ _) = _
  simp

theorem from_iff (s : Str) (n : Int) (x : ITIP) : fromGs1ElementString s n = .ok x ↔
    ∃ i C I k A B c, (Dec (i :: (C ++ (I ++ (k :: (A ++ B))))) ∧ C.length + I.length = 12 ∧ A.length = 2 ∧ B.length = 2) ∧
      ((∀ a ∈ c, a ∈ gs82) ∧ 1 ≤ c.length ∧ c.length ≤ 20) ∧ clampIdx 18 (1 + n) = C.length + 1 ∧
      s = py "(8006)" ++ (i :: (C ++ (I ++ (k :: (A ++ B)))) ++ (py "(21)" ++ c)) ∧
      new (py "urn:epc:id:itip" ++ ':' :: (C ++ '.' :: ((i :: I) ++ '.' :: (A ++ '.' :: (B ++ '.' :: escape c))))) = .ok x := by
  constructor
  · intro h
    have hm : Rx.itipElem.fullmatch s = true := by
      unfold fromGs1ElementString at h
      exact (guard_bind_ok.1 h).1
    obtain ⟨d, c, ⟨hd, hl⟩, hc, rfl⟩ := (elem_lang s).1 hm
    cases d with
    | nil => simp at hl
    | cons i d => ?_
    rw [from_eq n hd hl hc] at h
    have hA : (slice (i :: d) 14 16).length = 2 := by rw [length_slice (by omega)]
    have hB : ((i :: d).drop 16).length = 2 := by rw [List.length_drop, hl]
    have hlen : (sliceI (i :: d) 1 (1 + n)).length + (i :: sliceI (i :: d) (1 + n) (-5)).length = 13 := by
      obtain ⟨C', I', A', B', S', ⟨⟨_, h1⟩, ⟨_, h2⟩, ⟨_, h3⟩, ⟨_, h4⟩, _⟩, h5, e, _⟩ := new_iff.1 h
      obtain ⟨e1, e2, e3⟩ := uri3_inj (Dec.no_dot (dec_slice hd _ _))
        (Dec.no_dot (Dec.cons.2 ⟨hd i List.mem_cons_self, dec_slice hd _ _⟩)) h1.no_dot h2.no_dot e
      obtain ⟨e4, e5⟩ := append_sep_inj (Dec.no_dot (dec_slice hd _ _)) h3.no_dot e3
      obtain ⟨e6, e7⟩ := append_sep_inj (Dec.no_dot (hd.drop _)) h4.no_dot e5
      have := h5.1
      have e1' : sliceI (i :: d) 1 (1 + n) = C' := e1
      have e2' : i :: sliceI (i :: d) (1 + n) (-5) = I' := e2
      rw [← e1', ← e2', ← e4, ← e6, hA, hB] at this
      omega
    have h5 : clampIdx 18 (-5) = 13 := rfl
    have h1' : clampIdx 18 1 = 1 := rfl
    have hj := clampIdx_le' 18 (1 + n)
    have e1 : sliceI (i :: d) 1 (1 + n) = slice (i :: d) 1 (clampIdx 18 (1 + n)) := by unfold sliceI; rw [hl, h1']
    have e2 : sliceI (i :: d) (1 + n) (-5) = slice (i :: d) (clampIdx 18 (1 + n)) 13 := by unfold sliceI; rw [hl, h5]
    rw [e1, e2] at h hlen
    rw [List.length_cons] at hlen
    have hjoin := slice_join_of_length (d := i :: d) (i := 1) (j := clampIdx 18 (1 + n)) (k := 13) (by omega) (by omega) (by decide)
      (by omega)
    have hcut : ∃ k, i :: d = i :: (slice (i :: d) 1 13 ++ (k :: (slice (i :: d) 14 16 ++ (i :: d).drop 16))) := by
      have hd' : d.length = 17 := by simpa using hl
      refine ⟨d[12]'(by omega), ?_⟩
      have e : slice (i :: d) 14 16 ++ (i :: d).drop 16 = d.drop 13 := by
        have := slice_join (i :: d) (by decide : 14 ≤ 16) (by decide : 16 ≤ 18)
        rw [← hl, slice_to_length, slice_to_length] at this
        simpa using this
      rw [e]
      congr 1
      rw [← List.drop_eq_getElem_cons]
      exact (List.take_append_drop 12 d).symm
    obtain ⟨k, hk⟩ := hcut
    rw [← hjoin, List.append_assoc] at hk
    refine ⟨i, _, _, k, _, _, c, ⟨by rw [← hk]; exact hd, by omega, hA, hB⟩, hc, ?_, by rw [← hk], h⟩
    rw [length_slice (by omega), length_slice (by omega)] at hlen
    rw [length_slice (by omega)]
    omega
  · rintro ⟨i, C, I, k, A, B, c, ⟨hd, hlen, hA, hB⟩, hc, hn, rfl, h⟩
    have hl : (i :: (C ++ (I ++ (k :: (A ++ B))))).length = 18 := by
      simp only [List.length_append, List.length_cons]; omega
    have e1 : sliceI (i :: (C ++ (I ++ (k :: (A ++ B))))) 1 (1 + n) = C := by
      refine sliceI_append (a := [i]) (b := C) (c := I ++ (k :: (A ++ B))) ?_ ?_
      · show clampIdx (i :: (C ++ (I ++ (k :: (A ++ B))))).length 1 = 1
        rw [hl]; rfl
      · show clampIdx (i :: (C ++ (I ++ (k :: (A ++ B))))).length (1 + n) = 1 + C.length
        rw [hl, hn]; omega
    have e2 : sliceI (i :: (C ++ (I ++ (k :: (A ++ B))))) (1 + n) (-5) = I := by
      refine sliceI_append (a := i :: C) (b := I) (c := k :: (A ++ B)) ?_ ?_
      · show clampIdx (i :: (C ++ (I ++ (k :: (A ++ B))))).length (1 + n) = (i :: C).length
        rw [hl, hn]; rfl
      · show clampIdx (i :: (C ++ (I ++ (k :: (A ++ B))))).length (-5) = (i :: C).length + I.length
        rw [hl, List.length_cons]
        show 13 = _
        omega
    have e3 : slice (i :: (C ++ (I ++ (k :: (A ++ B))))) 14 16 = A := by
      have := slice_append (a := i :: (C ++ (I ++ [k]))) (b := A) (c := B) (lo := 14) (hi := 16)
        (by simp only [List.length_append, List.length_cons, List.length_nil]; omega)
        (by simp only [List.length_append, List.length_cons, List.length_nil]; omega)
      simpa using this
    have e4 : (i :: (C ++ (I ++ (k :: (A ++ B))))).drop 16 = B := by
      have := drop_append_eq (a := i :: (C ++ (I ++ (k :: A)))) (b := B) (n := 16)
        (by simp only [List.length_append, List.length_cons]; omega)
      simpa using this
    rw [from_eq n hd hl hc, e1, e2, e3, e4]
    exact h

end ITIP

/-- Cutting `AI body` behind `k` characters and again at an arbitrary integer position. -/
theorem cut_body {p b : Str} {k : Nat} (hp : p.length = k) {m : Int} (hne : sliceI (p ++ b) k m ≠ []) :
    (p ++ b) = p ++ (sliceI (p ++ b) k m ++ sliceFromI (p ++ b) m) ∧
      clampIdx (p ++ b).length m = k + (sliceI (p ++ b) k m).length := by
  have hl : (p ++ b).length = k + b.length := by rw [List.length_append, hp]
  have hj := clampIdx_le' (p ++ b).length m
  have hk : clampIdx (p ++ b).length (k : Int) = k := clampIdx_nat (by omega)
  have e1 : sliceI (p ++ b) k m = slice (p ++ b) k (clampIdx (p ++ b).length m) := by unfold sliceI; rw [hk]
  have e2 : sliceFromI (p ++ b) m = slice (p ++ b) (clampIdx (p ++ b).length m) (p ++ b).length := by
    rw [slice_to_length]; rfl
  have hlt : k < clampIdx (p ++ b).length m := by
    rw [e1, ← List.length_pos_iff, length_slice hj] at hne; omega
  rw [e1, e2, slice_join _ (by omega) hj, slice_to_length, drop_append_eq hp, length_slice hj]
  exact ⟨rfl, by omega⟩

theorem uncut_body {p C r : Str} {k : Nat} (hp : p.length = k) {m : Int}
    (h : clampIdx (p ++ (C ++ r)).length m = k + C.length) :
    sliceI (p ++ (C ++ r)) k m = C ∧ sliceFromI (p ++ (C ++ r)) m = r := by
  constructor
  · refine sliceI_append ?_ ?_
    · rw [hp]; exact clampIdx_nat (by rw [List.length_append]; omega)
    · rw [h, hp]
  · unfold sliceFromI; rw [h]; exact drop_append2 (by rw [hp])

theorem sliceI_mem {s : Str} {i j : Int} {a : Char} (h : a ∈ sliceI s i j) : a ∈ s := by
  unfold sliceI slice at h
  exact List.mem_of_mem_take (List.mem_of_mem_drop h)

