theorem padded_two {n : Nat} (h : n ≤ 99) : Padded 2 n (padLeft '0' 2 (natStr n)) := (padded_iff (by decide)).2 ⟨by omega, rfl⟩

theorem itip_binary_99 {u C D A T S : Str} {cs : ITIP.Coding} {f : Fin 8} (hC : Digits C) (hD : Digits D) (h1 : 6 ≤ C.length ∧ C.length ≤ 12)
    (hl : C.length + D.length = 13) (hA : Digits A ∧ A ≠ []) (hT : Digits T ∧ T ≠ []) (hno : ¬ (number A < 99 ∧ number T < 99)) :
    (⟨u, C, D, A, T, S⟩ : ITIP).binary cs f = .error .convert := by
  obtain ⟨b, e1, -⟩ := part_ok (t := ITIP.table) (W := 47) (T := 13) (by decide) (by decide) (by decide) (by decide) hC hD h1.1 h1.2 hl
  unfold ITIP.binary
  dsimp only
  rw [filter_ok, ok_bind, e1, ok_bind, Fixed.encode hA.1 hA.2, Fixed.encode hT.1 hT.2]
  by_cases h : number A < 99
  · rw [if_pos h, ok_bind, if_neg (fun h' => hno ⟨h, h'⟩), error_bind]
  · rw [if_neg h, error_bind]

