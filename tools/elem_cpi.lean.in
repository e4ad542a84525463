/-! ### CPI -/

theorem isCpiElem_iff (c : Char) : Rx.isCpiElem c = true ↔ c ∈ gs39 := by
  have hl : ∀ c, Rx.isCpiElem c = true → c.toNat < 128 := by
    intro c h
    simp only [Rx.isCpiElem, Bool.or_eq_true, beq_iff_eq] at h
    rcases h with (((h | h) | rfl) | rfl) | rfl
    · exact isDigitA_lt h
    · simp only [Rx.isUpperA, Bool.and_eq_true, decide_eq_true_eq] at h
      have h' : c.toNat ≤ 90 := h.2
      omega
    · decide
    · decide
    · decide
  exact (mem_ascii_list (by decide) (by decide +kernel) (fun _ => hl _) c).symm

theorem replaceCpi_escape39' {raw : Str} (hp : ∀ c ∈ raw, c ≠ '%') : CPI.replaceCpiEscapes (escape39 raw) = raw := by
  unfold CPI.replaceCpiEscapes
  have s1 : replaceAll (py "%23") (py "#") (raw.flatMap escChar39) = raw.flatMap (fun c => if c = '/' then py "%2F" else [c]) := by
    apply replaceAll_escape
    intro x hx
    by_cases h1 : x = '#'
    · subst h1; left; exact ⟨rfl, rfl⟩
    · by_cases h2 : x = '/'
      · subst h2; right; right; exact ⟨rfl, '2', 'F', rfl, by decide, by decide, by decide⟩
      · right; left
        refine ⟨?_, x, hp x hx, ?_⟩ <;> simp [escChar39, h1, h2]
  have s2 : replaceAll (py "%2F") (py "/") (raw.flatMap (fun c => if c = '/' then py "%2F" else [c])) = raw.flatMap (fun c => [c]) := by
    apply replaceAll_escape
    intro x hx
    by_cases h2 : x = '/'
    · subst h2; left; exact ⟨rfl, rfl⟩
    · right; left
      refine ⟨?_, x, hp x hx, ?_⟩ <;> simp [h2]
  rw [show escape39 raw = raw.flatMap escChar39 from rfl, s1, s2]
  simp

theorem replaceCpi_escape39 {raw : Str} (h : ∀ c ∈ raw, c ∈ gs39) : CPI.replaceCpiEscapes (escape39 raw) = raw :=
  replaceCpi_escape39' (by
    rintro c hc rfl
    exact absurd (h _ hc) (by decide))

theorem escape39_no_dot' {raw : Str} (h : '.' ∉ raw) : '.' ∉ escape39 raw := by
  intro hm
  obtain ⟨c, hc, hm⟩ := List.mem_flatMap.1 hm
  unfold escChar39 at hm
  split at hm
  · simp at hm
  · split at hm
    · simp at hm
    · simp only [List.mem_singleton] at hm
      exact h (hm ▸ hc)

namespace CPI

theorem elem_lang (s : Str) : Rx.cpiElem.fullmatch s = true ↔
    ∃ d r t, (Dec d ∧ 6 ≤ d.length ∧ d.length ≤ 12) ∧ ((∀ a ∈ r, a ∈ gs39) ∧ r.length ≤ 24) ∧ (Dec t ∧ 1 ≤ t.length ∧ t.length ≤ 12) ∧
      s = py "(8010)" ++ (d ++ (r ++ (py "(8011)" ++ t))) := by
  rw [fullmatch_iff]
  show Lang (.seq (lit _) (.seq (Re.range Rx.digit 6 12) (.seq (Re.range Rx.elemCharCpi 0 24) (.seq (lit _) (Re.range Rx.digit 1 12))))) s ↔ _
  rw [lang_lit_seq]
  have hcp : ∀ s, Lang (Re.range Rx.elemCharCpi 0 24) s ↔ ((∀ a ∈ s, a ∈ gs39) ∧ s.length ≤ 24) := by
    intro s
    rw [show Rx.elemCharCpi = .cls Rx.isCpiElem from rfl, lang_range_cls _ (by decide)]
    simp only [isCpiElem_iff, Nat.zero_le, true_and]
    exact And.comm
  simp only [lang_seq (Re.range Rx.digit 6 12), lang_seq (Re.range Rx.elemCharCpi 0 24), lang_lit_seq,
    lang_digitRange (by decide : 6 ≤ 12), lang_digitRange (by decide : 1 ≤ 12), hcp]
  constructor
  · rintro ⟨_, rfl, d, _, rfl, hd, r, _, rfl, hr, t, rfl, ht⟩; exact ⟨d, r, t, hd, hr, ht, rfl⟩
  · rintro ⟨d, r, t, hd, hr, ht, rfl⟩; exact ⟨_, rfl, d, _, rfl, hd, r, _, rfl, hr, t, rfl, ht⟩

theorem from_eq {b t : Str} (n : Int) (hm : Rx.cpiElem.fullmatch (py "(8010)" ++ (b ++ (py "(8011)" ++ t))) = true)
    (hb : '(' ∉ b) (ht : '(' ∉ t) :
    fromGs1ElementString (py "(8010)" ++ (b ++ (py "(8011)" ++ t))) n =
      new (py "urn:epc:id:cpi" ++ ':' :: (sliceToI b n ++ '.' :: (escape39 (sliceFromI b n) ++ '.' :: t))) := by
  have ht1 : splitNoCap (parenLen 4) t = [t] := by
    have := splitNoCap_append (k := 4) (s := []) ht
    rw [List.append_nil] at this
    rw [this]
    simp [splitNoCap, splitNoCapGo]
  have hs : splitNoCap (parenLen 4) (py "(8010)" ++ (b ++ (py "(8011)" ++ t))) = [[], b, t] :=
    (splitNoCap_two (k := 4) (m := py "8010") (m' := py "8011") (c := t) rfl (by decide) rfl (by decide) hb).trans (by rw [ht1])
  unfold fromGs1ElementString
  rw [guard_true hm, ok_bind, hs, ← replace39]
  show new (_ ++ _ ++ _ ++ _) = _
  simp [revertCpiEscapes]

theorem gs39_no_paren {r : Str} (h : ∀ a ∈ r, a ∈ gs39) : '(' ∉ r := fun hx => absurd (h _ hx) (by decide)

theorem from_iff (s : Str) (n : Int) (x : CPI) : fromGs1ElementString s n = .ok x ↔
    ∃ C r t, Rx.cpiElem.fullmatch s = true ∧ ('(' ∉ C ++ r ∧ '(' ∉ t) ∧ clampIdx (C ++ r).length n = C.length ∧
      s = py "(8010)" ++ (C ++ r ++ (py "(8011)" ++ t)) ∧
      new (py "urn:epc:id:cpi" ++ ':' :: (C ++ '.' :: (escape39 r ++ '.' :: t))) = .ok x := by
  constructor
  · intro h
    have hm : Rx.cpiElem.fullmatch s = true := by
      unfold fromGs1ElementString at h
      exact (guard_bind_ok.1 h).1
    obtain ⟨d, r, t, hd, hr, ht, rfl⟩ := (elem_lang s).1 hm
    rw [← List.append_assoc d] at hm h ⊢
    have hb : '(' ∉ d ++ r := by
      intro hx
      rcases List.mem_append.1 hx with hx | hx
      · exact hd.1.no_paren hx
      · exact gs39_no_paren hr.1 hx
    rw [from_eq n hm hb ht.1.no_paren] at h
    have e : sliceToI (d ++ r) n ++ sliceFromI (d ++ r) n = d ++ r := List.take_append_drop _ _
    refine ⟨_, _, t, hm, ⟨by rw [e]; exact hb, ht.1.no_paren⟩, ?_, by rw [e], h⟩
    rw [e]
    unfold sliceToI
    have := clampIdx_le' (d ++ r).length n
    rw [List.length_take]; omega
  · rintro ⟨C, r, t, hm, ⟨hb, ht⟩, hn, rfl, h⟩
    have e1 : sliceToI (C ++ r) n = C := by unfold sliceToI; rw [hn]; exact take_append_eq rfl
    have e2 : sliceFromI (C ++ r) n = r := by unfold sliceFromI; rw [hn]; exact drop_append_eq rfl
    rw [from_eq n hm hb ht, e1, e2]
    exact h

end CPI

