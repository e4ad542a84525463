/-
What `from_gs1_element_string` does, class by class: `elem_lang` gives the strings the class's pattern matches, `from_iff` the
strings and company prefix lengths for which an object is returned, and how the URI of that object is made of the parts.
Generated by /verif/tools/gen_elem.py.
-/
import Verif.Lemmas.Elem
import Verif.Lemmas.Six
import Verif.Lemmas.Frame

set_option linter.unusedSimpArgs false

namespace Epc
open Spec Re

namespace SGTIN

theorem elem_lang (s : Str) : Rx.sgtinElem.fullmatch s = true ↔
    ∃ d c, (Dec d ∧ d.length = 14) ∧ ((∀ a ∈ c, a ∈ gs82) ∧ 1 ≤ c.length ∧ c.length ≤ 20) ∧ s = py "(01)" ++ (d ++ (py "(21)" ++ c)) :=
  (fullmatch_iff _ _).trans (lang_elemA _ _ _ (by decide) _)

theorem from_eq {i : Char} {d c : Str} (n : Int) (hd : Dec (i :: d)) (hl : (i :: d).length = 14) (hc : (∀ a ∈ c, a ∈ gs82) ∧ 1 ≤ c.length ∧ c.length ≤ 20) (hg : ¬ HasGroup 2 c) :
    fromGs1ElementString (py "(01)" ++ (i :: d ++ (py "(21)" ++ c))) n =
      new (py "urn:epc:id:sgtin" ++ ':' :: (sliceI (i :: d) 1 (1 + n) ++ '.' :: ((i :: sliceI (i :: d) (1 + n) (-1)) ++ '.' :: escape c))) := by
  have hm : Rx.sgtinElem.fullmatch (py "(01)" ++ (i :: d ++ (py "(21)" ++ c))) = true := (elem_lang _).2 ⟨_, c, ⟨hd, hl⟩, hc, rfl⟩
  have hs : splitNoCap (parenLen 2) (py "(01)" ++ (i :: d ++ (py "(21)" ++ c))) = [[], i :: d, c] :=
    (splitNoCap_two (k := 2) (m := py "01") (m' := py "21") (c := c) rfl (by decide) rfl (by decide) hd.no_paren).trans
      (by rw [splitNoCap_noGroup hg])
  unfold fromGs1ElementString
  rw [guard_true hm, ok_bind, hs, ← revertUriEscapes_eq, Int.add_comm 1 n]
  show new (_ ++ _ ++ _ ++ _) = _
  simp

theorem from_group {i : Char} {d c : Str} (n : Int) (hd : Dec (i :: d)) (hl : (i :: d).length = 14) (hc : (∀ a ∈ c, a ∈ gs82) ∧ 1 ≤ c.length ∧ c.length ≤ 20) (hg : HasGroup 2 c) :
    fromGs1ElementString (py "(01)" ++ (i :: d ++ (py "(21)" ++ c))) n = .error .value := by
  have hm : Rx.sgtinElem.fullmatch (py "(01)" ++ (i :: d ++ (py "(21)" ++ c))) = true := (elem_lang _).2 ⟨_, c, ⟨hd, hl⟩, hc, rfl⟩
  obtain ⟨a, b, l, e⟩ := splitNoCap_hasGroup (gs82_no_nl hc.1) hg
  have hs : splitNoCap (parenLen 2) (py "(01)" ++ (i :: d ++ (py "(21)" ++ c))) = [] :: (i :: d) :: a :: b :: l :=
    (splitNoCap_two (k := 2) (m := py "01") (m' := py "21") (c := c) rfl (by decide) rfl (by decide) hd.no_paren).trans
      (by rw [e])
  unfold fromGs1ElementString
  rw [guard_true hm, ok_bind, hs]
  rfl

theorem from_iff (s : Str) (n : Int) (x : SGTIN) : fromGs1ElementString s n = .ok x ↔
    ∃ i C I k c, (Dec (i :: (C ++ (I ++ [k]))) ∧ C.length + I.length = 12) ∧ ((∀ a ∈ c, a ∈ gs82) ∧ 1 ≤ c.length ∧ c.length ≤ 20) ∧ ¬ HasGroup 2 c ∧ clampIdx 14 (1 + n) = C.length + 1 ∧ s = py "(01)" ++ (i :: (C ++ (I ++ [k])) ++ (py "(21)" ++ c)) ∧ new (py "urn:epc:id:sgtin" ++ ':' :: (C ++ '.' :: ((i :: I) ++ '.' :: escape c))) = .ok x := by
  constructor
  · intro h
    have hm : Rx.sgtinElem.fullmatch s = true := by
      unfold fromGs1ElementString at h
      exact (guard_bind_ok.1 h).1
    obtain ⟨d, c, ⟨hd, hl⟩, hc, rfl⟩ := (elem_lang s).1 hm
    cases d with
    | nil => simp at hl
    | cons i d => ?_
    by_cases hg : ¬ HasGroup 2 c
    rotate_left
    · rw [from_group n hd hl hc (Classical.not_not.1 hg)] at h; cases h
    rw [from_eq n hd hl hc hg] at h
    have hlen : (sliceI (i :: d) 1 (1 + n)).length + ((i :: sliceI (i :: d) (1 + n) (-1))).length = 13 := by
      obtain ⟨C', I', S', ⟨⟨_, h1⟩, h2, _⟩, h3, e, _⟩ := new_iff.1 h
      obtain ⟨e1, e2, _⟩ := uri3_inj (Dec.no_dot (dec_slice hd _ _)) (Dec.no_dot ((Dec.cons.2 ⟨hd i List.mem_cons_self, dec_slice hd _ _⟩))) h1.no_dot (Dec.no_dot h2.2) e
      have := h3.1
      rw [← e1, ← e2] at this
      exact this
    obtain ⟨⟨k, hk⟩, hn⟩ := cut_key hl (by decide) hlen
    refine ⟨i, _, _, k, c, ⟨by rw [← hk]; exact hd, ?_⟩, hc, hg, hn, by rw [← hk], h⟩
    rw [List.length_cons] at hlen; omega
  · rintro ⟨i, C, I, k, c, ⟨hd, hlen⟩, hc, hg, hn, rfl, h⟩
    have hl : (i :: (C ++ (I ++ [k]))).length = 14 := by
      simp only [List.length_append, List.length_cons, List.length_nil]; omega
    have hcut := uncut_key (i := i) (C := C) (D := I) (k := k) (n := n) (by rw [hlen]; exact hn)
    rw [from_eq n hd hl hc hg, hcut.1, hcut.2]
    exact h

end SGTIN

namespace LGTIN

theorem elem_lang (s : Str) : Rx.lgtinElem.fullmatch s = true ↔
    ∃ d c, (Dec d ∧ d.length = 14) ∧ ((∀ a ∈ c, a ∈ gs82) ∧ 1 ≤ c.length ∧ c.length ≤ 20) ∧ s = py "(01)" ++ (d ++ (py "(10)" ++ c)) :=
  (fullmatch_iff _ _).trans (lang_elemA _ _ _ (by decide) _)

theorem from_eq {i : Char} {d c : Str} (n : Int) (hd : Dec (i :: d)) (hl : (i :: d).length = 14) (hc : (∀ a ∈ c, a ∈ gs82) ∧ 1 ≤ c.length ∧ c.length ≤ 20) (hg : ¬ HasGroup 2 c) :
    fromGs1ElementString (py "(01)" ++ (i :: d ++ (py "(10)" ++ c))) n =
      new (py "urn:epc:class:lgtin" ++ ':' :: (sliceI (i :: d) 1 (1 + n) ++ '.' :: ((i :: sliceI (i :: d) (1 + n) (-1)) ++ '.' :: escape c))) := by
  have hm : Rx.lgtinElem.fullmatch (py "(01)" ++ (i :: d ++ (py "(10)" ++ c))) = true := (elem_lang _).2 ⟨_, c, ⟨hd, hl⟩, hc, rfl⟩
  have hs : splitNoCap (parenLen 2) (py "(01)" ++ (i :: d ++ (py "(10)" ++ c))) = [[], i :: d, c] :=
    (splitNoCap_two (k := 2) (m := py "01") (m' := py "10") (c := c) rfl (by decide) rfl (by decide) hd.no_paren).trans
      (by rw [splitNoCap_noGroup hg])
  unfold fromGs1ElementString
  rw [guard_true hm, ok_bind, hs, ← revertUriEscapes_eq, Int.add_comm 1 n]
  show new (_ ++ _ ++ _ ++ _) = _
  simp

theorem from_group {i : Char} {d c : Str} (n : Int) (hd : Dec (i :: d)) (hl : (i :: d).length = 14) (hc : (∀ a ∈ c, a ∈ gs82) ∧ 1 ≤ c.length ∧ c.length ≤ 20) (hg : HasGroup 2 c) :
    fromGs1ElementString (py "(01)" ++ (i :: d ++ (py "(10)" ++ c))) n = .error .value := by
  have hm : Rx.lgtinElem.fullmatch (py "(01)" ++ (i :: d ++ (py "(10)" ++ c))) = true := (elem_lang _).2 ⟨_, c, ⟨hd, hl⟩, hc, rfl⟩
  obtain ⟨a, b, l, e⟩ := splitNoCap_hasGroup (gs82_no_nl hc.1) hg
  have hs : splitNoCap (parenLen 2) (py "(01)" ++ (i :: d ++ (py "(10)" ++ c))) = [] :: (i :: d) :: a :: b :: l :=
    (splitNoCap_two (k := 2) (m := py "01") (m' := py "10") (c := c) rfl (by decide) rfl (by decide) hd.no_paren).trans
      (by rw [e])
  unfold fromGs1ElementString
  rw [guard_true hm, ok_bind, hs]
  rfl

theorem from_iff (s : Str) (n : Int) (x : LGTIN) : fromGs1ElementString s n = .ok x ↔
    ∃ i C I k c, (Dec (i :: (C ++ (I ++ [k]))) ∧ C.length + I.length = 12) ∧ ((∀ a ∈ c, a ∈ gs82) ∧ 1 ≤ c.length ∧ c.length ≤ 20) ∧ ¬ HasGroup 2 c ∧ clampIdx 14 (1 + n) = C.length + 1 ∧ s = py "(01)" ++ (i :: (C ++ (I ++ [k])) ++ (py "(10)" ++ c)) ∧ new (py "urn:epc:class:lgtin" ++ ':' :: (C ++ '.' :: ((i :: I) ++ '.' :: escape c))) = .ok x := by
  constructor
  · intro h
    have hm : Rx.lgtinElem.fullmatch s = true := by
      unfold fromGs1ElementString at h
      exact (guard_bind_ok.1 h).1
    obtain ⟨d, c, ⟨hd, hl⟩, hc, rfl⟩ := (elem_lang s).1 hm
    cases d with
    | nil => simp at hl
    | cons i d => ?_
    by_cases hg : ¬ HasGroup 2 c
    rotate_left
    · rw [from_group n hd hl hc (Classical.not_not.1 hg)] at h; cases h
    rw [from_eq n hd hl hc hg] at h
    have hlen : (sliceI (i :: d) 1 (1 + n)).length + ((i :: sliceI (i :: d) (1 + n) (-1))).length = 13 := by
      obtain ⟨C', I', S', ⟨⟨_, h1⟩, h2, _⟩, h3, e, _⟩ := new_iff.1 h
      obtain ⟨e1, e2, _⟩ := uri3_inj (Dec.no_dot (dec_slice hd _ _)) (Dec.no_dot ((Dec.cons.2 ⟨hd i List.mem_cons_self, dec_slice hd _ _⟩))) h1.no_dot (Dec.no_dot h2.2) e
      have := h3.1
      rw [← e1, ← e2] at this
      exact this
    obtain ⟨⟨k, hk⟩, hn⟩ := cut_key hl (by decide) hlen
    refine ⟨i, _, _, k, c, ⟨by rw [← hk]; exact hd, ?_⟩, hc, hg, hn, by rw [← hk], h⟩
    rw [List.length_cons] at hlen; omega
  · rintro ⟨i, C, I, k, c, ⟨hd, hlen⟩, hc, hg, hn, rfl, h⟩
    have hl : (i :: (C ++ (I ++ [k]))).length = 14 := by
      simp only [List.length_append, List.length_cons, List.length_nil]; omega
    have hcut := uncut_key (i := i) (C := C) (D := I) (k := k) (n := n) (by rw [hlen]; exact hn)
    rw [from_eq n hd hl hc hg, hcut.1, hcut.2]
    exact h

end LGTIN

namespace UPUI

theorem elem_lang (s : Str) : Rx.upuiElem.fullmatch s = true ↔
    ∃ d c, (Dec d ∧ d.length = 14) ∧ ((∀ a ∈ c, a ∈ gs82) ∧ 1 ≤ c.length ∧ c.length ≤ 28) ∧ s = py "(01)" ++ (d ++ (py "(235)" ++ c)) :=
  (fullmatch_iff _ _).trans (lang_elemA _ _ _ (by decide) _)

theorem from_eq {i : Char} {d c : Str} (n : Int) (hd : Dec (i :: d)) (hl : (i :: d).length = 14) (hc : (∀ a ∈ c, a ∈ gs82) ∧ 1 ≤ c.length ∧ c.length ≤ 28) :
    fromGs1ElementString (py "(01)" ++ (i :: d ++ (py "(235)" ++ c))) n =
      new (py "urn:epc:id:upui" ++ ':' :: (sliceI (i :: d) 1 (1 + n) ++ '.' :: ((i :: sliceI (i :: d) (1 + n) (-1)) ++ '.' :: escape c))) := by
  have hm : Rx.upuiElem.fullmatch (py "(01)" ++ (i :: d ++ (py "(235)" ++ c))) = true := (elem_lang _).2 ⟨_, c, ⟨hd, hl⟩, hc, rfl⟩
  have h1 : slice (py "(01)" ++ (i :: d ++ (py "(235)" ++ c))) 4 18 = i :: d := slice_append rfl (by rw [hl]; rfl)
  have h2 : (py "(01)" ++ (i :: d ++ (py "(235)" ++ c))).drop 23 = c := drop_append3 (by rw [hl]; rfl)
  unfold fromGs1ElementString
  rw [guard_true hm, ok_bind, h1, h2, ← revertUriEscapes_eq]
  show new (_ ++ _ ++ _ ++ _) = _
  simp

theorem from_iff (s : Str) (n : Int) (x : UPUI) : fromGs1ElementString s n = .ok x ↔
    ∃ i C I k c, (Dec (i :: (C ++ (I ++ [k]))) ∧ C.length + I.length = 12) ∧ ((∀ a ∈ c, a ∈ gs82) ∧ 1 ≤ c.length ∧ c.length ≤ 28) ∧ clampIdx 14 (1 + n) = C.length + 1 ∧ s = py "(01)" ++ (i :: (C ++ (I ++ [k])) ++ (py "(235)" ++ c)) ∧ new (py "urn:epc:id:upui" ++ ':' :: (C ++ '.' :: ((i :: I) ++ '.' :: escape c))) = .ok x := by
  constructor
  · intro h
    have hm : Rx.upuiElem.fullmatch s = true := by
      unfold fromGs1ElementString at h
      exact (guard_bind_ok.1 h).1
    obtain ⟨d, c, ⟨hd, hl⟩, hc, rfl⟩ := (elem_lang s).1 hm
    cases d with
    | nil => simp at hl
    | cons i d => ?_
    rw [from_eq n hd hl hc] at h
    have hlen : (sliceI (i :: d) 1 (1 + n)).length + ((i :: sliceI (i :: d) (1 + n) (-1))).length = 13 := by
      obtain ⟨C', I', S', ⟨⟨_, h1⟩, h2, _⟩, h3, e, _⟩ := new_iff.1 h
      obtain ⟨e1, e2, _⟩ := uri3_inj (Dec.no_dot (dec_slice hd _ _)) (Dec.no_dot ((Dec.cons.2 ⟨hd i List.mem_cons_self, dec_slice hd _ _⟩))) h1.no_dot (Dec.no_dot h2) e
      have := h3.1
      rw [← e1, ← e2] at this
      exact this
    obtain ⟨⟨k, hk⟩, hn⟩ := cut_key hl (by decide) hlen
    refine ⟨i, _, _, k, c, ⟨by rw [← hk]; exact hd, ?_⟩, hc, hn, by rw [← hk], h⟩
    rw [List.length_cons] at hlen; omega
  · rintro ⟨i, C, I, k, c, ⟨hd, hlen⟩, hc, hn, rfl, h⟩
    have hl : (i :: (C ++ (I ++ [k]))).length = 14 := by
      simp only [List.length_append, List.length_cons, List.length_nil]; omega
    have hcut := uncut_key (i := i) (C := C) (D := I) (k := k) (n := n) (by rw [hlen]; exact hn)
    rw [from_eq n hd hl hc, hcut.1, hcut.2]
    exact h

end UPUI

namespace SGLN

theorem elem_lang (s : Str) : Rx.sglnElem.fullmatch s = true ↔
    ∃ d c, (Dec d ∧ d.length = 13) ∧ ((∀ a ∈ c, a ∈ gs82) ∧ 1 ≤ c.length ∧ c.length ≤ 20) ∧ s = py "(414)" ++ (d ++ (py "(254)" ++ c)) :=
  (fullmatch_iff _ _).trans (lang_elemA _ _ _ (by decide) _)

theorem from_eq {d c : Str} (n : Int) (hd : Dec d) (hl : d.length = 13) (hc : (∀ a ∈ c, a ∈ gs82) ∧ 1 ≤ c.length ∧ c.length ≤ 20) (hg : ¬ HasGroup 3 c) :
    fromGs1ElementString (py "(414)" ++ (d ++ (py "(254)" ++ c))) n =
      new (py "urn:epc:id:sgln" ++ ':' :: (sliceToI d n ++ '.' :: (sliceI d n (-1) ++ '.' :: escape c))) := by
  have hm : Rx.sglnElem.fullmatch (py "(414)" ++ (d ++ (py "(254)" ++ c))) = true := (elem_lang _).2 ⟨_, c, ⟨hd, hl⟩, hc, rfl⟩
  have hs : splitNoCap (parenLen 3) (py "(414)" ++ (d ++ (py "(254)" ++ c))) = [[], d, c] :=
    (splitNoCap_two (k := 3) (m := py "414") (m' := py "254") (c := c) rfl (by decide) rfl (by decide) hd.no_paren).trans
      (by rw [splitNoCap_noGroup hg])
  unfold fromGs1ElementString
  rw [guard_true hm, ok_bind, hs, ← revertUriEscapes_eq]
  show new (_ ++ _ ++ _ ++ _) = _
  simp

theorem from_group {d c : Str} (n : Int) (hd : Dec d) (hl : d.length = 13) (hc : (∀ a ∈ c, a ∈ gs82) ∧ 1 ≤ c.length ∧ c.length ≤ 20) (hg : HasGroup 3 c) :
    fromGs1ElementString (py "(414)" ++ (d ++ (py "(254)" ++ c))) n = .error .value := by
  have hm : Rx.sglnElem.fullmatch (py "(414)" ++ (d ++ (py "(254)" ++ c))) = true := (elem_lang _).2 ⟨_, c, ⟨hd, hl⟩, hc, rfl⟩
  obtain ⟨a, b, l, e⟩ := splitNoCap_hasGroup (gs82_no_nl hc.1) hg
  have hs : splitNoCap (parenLen 3) (py "(414)" ++ (d ++ (py "(254)" ++ c))) = [] :: (d) :: a :: b :: l :=
    (splitNoCap_two (k := 3) (m := py "414") (m' := py "254") (c := c) rfl (by decide) rfl (by decide) hd.no_paren).trans
      (by rw [e])
  unfold fromGs1ElementString
  rw [guard_true hm, ok_bind, hs]
  rfl

theorem from_iff (s : Str) (n : Int) (x : SGLN) : fromGs1ElementString s n = .ok x ↔
    ∃ C I k c, (Dec (C ++ (I ++ [k])) ∧ C.length + I.length = 12) ∧ ((∀ a ∈ c, a ∈ gs82) ∧ 1 ≤ c.length ∧ c.length ≤ 20) ∧ ¬ HasGroup 3 c ∧ clampIdx 13 n = C.length ∧ s = py "(414)" ++ (C ++ (I ++ [k]) ++ (py "(254)" ++ c)) ∧ new (py "urn:epc:id:sgln" ++ ':' :: (C ++ '.' :: ((I) ++ '.' :: escape c))) = .ok x := by
  constructor
  · intro h
    have hm : Rx.sglnElem.fullmatch s = true := by
      unfold fromGs1ElementString at h
      exact (guard_bind_ok.1 h).1
    obtain ⟨d, c, ⟨hd, hl⟩, hc, rfl⟩ := (elem_lang s).1 hm
    by_cases hg : ¬ HasGroup 3 c
    rotate_left
    · rw [from_group n hd hl hc (Classical.not_not.1 hg)] at h; cases h
    rw [from_eq n hd hl hc hg] at h
    have hlen : (sliceToI d n).length + (sliceI d n (-1)).length = 12 := by
      obtain ⟨C', I', S', ⟨⟨_, h1⟩, h2, _⟩, h3, e, _⟩ := new_iff.1 h
      obtain ⟨e1, e2, _⟩ := uri3_inj (Dec.no_dot (hd.take _)) (Dec.no_dot (dec_slice hd _ _)) h1.no_dot (Dec.no_dot h2) e
      have := h3.1
      rw [← e1, ← e2] at this
      exact this
    obtain ⟨⟨k, hk⟩, hn⟩ := cut_plain hl hlen
    refine ⟨_, _, k, c, ⟨by rw [← hk]; exact hd, hlen⟩, hc, hg, hn, by rw [← hk], h⟩
  · rintro ⟨C, I, k, c, ⟨hd, hlen⟩, hc, hg, hn, rfl, h⟩
    have hl : (C ++ (I ++ [k])).length = 13 := by
      simp only [List.length_append, List.length_cons, List.length_nil]; omega
    have hcut := uncut_plain (C := C) (D := I) (k := k) (n := n) (by rw [hlen]; exact hn)
    rw [from_eq n hd hl hc hg, hcut.1, hcut.2]
    exact h

end SGLN

namespace SSCC

theorem elem_lang (s : Str) : Rx.ssccElem.fullmatch s = true ↔ ∃ d, (Dec d ∧ d.length = 18) ∧ s = py "(00)" ++ d :=
  (fullmatch_iff _ _).trans (lang_elemB _ _ _)

theorem from_eq {i : Char} {d : Str} (n : Int) (hd : Dec (i :: d)) (hl : (i :: d).length = 18) :
    fromGs1ElementString (py "(00)" ++ (i :: d)) n = new (py "urn:epc:id:sscc" ++ ':' :: (sliceI (i :: d) 1 (1 + n) ++ '.' :: (i :: sliceI (i :: d) (1 + n) (-1)))) := by
  have hm : Rx.ssccElem.fullmatch (py "(00)" ++ (i :: d)) = true := (elem_lang _).2 ⟨_, ⟨hd, hl⟩, rfl⟩
  have hs : splitNoCap (parenLen 2) (py "(00)" ++ (i :: d)) = [[], i :: d] :=
    (splitNoCap_group (k := 2) (m := py "00") (t := i :: d) rfl (by decide)).trans
      (by
        have := splitNoCap_append (k := 2) (s := []) hd.no_paren
        rw [List.append_nil] at this
        rw [this]
        simp [splitNoCap, splitNoCapGo])
  unfold fromGs1ElementString
  rw [guard_true hm, ok_bind, hs, Int.add_comm 1 n]
  show new (_ ++ _ ++ _) = _
  simp

theorem from_iff (s : Str) (n : Int) (x : SSCC) : fromGs1ElementString s n = .ok x ↔
    ∃ i C I k, (Dec (i :: (C ++ (I ++ [k]))) ∧ C.length + I.length = 16) ∧ clampIdx 18 (1 + n) = C.length + 1 ∧ s = py "(00)" ++ (i :: (C ++ (I ++ [k]))) ∧ new (py "urn:epc:id:sscc" ++ ':' :: (C ++ '.' :: (i :: I))) = .ok x := by
  constructor
  · intro h
    have hm : Rx.ssccElem.fullmatch s = true := by
      unfold fromGs1ElementString at h
      exact (guard_bind_ok.1 h).1
    obtain ⟨d, ⟨hd, hl⟩, rfl⟩ := (elem_lang s).1 hm
    cases d with
    | nil => simp at hl
    | cons i d => ?_
    rw [from_eq n hd hl] at h
    have hlen : (sliceI (i :: d) 1 (1 + n)).length + ((i :: sliceI (i :: d) (1 + n) (-1))).length = 17 := by
      obtain ⟨C', I', ⟨⟨_, h1⟩, h2⟩, h3, e, _⟩ := new_iff.1 h
      obtain ⟨e1, e2⟩ := uri2_inj (Dec.no_dot (dec_slice hd _ _)) h1.no_dot e
      have := h3.1
      rw [← e1, ← e2] at this
      exact this
    obtain ⟨⟨k, hk⟩, hn⟩ := cut_key hl (by decide) hlen
    refine ⟨i, _, _, k, ⟨by rw [← hk]; exact hd, ?_⟩, hn, by rw [← hk], h⟩
    rw [List.length_cons] at hlen; omega
  · rintro ⟨i, C, I, k, ⟨hd, hlen⟩, hn, rfl, h⟩
    have hl : (i :: (C ++ (I ++ [k]))).length = 18 := by
      simp only [List.length_append, List.length_cons, List.length_nil]; omega
    have hcut := uncut_key (i := i) (C := C) (D := I) (k := k) (n := n) (by rw [hlen]; exact hn)
    rw [from_eq n hd hl, hcut.1, hcut.2]
    exact h

end SSCC

namespace GSRN

theorem elem_lang (s : Str) : Rx.gsrnElem.fullmatch s = true ↔ ∃ d, (Dec d ∧ d.length = 18) ∧ s = py "(8018)" ++ d :=
  (fullmatch_iff _ _).trans (lang_elemB _ _ _)

theorem from_eq {d : Str} (n : Int) (hd : Dec d) (hl : d.length = 18) :
    fromGs1ElementString (py "(8018)" ++ (d)) n = new (py "urn:epc:id:gsrn" ++ ':' :: (sliceToI d n ++ '.' :: sliceI d n (-1))) := by
  have hm : Rx.gsrnElem.fullmatch (py "(8018)" ++ (d)) = true := (elem_lang _).2 ⟨_, ⟨hd, hl⟩, rfl⟩
  have h1 : (py "(8018)" ++ (d)).drop 6 = d := rfl
  unfold fromGs1ElementString
  rw [guard_true hm, ok_bind, h1]
  show new (_ ++ _ ++ _) = _
  simp

theorem from_iff (s : Str) (n : Int) (x : GSRN) : fromGs1ElementString s n = .ok x ↔
    ∃ C I k, (Dec (C ++ (I ++ [k])) ∧ C.length + I.length = 17) ∧ clampIdx 18 n = C.length ∧ s = py "(8018)" ++ (C ++ (I ++ [k])) ∧ new (py "urn:epc:id:gsrn" ++ ':' :: (C ++ '.' :: (I))) = .ok x := by
  constructor
  · intro h
    have hm : Rx.gsrnElem.fullmatch s = true := by
      unfold fromGs1ElementString at h
      exact (guard_bind_ok.1 h).1
    obtain ⟨d, ⟨hd, hl⟩, rfl⟩ := (elem_lang s).1 hm
    rw [from_eq n hd hl] at h
    have hlen : (sliceToI d n).length + (sliceI d n (-1)).length = 17 := by
      obtain ⟨C', I', ⟨⟨_, h1⟩, h2⟩, h3, e, _⟩ := new_iff.1 h
      obtain ⟨e1, e2⟩ := uri2_inj (Dec.no_dot (hd.take _)) h1.no_dot e
      have := h3.1
      rw [← e1, ← e2] at this
      exact this
    obtain ⟨⟨k, hk⟩, hn⟩ := cut_plain hl hlen
    refine ⟨_, _, k, ⟨by rw [← hk]; exact hd, hlen⟩, hn, by rw [← hk], h⟩
  · rintro ⟨C, I, k, ⟨hd, hlen⟩, hn, rfl, h⟩
    have hl : (C ++ (I ++ [k])).length = 18 := by
      simp only [List.length_append, List.length_cons, List.length_nil]; omega
    have hcut := uncut_plain (C := C) (D := I) (k := k) (n := n) (by rw [hlen]; exact hn)
    rw [from_eq n hd hl, hcut.1, hcut.2]
    exact h

end GSRN

namespace GSRNP

theorem elem_lang (s : Str) : Rx.gsrnpElem.fullmatch s = true ↔ ∃ d, (Dec d ∧ d.length = 18) ∧ s = py "(8017)" ++ d :=
  (fullmatch_iff _ _).trans (lang_elemB _ _ _)

theorem from_eq {d : Str} (n : Int) (hd : Dec d) (hl : d.length = 18) :
    fromGs1ElementString (py "(8017)" ++ (d)) n = new (py "urn:epc:id:gsrnp" ++ ':' :: (sliceToI d n ++ '.' :: sliceI d n (-1))) := by
  have hm : Rx.gsrnpElem.fullmatch (py "(8017)" ++ (d)) = true := (elem_lang _).2 ⟨_, ⟨hd, hl⟩, rfl⟩
  have h1 : (py "(8017)" ++ (d)).drop 6 = d := rfl
  unfold fromGs1ElementString
  rw [guard_true hm, ok_bind, h1]
  show new (_ ++ _ ++ _) = _
  simp

theorem from_iff (s : Str) (n : Int) (x : GSRNP) : fromGs1ElementString s n = .ok x ↔
    ∃ C I k, (Dec (C ++ (I ++ [k])) ∧ C.length + I.length = 17) ∧ clampIdx 18 n = C.length ∧ s = py "(8017)" ++ (C ++ (I ++ [k])) ∧ new (py "urn:epc:id:gsrnp" ++ ':' :: (C ++ '.' :: (I))) = .ok x := by
  constructor
  · intro h
    have hm : Rx.gsrnpElem.fullmatch s = true := by
      unfold fromGs1ElementString at h
      exact (guard_bind_ok.1 h).1
    obtain ⟨d, ⟨hd, hl⟩, rfl⟩ := (elem_lang s).1 hm
    rw [from_eq n hd hl] at h
    have hlen : (sliceToI d n).length + (sliceI d n (-1)).length = 17 := by
      obtain ⟨C', I', ⟨⟨_, h1⟩, h2⟩, h3, e, _⟩ := new_iff.1 h
      obtain ⟨e1, e2⟩ := uri2_inj (Dec.no_dot (hd.take _)) h1.no_dot e
      have := h3.1
      rw [← e1, ← e2] at this
      exact this
    obtain ⟨⟨k, hk⟩, hn⟩ := cut_plain hl hlen
    refine ⟨_, _, k, ⟨by rw [← hk]; exact hd, hlen⟩, hn, by rw [← hk], h⟩
  · rintro ⟨C, I, k, ⟨hd, hlen⟩, hn, rfl, h⟩
    have hl : (C ++ (I ++ [k])).length = 18 := by
      simp only [List.length_append, List.length_cons, List.length_nil]; omega
    have hcut := uncut_plain (C := C) (D := I) (k := k) (n := n) (by rw [hlen]; exact hn)
    rw [from_eq n hd hl, hcut.1, hcut.2]
    exact h

end GSRNP

namespace PGLN

theorem elem_lang (s : Str) : Rx.pglnElem.fullmatch s = true ↔ ∃ d, (Dec d ∧ d.length = 13) ∧ s = py "(417)" ++ d :=
  (fullmatch_iff _ _).trans (lang_elemB _ _ _)

theorem from_eq {d : Str} (n : Int) (hd : Dec d) (hl : d.length = 13) :
    fromGs1ElementString (py "(417)" ++ (d)) n = new (py "urn:epc:id:pgln" ++ ':' :: (sliceToI d n ++ '.' :: sliceI d n (-1))) := by
  have hm : Rx.pglnElem.fullmatch (py "(417)" ++ (d)) = true := (elem_lang _).2 ⟨_, ⟨hd, hl⟩, rfl⟩
  have h1 : (py "(417)" ++ (d)).drop 5 = d := rfl
  unfold fromGs1ElementString
  rw [guard_true hm, ok_bind, h1]
  show new (_ ++ _ ++ _) = _
  simp

theorem from_iff (s : Str) (n : Int) (x : PGLN) : fromGs1ElementString s n = .ok x ↔
    ∃ C I k, (Dec (C ++ (I ++ [k])) ∧ C.length + I.length = 12) ∧ clampIdx 13 n = C.length ∧ s = py "(417)" ++ (C ++ (I ++ [k])) ∧ new (py "urn:epc:id:pgln" ++ ':' :: (C ++ '.' :: (I))) = .ok x := by
  constructor
  · intro h
    have hm : Rx.pglnElem.fullmatch s = true := by
      unfold fromGs1ElementString at h
      exact (guard_bind_ok.1 h).1
    obtain ⟨d, ⟨hd, hl⟩, rfl⟩ := (elem_lang s).1 hm
    rw [from_eq n hd hl] at h
    have hlen : (sliceToI d n).length + (sliceI d n (-1)).length = 12 := by
      obtain ⟨C', I', ⟨⟨_, h1⟩, h2⟩, h3, e, _⟩ := new_iff.1 h
      obtain ⟨e1, e2⟩ := uri2_inj (Dec.no_dot (hd.take _)) h1.no_dot e
      have := h3.1
      rw [← e1, ← e2] at this
      exact this
    obtain ⟨⟨k, hk⟩, hn⟩ := cut_plain hl hlen
    refine ⟨_, _, k, ⟨by rw [← hk]; exact hd, hlen⟩, hn, by rw [← hk], h⟩
  · rintro ⟨C, I, k, ⟨hd, hlen⟩, hn, rfl, h⟩
    have hl : (C ++ (I ++ [k])).length = 13 := by
      simp only [List.length_append, List.length_cons, List.length_nil]; omega
    have hcut := uncut_plain (C := C) (D := I) (k := k) (n := n) (by rw [hlen]; exact hn)
    rw [from_eq n hd hl, hcut.1, hcut.2]
    exact h

end PGLN

namespace GRAI

theorem elem_lang (s : Str) : Rx.graiElem.fullmatch s = true ↔
    ∃ d c, (Dec d ∧ d.length = 13) ∧ ((∀ a ∈ c, a ∈ gs82) ∧ 1 ≤ c.length ∧ c.length ≤ 16) ∧ s = py "(8003)0" ++ (d ++ c) :=
  (fullmatch_iff _ _).trans (lang_elemC _ _ (by decide) _)

theorem from_eq {d c : Str} (n : Int) (hd : Dec d) (hl : d.length = 13) (hc : (∀ a ∈ c, a ∈ gs82) ∧ 1 ≤ c.length ∧ c.length ≤ 16) :
    fromGs1ElementString (py "(8003)0" ++ (d ++ c)) n = new (py "urn:epc:id:grai" ++ ':' :: (sliceToI d n ++ '.' :: (sliceI d n (-1) ++ '.' :: escape c))) := by
  have hm : Rx.graiElem.fullmatch (py "(8003)0" ++ (d ++ c)) = true := (elem_lang _).2 ⟨_, c, ⟨hd, hl⟩, hc, rfl⟩
  have h1 : slice (py "(8003)0" ++ (d ++ c)) 7 20 = d := slice_append rfl (by rw [hl]; rfl)
  have h2 : (py "(8003)0" ++ (d ++ c)).drop 20 = c := drop_append2 (by rw [hl]; rfl)
  unfold fromGs1ElementString
  rw [guard_true hm, ok_bind, h1, h2, ← revertUriEscapes_eq]
  show new (_ ++ _ ++ _ ++ _) = _
  simp

theorem from_iff (s : Str) (n : Int) (x : GRAI) : fromGs1ElementString s n = .ok x ↔
    ∃ C I k c, (Dec (C ++ (I ++ [k])) ∧ C.length + I.length = 12) ∧ ((∀ a ∈ c, a ∈ gs82) ∧ 1 ≤ c.length ∧ c.length ≤ 16) ∧ clampIdx 13 n = C.length ∧ s = py "(8003)0" ++ (C ++ (I ++ [k]) ++ c) ∧ new (py "urn:epc:id:grai" ++ ':' :: (C ++ '.' :: ((I) ++ '.' :: escape c))) = .ok x := by
  constructor
  · intro h
    have hm : Rx.graiElem.fullmatch s = true := by
      unfold fromGs1ElementString at h
      exact (guard_bind_ok.1 h).1
    obtain ⟨d, c, ⟨hd, hl⟩, hc, rfl⟩ := (elem_lang s).1 hm
    rw [from_eq n hd hl hc] at h
    have hlen : (sliceToI d n).length + (sliceI d n (-1)).length = 12 := by
      obtain ⟨C', I', S', ⟨⟨_, h1⟩, h2, _⟩, h3, e, _⟩ := new_iff.1 h
      obtain ⟨e1, e2, _⟩ := uri3_inj (Dec.no_dot (hd.take _)) (Dec.no_dot (dec_slice hd _ _)) h1.no_dot (Dec.no_dot h2) e
      have := h3.1
      rw [← e1, ← e2] at this
      exact this
    obtain ⟨⟨k, hk⟩, hn⟩ := cut_plain hl hlen
    refine ⟨_, _, k, c, ⟨by rw [← hk]; exact hd, hlen⟩, hc, hn, by rw [← hk], h⟩
  · rintro ⟨C, I, k, c, ⟨hd, hlen⟩, hc, hn, rfl, h⟩
    have hl : (C ++ (I ++ [k])).length = 13 := by
      simp only [List.length_append, List.length_cons, List.length_nil]; omega
    have hcut := uncut_plain (C := C) (D := I) (k := k) (n := n) (by rw [hlen]; exact hn)
    rw [from_eq n hd hl hc, hcut.1, hcut.2]
    exact h

end GRAI

namespace GDTI

theorem elem_lang (s : Str) : Rx.gdtiElem.fullmatch s = true ↔
    ∃ d c, (Dec d ∧ d.length = 13) ∧ ((∀ a ∈ c, a ∈ gs82) ∧ 1 ≤ c.length ∧ c.length ≤ 17) ∧ s = py "(253)" ++ (d ++ c) :=
  (fullmatch_iff _ _).trans (lang_elemC _ _ (by decide) _)

theorem from_eq {d c : Str} (n : Int) (hd : Dec d) (hl : d.length = 13) (hc : (∀ a ∈ c, a ∈ gs82) ∧ 1 ≤ c.length ∧ c.length ≤ 17) :
    fromGs1ElementString (py "(253)" ++ (d ++ c)) n = new (py "urn:epc:id:gdti" ++ ':' :: (sliceToI d n ++ '.' :: (sliceI d n (-1) ++ '.' :: escape c))) := by
  have hm : Rx.gdtiElem.fullmatch (py "(253)" ++ (d ++ c)) = true := (elem_lang _).2 ⟨_, c, ⟨hd, hl⟩, hc, rfl⟩
  have h1 : slice (py "(253)" ++ (d ++ c)) 5 18 = d := slice_append rfl (by rw [hl]; rfl)
  have h2 : (py "(253)" ++ (d ++ c)).drop 18 = c := drop_append2 (by rw [hl]; rfl)
  unfold fromGs1ElementString
  rw [guard_true hm, ok_bind, h1, h2, ← revertUriEscapes_eq]
  show new (_ ++ _ ++ _ ++ _) = _
  simp

theorem from_iff (s : Str) (n : Int) (x : GDTI) : fromGs1ElementString s n = .ok x ↔
    ∃ C I k c, (Dec (C ++ (I ++ [k])) ∧ C.length + I.length = 12) ∧ ((∀ a ∈ c, a ∈ gs82) ∧ 1 ≤ c.length ∧ c.length ≤ 17) ∧ clampIdx 13 n = C.length ∧ s = py "(253)" ++ (C ++ (I ++ [k]) ++ c) ∧ new (py "urn:epc:id:gdti" ++ ':' :: (C ++ '.' :: ((I) ++ '.' :: escape c))) = .ok x := by
  constructor
  · intro h
    have hm : Rx.gdtiElem.fullmatch s = true := by
      unfold fromGs1ElementString at h
      exact (guard_bind_ok.1 h).1
    obtain ⟨d, c, ⟨hd, hl⟩, hc, rfl⟩ := (elem_lang s).1 hm
    rw [from_eq n hd hl hc] at h
    have hlen : (sliceToI d n).length + (sliceI d n (-1)).length = 12 := by
      obtain ⟨C', I', S', ⟨⟨_, h1⟩, h2, _⟩, h3, e, _⟩ := new_iff.1 h
      obtain ⟨e1, e2, _⟩ := uri3_inj (Dec.no_dot (hd.take _)) (Dec.no_dot (dec_slice hd _ _)) h1.no_dot (Dec.no_dot h2) e
      have := h3.1
      rw [← e1, ← e2] at this
      exact this
    obtain ⟨⟨k, hk⟩, hn⟩ := cut_plain hl hlen
    refine ⟨_, _, k, c, ⟨by rw [← hk]; exact hd, hlen⟩, hc, hn, by rw [← hk], h⟩
  · rintro ⟨C, I, k, c, ⟨hd, hlen⟩, hc, hn, rfl, h⟩
    have hl : (C ++ (I ++ [k])).length = 13 := by
      simp only [List.length_append, List.length_cons, List.length_nil]; omega
    have hcut := uncut_plain (C := C) (D := I) (k := k) (n := n) (by rw [hlen]; exact hn)
    rw [from_eq n hd hl hc, hcut.1, hcut.2]
    exact h

end GDTI

namespace SGCN

theorem elem_lang (s : Str) : Rx.sgcnElem.fullmatch s = true ↔
    ∃ d c, (Dec d ∧ d.length = 13) ∧ ((∀ a ∈ c, a ∈ gs82) ∧ 1 ≤ c.length ∧ c.length ≤ 12) ∧ s = py "(255)" ++ (d ++ c) :=
  (fullmatch_iff _ _).trans (lang_elemC _ _ (by decide) _)

theorem from_eq {d c : Str} (n : Int) (hd : Dec d) (hl : d.length = 13) (hc : (∀ a ∈ c, a ∈ gs82) ∧ 1 ≤ c.length ∧ c.length ≤ 12) :
    fromGs1ElementString (py "(255)" ++ (d ++ c)) n = new (py "urn:epc:id:sgcn" ++ ':' :: (sliceToI d n ++ '.' :: (sliceI d n (-1) ++ '.' :: escape c))) := by
  have hm : Rx.sgcnElem.fullmatch (py "(255)" ++ (d ++ c)) = true := (elem_lang _).2 ⟨_, c, ⟨hd, hl⟩, hc, rfl⟩
  have h1 : slice (py "(255)" ++ (d ++ c)) 5 18 = d := slice_append rfl (by rw [hl]; rfl)
  have h2 : (py "(255)" ++ (d ++ c)).drop 18 = c := drop_append2 (by rw [hl]; rfl)
  unfold fromGs1ElementString
  rw [guard_true hm, ok_bind, h1, h2, ← revertUriEscapes_eq]
  show new (_ ++ _ ++ _ ++ _) = _
  simp

theorem from_iff (s : Str) (n : Int) (x : SGCN) : fromGs1ElementString s n = .ok x ↔
    ∃ C I k c, (Dec (C ++ (I ++ [k])) ∧ C.length + I.length = 12) ∧ ((∀ a ∈ c, a ∈ gs82) ∧ 1 ≤ c.length ∧ c.length ≤ 12) ∧ clampIdx 13 n = C.length ∧ s = py "(255)" ++ (C ++ (I ++ [k]) ++ c) ∧ new (py "urn:epc:id:sgcn" ++ ':' :: (C ++ '.' :: ((I) ++ '.' :: escape c))) = .ok x := by
  constructor
  · intro h
    have hm : Rx.sgcnElem.fullmatch s = true := by
      unfold fromGs1ElementString at h
      exact (guard_bind_ok.1 h).1
    obtain ⟨d, c, ⟨hd, hl⟩, hc, rfl⟩ := (elem_lang s).1 hm
    rw [from_eq n hd hl hc] at h
    have hlen : (sliceToI d n).length + (sliceI d n (-1)).length = 12 := by
      obtain ⟨C', I', S', ⟨⟨_, h1⟩, h2, _⟩, h3, e, _⟩ := new_iff.1 h
      obtain ⟨e1, e2, _⟩ := uri3_inj (Dec.no_dot (hd.take _)) (Dec.no_dot (dec_slice hd _ _)) h1.no_dot (Dec.no_dot h2) e
      have := h3.1
      rw [← e1, ← e2] at this
      exact this
    obtain ⟨⟨k, hk⟩, hn⟩ := cut_plain hl hlen
    refine ⟨_, _, k, c, ⟨by rw [← hk]; exact hd, hlen⟩, hc, hn, by rw [← hk], h⟩
  · rintro ⟨C, I, k, c, ⟨hd, hlen⟩, hc, hn, rfl, h⟩
    have hl : (C ++ (I ++ [k])).length = 13 := by
      simp only [List.length_append, List.length_cons, List.length_nil]; omega
    have hcut := uncut_plain (C := C) (D := I) (k := k) (n := n) (by rw [hlen]; exact hn)
    rw [from_eq n hd hl hc, hcut.1, hcut.2]
    exact h

end SGCN

namespace GSIN

theorem elem_lang (s : Str) : Rx.gsinElem.fullmatch s = true ↔ ∃ d, (Dec d ∧ d.length = 17) ∧ s = py "(402)" ++ d :=
  (fullmatch_iff _ _).trans (lang_elemB _ _ _)

theorem from_eq {d : Str} (n : Int) (hd : Dec d) (hl : d.length = 17) :
    fromGs1ElementString (py "(402)" ++ d) n =
      new (py "urn:epc:id:gsin" ++ ':' :: (sliceToI (d.take 16) n ++ '.' :: sliceFromI (d.take 16) n)) := by
  have hm : Rx.gsinElem.fullmatch (py "(402)" ++ d) = true := (elem_lang _).2 ⟨_, ⟨hd, hl⟩, rfl⟩
  have h1 : sliceI (py "(402)" ++ d) 5 (-1) = d.take 16 := by
    have hlen : (py "(402)" ++ d).length = 22 := by rw [List.length_append, hl]; rfl
    unfold sliceI
    rw [hlen, show clampIdx 22 5 = 5 from rfl, show clampIdx 22 (-1) = 21 from rfl]
    unfold slice
    rw [List.take_append_of_le_length (l₁ := py "(402)" ++ d) (l₂ := []) (by rw [hlen]; decide) |>.symm, List.append_nil]
    rw [List.take_append, List.drop_append]
    rfl
  unfold fromGs1ElementString
  rw [guard_true hm, ok_bind, h1]
  show new (_ ++ _ ++ _) = _
  simp

theorem from_iff (s : Str) (n : Int) (x : GSIN) : fromGs1ElementString s n = .ok x ↔
    ∃ C I k, (Dec (C ++ (I ++ [k])) ∧ C.length + I.length = 16) ∧ clampIdx 16 n = C.length ∧
      s = py "(402)" ++ (C ++ (I ++ [k])) ∧ new (py "urn:epc:id:gsin" ++ ':' :: (C ++ '.' :: I)) = .ok x := by
  constructor
  · intro h
    have hm : Rx.gsinElem.fullmatch s = true := by
      unfold fromGs1ElementString at h
      exact (guard_bind_ok.1 h).1
    obtain ⟨d, ⟨hd, hl⟩, rfl⟩ := (elem_lang s).1 hm
    rw [from_eq n hd hl] at h
    obtain ⟨k, hk⟩ := last_char hl
    have ht : (d.take 16).length = 16 := by rw [List.length_take]; omega
    have e : sliceToI (d.take 16) n ++ sliceFromI (d.take 16) n = d.take 16 := List.take_append_drop _ _
    refine ⟨_, _, k, ⟨?_, ?_⟩, ?_, ?_, h⟩
    · rw [← List.append_assoc, e, ← hk]; exact hd
    · rw [← List.length_append, e, ht]
    · unfold sliceToI
      have := clampIdx_le' 16 n
      rw [List.length_take, ht]; omega
    · rw [← List.append_assoc (sliceToI _ _), e, ← hk]
  · rintro ⟨C, I, k, ⟨hd, hlen⟩, hn, rfl, h⟩
    have hl : (C ++ (I ++ [k])).length = 17 := by
      simp only [List.length_append, List.length_cons, List.length_nil]; omega
    have ht : (C ++ (I ++ [k])).take 16 = C ++ I := by
      rw [← List.append_assoc]; exact take_append_eq (by rw [List.length_append]; exact hlen)
    have e1 : sliceToI (C ++ I) n = C := by
      unfold sliceToI; rw [List.length_append, hlen, hn]; exact take_append_eq rfl
    have e2 : sliceFromI (C ++ I) n = I := by
      unfold sliceFromI; rw [List.length_append, hlen, hn]; exact drop_append_eq rfl
    rw [from_eq n hd hl, ht, e1, e2]
    exact h

end GSIN

namespace ITIP

theorem elem_lang (s : Str) : Rx.itipElem.fullmatch s = true ↔
    ∃ d c, (Dec d ∧ d.length = 18) ∧ ((∀ a ∈ c, a ∈ gs82) ∧ 1 ≤ c.length ∧ c.length ≤ 20) ∧ s = py "(8006)" ++ (d ++ (py "(21)" ++ c)) :=
  (fullmatch_iff _ _).trans (lang_elemA _ _ _ (by decide) _)

theorem from_eq {i : Char} {d c : Str} (n : Int) (hd : Dec (i :: d)) (hl : (i :: d).length = 18)
    (hc : (∀ a ∈ c, a ∈ gs82) ∧ 1 ≤ c.length ∧ c.length ≤ 20) :
    fromGs1ElementString (py "(8006)" ++ (i :: d ++ (py "(21)" ++ c))) n =
      new (py "urn:epc:id:itip" ++ ':' :: (sliceI (i :: d) 1 (1 + n) ++ '.' :: ((i :: sliceI (i :: d) (1 + n) (-5)) ++ '.' ::
        (slice (i :: d) 14 16 ++ '.' :: ((i :: d).drop 16 ++ '.' :: escape c))))) := by
  have hm : Rx.itipElem.fullmatch (py "(8006)" ++ (i :: d ++ (py "(21)" ++ c))) = true := (elem_lang _).2 ⟨_, c, ⟨hd, hl⟩, hc, rfl⟩
  have h1 : slice (py "(8006)" ++ (i :: d ++ (py "(21)" ++ c))) 6 24 = i :: d := slice_append rfl (by rw [hl]; rfl)
  have h2 : (py "(8006)" ++ (i :: d ++ (py "(21)" ++ c))).drop 28 = c := drop_append3 (by rw [hl]; rfl)
  have h3 : sliceI (i :: d) (-4) (-2) = slice (i :: d) 14 16 := by unfold sliceI; rw [hl]; rfl
  have h4 : sliceFromI (i :: d) (-2) = (i :: d).drop 16 := by unfold sliceFromI; rw [hl]; rfl
  unfold fromGs1ElementString
  rw [guard_true hm, ok_bind, h1, h2, ← revertUriEscapes_eq, ← h3, ← h4]
  show new (_ ++ _ ++ _ ++ _ ++ _ ++ _) = _
  simp

theorem from_iff (s : Str) (n : Int) (x : ITIP) : fromGs1ElementString s n = .ok x ↔
    ∃ i C I k A B c, (Dec (i :: (C ++ (I ++ (k :: (A ++ B))))) ∧ C.length + I.length = 12 ∧ A.length = 2 ∧ B.length = 2) ∧
      ((∀ a ∈ c, a ∈ gs82) ∧ 1 ≤ c.length ∧ c.length ≤ 20) ∧ clampIdx 18 (1 + n) = C.length + 1 ∧
      s = py "(8006)" ++ (i :: (C ++ (I ++ (k :: (A ++ B)))) ++ (py "(21)" ++ c)) ∧
      new (py "urn:epc:id:itip" ++ ':' :: (C ++ '.' :: ((i :: I) ++ '.' :: (A ++ '.' :: (B ++ '.' :: escape c))))) = .ok x := by
  constructor
  · intro h
    have hm : Rx.itipElem.fullmatch s = true := by
      unfold fromGs1ElementString at h
      exact (guard_bind_ok.1 h).1
    obtain ⟨d, c, ⟨hd, hl⟩, hc, rfl⟩ := (elem_lang s).1 hm
    cases d with
    | nil => simp at hl
    | cons i d => ?_
    rw [from_eq n hd hl hc] at h
    have hA : (slice (i :: d) 14 16).length = 2 := by rw [length_slice (by omega)]
    have hB : ((i :: d).drop 16).length = 2 := by rw [List.length_drop, hl]
    have hlen : (sliceI (i :: d) 1 (1 + n)).length + (i :: sliceI (i :: d) (1 + n) (-5)).length = 13 := by
      obtain ⟨C', I', A', B', S', ⟨⟨_, h1⟩, ⟨_, h2⟩, ⟨_, h3⟩, ⟨_, h4⟩, _⟩, h5, e, _⟩ := new_iff.1 h
      obtain ⟨e1, e2, e3⟩ := uri3_inj (Dec.no_dot (dec_slice hd _ _))
        (Dec.no_dot (Dec.cons.2 ⟨hd i List.mem_cons_self, dec_slice hd _ _⟩)) h1.no_dot h2.no_dot e
      obtain ⟨e4, e5⟩ := append_sep_inj (Dec.no_dot (dec_slice hd _ _)) h3.no_dot e3
      obtain ⟨e6, e7⟩ := append_sep_inj (Dec.no_dot (hd.drop _)) h4.no_dot e5
      have := h5.1
      have e1' : sliceI (i :: d) 1 (1 + n) = C' := e1
      have e2' : i :: sliceI (i :: d) (1 + n) (-5) = I' := e2
      rw [← e1', ← e2', ← e4, ← e6, hA, hB] at this
      omega
    have h5 : clampIdx 18 (-5) = 13 := rfl
    have h1' : clampIdx 18 1 = 1 := rfl
    have hj := clampIdx_le' 18 (1 + n)
    have e1 : sliceI (i :: d) 1 (1 + n) = slice (i :: d) 1 (clampIdx 18 (1 + n)) := by unfold sliceI; rw [hl, h1']
    have e2 : sliceI (i :: d) (1 + n) (-5) = slice (i :: d) (clampIdx 18 (1 + n)) 13 := by unfold sliceI; rw [hl, h5]
    rw [e1, e2] at h hlen
    rw [List.length_cons] at hlen
    have hjoin := slice_join_of_length (d := i :: d) (i := 1) (j := clampIdx 18 (1 + n)) (k := 13) (by omega) (by omega) (by decide)
      (by omega)
    have hcut : ∃ k, i :: d = i :: (slice (i :: d) 1 13 ++ (k :: (slice (i :: d) 14 16 ++ (i :: d).drop 16))) := by
      have hd' : d.length = 17 := by simpa using hl
      refine ⟨d[12]'(by omega), ?_⟩
      have e : slice (i :: d) 14 16 ++ (i :: d).drop 16 = d.drop 13 := by
        have := slice_join (i :: d) (by decide : 14 ≤ 16) (by decide : 16 ≤ 18)
        rw [← hl, slice_to_length, slice_to_length] at this
        simpa using this
      rw [e]
      congr 1
      rw [← List.drop_eq_getElem_cons]
      exact (List.take_append_drop 12 d).symm
    obtain ⟨k, hk⟩ := hcut
    rw [← hjoin, List.append_assoc] at hk
    refine ⟨i, _, _, k, _, _, c, ⟨by rw [← hk]; exact hd, by omega, hA, hB⟩, hc, ?_, by rw [← hk], h⟩
    rw [length_slice (by omega), length_slice (by omega)] at hlen
    rw [length_slice (by omega)]
    omega
  · rintro ⟨i, C, I, k, A, B, c, ⟨hd, hlen, hA, hB⟩, hc, hn, rfl, h⟩
    have hl : (i :: (C ++ (I ++ (k :: (A ++ B))))).length = 18 := by
      simp only [List.length_append, List.length_cons]; omega
    have e1 : sliceI (i :: (C ++ (I ++ (k :: (A ++ B))))) 1 (1 + n) = C := by
      refine sliceI_append (a := [i]) (b := C) (c := I ++ (k :: (A ++ B))) ?_ ?_
      · show clampIdx (i :: (C ++ (I ++ (k :: (A ++ B))))).length 1 = 1
        rw [hl]; rfl
      · show clampIdx (i :: (C ++ (I ++ (k :: (A ++ B))))).length (1 + n) = 1 + C.length
        rw [hl, hn]; omega
    have e2 : sliceI (i :: (C ++ (I ++ (k :: (A ++ B))))) (1 + n) (-5) = I := by
      refine sliceI_append (a := i :: C) (b := I) (c := k :: (A ++ B)) ?_ ?_
      · show clampIdx (i :: (C ++ (I ++ (k :: (A ++ B))))).length (1 + n) = (i :: C).length
        rw [hl, hn]; rfl
      · show clampIdx (i :: (C ++ (I ++ (k :: (A ++ B))))).length (-5) = (i :: C).length + I.length
        rw [hl, List.length_cons]
        show 13 = _
        omega
    have e3 : slice (i :: (C ++ (I ++ (k :: (A ++ B))))) 14 16 = A := by
      have := slice_append (a := i :: (C ++ (I ++ [k]))) (b := A) (c := B) (lo := 14) (hi := 16)
        (by simp only [List.length_append, List.length_cons, List.length_nil]; omega)
        (by simp only [List.length_append, List.length_cons, List.length_nil]; omega)
      simpa using this
    have e4 : (i :: (C ++ (I ++ (k :: (A ++ B))))).drop 16 = B := by
      have := drop_append_eq (a := i :: (C ++ (I ++ (k :: A)))) (b := B) (n := 16)
        (by simp only [List.length_append, List.length_cons]; omega)
      simpa using this
    rw [from_eq n hd hl hc, e1, e2, e3, e4]
    exact h

end ITIP

/-- Cutting `AI body` behind `k` characters and again at an arbitrary integer position. -/
theorem cut_body {p b : Str} {k : Nat} (hp : p.length = k) {m : Int} (hne : sliceI (p ++ b) k m ≠ []) :
    (p ++ b) = p ++ (sliceI (p ++ b) k m ++ sliceFromI (p ++ b) m) ∧
      clampIdx (p ++ b).length m = k + (sliceI (p ++ b) k m).length := by
  have hl : (p ++ b).length = k + b.length := by rw [List.length_append, hp]
  have hj := clampIdx_le' (p ++ b).length m
  have hk : clampIdx (p ++ b).length (k : Int) = k := clampIdx_nat (by omega)
  have e1 : sliceI (p ++ b) k m = slice (p ++ b) k (clampIdx (p ++ b).length m) := by unfold sliceI; rw [hk]
  have e2 : sliceFromI (p ++ b) m = slice (p ++ b) (clampIdx (p ++ b).length m) (p ++ b).length := by
    rw [slice_to_length]; rfl
  have hlt : k < clampIdx (p ++ b).length m := by
    rw [e1, ← List.length_pos_iff, length_slice hj] at hne; omega
  rw [e1, e2, slice_join _ (by omega) hj, slice_to_length, drop_append_eq hp, length_slice hj]
  exact ⟨rfl, by omega⟩

theorem uncut_body {p C r : Str} {k : Nat} (hp : p.length = k) {m : Int}
    (h : clampIdx (p ++ (C ++ r)).length m = k + C.length) :
    sliceI (p ++ (C ++ r)) k m = C ∧ sliceFromI (p ++ (C ++ r)) m = r := by
  constructor
  · refine sliceI_append ?_ ?_
    · rw [hp]; exact clampIdx_nat (by rw [List.length_append]; omega)
    · rw [h, hp]
  · unfold sliceFromI; rw [h]; exact drop_append2 (by rw [hp])

theorem sliceI_mem {s : Str} {i j : Int} {a : Char} (h : a ∈ sliceI s i j) : a ∈ s := by
  unfold sliceI slice at h
  exact List.mem_of_mem_take (List.mem_of_mem_drop h)

namespace GIAI

theorem elem_lang (s : Str) : Rx.giaiElem.fullmatch s = true ↔
    ∃ d c, (Dec d ∧ 6 ≤ d.length ∧ d.length ≤ 12) ∧ ((∀ a ∈ c, a ∈ gs82) ∧ 1 ≤ c.length ∧ c.length ≤ 24) ∧ s = py "(8004)" ++ (d ++ c) :=
  (fullmatch_iff _ _).trans (lang_elemD _ (by decide) _)

theorem from_eq {s : Str} (n : Int) (hm : Rx.giaiElem.fullmatch s = true) :
    fromGs1ElementString s n =
      new (py "urn:epc:id:giai" ++ ':' :: (sliceI s (6 : Nat) (6 + n) ++ '.' :: escape (sliceFromI s (6 + n)))) := by
  unfold fromGs1ElementString
  rw [guard_true hm, ok_bind, ← revertUriEscapes_eq]
  show new (_ ++ _ ++ _) = _
  simp

theorem from_iff (s : Str) (n : Int) (x : GIAI) : fromGs1ElementString s n = .ok x ↔
    ∃ C c, Rx.giaiElem.fullmatch s = true ∧ clampIdx s.length (6 + n) = 6 + C.length ∧ s = py "(8004)" ++ (C ++ c) ∧
      new (py "urn:epc:id:giai" ++ ':' :: (C ++ '.' :: escape c)) = .ok x := by
  constructor
  · intro h
    have hm : Rx.giaiElem.fullmatch s = true := by
      unfold fromGs1ElementString at h
      exact (guard_bind_ok.1 h).1
    obtain ⟨d, c, hd, hc, rfl⟩ := (elem_lang s).1 hm
    rw [from_eq n hm] at h
    have hne : sliceI (py "(8004)" ++ (d ++ c)) (6 : Nat) (6 + n) ≠ [] := by
      intro e
      rw [e] at h
      obtain ⟨C', S', ⟨⟨h0, h1⟩, _⟩, _, e', _⟩ := new_iff.1 h
      have e'' := List.append_cancel_left e'
      cases C' with
      | nil => exact h0 rfl
      | cons a C' =>
        have h2 := h1 a List.mem_cons_self
        simp only [List.nil_append, List.cons_append, List.cons.injEq, true_and] at e''
        rw [← e''.1] at h2
        revert h2; decide +kernel
    have hcut := cut_body (p := py "(8004)") (b := d ++ c) (k := 6) rfl hne
    exact ⟨_, _, hm, hcut.2, hcut.1, h⟩
  · rintro ⟨C, c, hm, hn, rfl, h⟩
    have hcut := uncut_body (p := py "(8004)") (C := C) (r := c) (k := 6) rfl hn
    rw [from_eq n hm, hcut.1, hcut.2]
    exact h

end GIAI

namespace GINC

theorem elem_lang (s : Str) : Rx.gincElem.fullmatch s = true ↔
    ∃ d c, (Dec d ∧ 6 ≤ d.length ∧ d.length ≤ 12) ∧ ((∀ a ∈ c, a ∈ gs82) ∧ 1 ≤ c.length ∧ c.length ≤ 24) ∧ s = py "(401)" ++ (d ++ c) :=
  (fullmatch_iff _ _).trans (lang_elemD _ (by decide) _)

theorem from_eq {s : Str} (n : Int) (hm : Rx.gincElem.fullmatch s = true) :
    fromGs1ElementString s n =
      new (py "urn:epc:id:ginc" ++ ':' :: (sliceI s (5 : Nat) (5 + n) ++ '.' :: escape (sliceFromI s (5 + n)))) := by
  unfold fromGs1ElementString
  rw [guard_true hm, ok_bind, ← revertUriEscapes_eq]
  show new (_ ++ _ ++ _) = _
  simp

theorem from_iff (s : Str) (n : Int) (x : GINC) : fromGs1ElementString s n = .ok x ↔
    ∃ C c, Rx.gincElem.fullmatch s = true ∧ clampIdx s.length (5 + n) = 5 + C.length ∧ s = py "(401)" ++ (C ++ c) ∧
      new (py "urn:epc:id:ginc" ++ ':' :: (C ++ '.' :: escape c)) = .ok x := by
  constructor
  · intro h
    have hm : Rx.gincElem.fullmatch s = true := by
      unfold fromGs1ElementString at h
      exact (guard_bind_ok.1 h).1
    obtain ⟨d, c, hd, hc, rfl⟩ := (elem_lang s).1 hm
    rw [from_eq n hm] at h
    have hne : sliceI (py "(401)" ++ (d ++ c)) (5 : Nat) (5 + n) ≠ [] := by
      intro e
      rw [e] at h
      obtain ⟨C', S', ⟨⟨h0, h1⟩, _⟩, _, e', _⟩ := new_iff.1 h
      have e'' := List.append_cancel_left e'
      cases C' with
      | nil => exact h0 rfl
      | cons a C' =>
        have h2 := h1 a List.mem_cons_self
        simp only [List.nil_append, List.cons_append, List.cons.injEq, true_and] at e''
        rw [← e''.1] at h2
        revert h2; decide +kernel
    have hcut := cut_body (p := py "(401)") (b := d ++ c) (k := 5) rfl hne
    exact ⟨_, _, hm, hcut.2, hcut.1, h⟩
  · rintro ⟨C, c, hm, hn, rfl, h⟩
    have hcut := uncut_body (p := py "(401)") (C := C) (r := c) (k := 5) rfl hn
    rw [from_eq n hm, hcut.1, hcut.2]
    exact h

end GINC

/-! ### CPI -/

theorem isCpiElem_iff (c : Char) : Rx.isCpiElem c = true ↔ c ∈ gs39 := by
  have hl : ∀ c, Rx.isCpiElem c = true → c.toNat < 128 := by
    intro c h
    simp only [Rx.isCpiElem, Bool.or_eq_true, beq_iff_eq] at h
    rcases h with (((h | h) | rfl) | rfl) | rfl
    · exact isDigitA_lt h
    · simp only [Rx.isUpperA, Bool.and_eq_true, decide_eq_true_eq] at h
      have h' : c.toNat ≤ 90 := h.2
      omega
    · decide
    · decide
    · decide
  exact (mem_ascii_list (by decide) (by decide +kernel) (fun _ => hl _) c).symm

theorem replaceCpi_escape39' {raw : Str} (hp : ∀ c ∈ raw, c ≠ '%') : CPI.replaceCpiEscapes (escape39 raw) = raw := by
  unfold CPI.replaceCpiEscapes
  have s1 : replaceAll (py "%23") (py "#") (raw.flatMap escChar39) = raw.flatMap (fun c => if c = '/' then py "%2F" else [c]) := by
    apply replaceAll_escape
    intro x hx
    by_cases h1 : x = '#'
    · subst h1; left; exact ⟨rfl, rfl⟩
    · by_cases h2 : x = '/'
      · subst h2; right; right; exact ⟨rfl, '2', 'F', rfl, by decide, by decide, by decide⟩
      · right; left
        refine ⟨?_, x, hp x hx, ?_⟩ <;> simp [escChar39, h1, h2]
  have s2 : replaceAll (py "%2F") (py "/") (raw.flatMap (fun c => if c = '/' then py "%2F" else [c])) = raw.flatMap (fun c => [c]) := by
    apply replaceAll_escape
    intro x hx
    by_cases h2 : x = '/'
    · subst h2; left; exact ⟨rfl, rfl⟩
    · right; left
      refine ⟨?_, x, hp x hx, ?_⟩ <;> simp [h2]
  rw [show escape39 raw = raw.flatMap escChar39 from rfl, s1, s2]
  simp

theorem replaceCpi_escape39 {raw : Str} (h : ∀ c ∈ raw, c ∈ gs39) : CPI.replaceCpiEscapes (escape39 raw) = raw :=
  replaceCpi_escape39' (by
    rintro c hc rfl
    exact absurd (h _ hc) (by decide))

theorem escape39_no_dot' {raw : Str} (h : '.' ∉ raw) : '.' ∉ escape39 raw := by
  intro hm
  obtain ⟨c, hc, hm⟩ := List.mem_flatMap.1 hm
  unfold escChar39 at hm
  split at hm
  · simp at hm
  · split at hm
    · simp at hm
    · simp only [List.mem_singleton] at hm
      exact h (hm ▸ hc)

namespace CPI

theorem elem_lang (s : Str) : Rx.cpiElem.fullmatch s = true ↔
    ∃ d r t, (Dec d ∧ 6 ≤ d.length ∧ d.length ≤ 12) ∧ ((∀ a ∈ r, a ∈ gs39) ∧ r.length ≤ 24) ∧ (Dec t ∧ 1 ≤ t.length ∧ t.length ≤ 12) ∧
      s = py "(8010)" ++ (d ++ (r ++ (py "(8011)" ++ t))) := by
  rw [fullmatch_iff]
  show Lang (.seq (lit _) (.seq (Re.range Rx.digit 6 12) (.seq (Re.range Rx.elemCharCpi 0 24) (.seq (lit _) (Re.range Rx.digit 1 12))))) s ↔ _
  rw [lang_lit_seq]
  have hcp : ∀ s, Lang (Re.range Rx.elemCharCpi 0 24) s ↔ ((∀ a ∈ s, a ∈ gs39) ∧ s.length ≤ 24) := by
    intro s
    rw [show Rx.elemCharCpi = .cls Rx.isCpiElem from rfl, lang_range_cls _ (by decide)]
    simp only [isCpiElem_iff, Nat.zero_le, true_and]
    exact And.comm
  simp only [lang_seq (Re.range Rx.digit 6 12), lang_seq (Re.range Rx.elemCharCpi 0 24), lang_lit_seq,
    lang_digitRange (by decide : 6 ≤ 12), lang_digitRange (by decide : 1 ≤ 12), hcp]
  constructor
  · rintro ⟨_, rfl, d, _, rfl, hd, r, _, rfl, hr, t, rfl, ht⟩; exact ⟨d, r, t, hd, hr, ht, rfl⟩
  · rintro ⟨d, r, t, hd, hr, ht, rfl⟩; exact ⟨_, rfl, d, _, rfl, hd, r, _, rfl, hr, t, rfl, ht⟩

theorem from_eq {b t : Str} (n : Int) (hm : Rx.cpiElem.fullmatch (py "(8010)" ++ (b ++ (py "(8011)" ++ t))) = true)
    (hb : '(' ∉ b) (ht : '(' ∉ t) :
    fromGs1ElementString (py "(8010)" ++ (b ++ (py "(8011)" ++ t))) n =
      new (py "urn:epc:id:cpi" ++ ':' :: (sliceToI b n ++ '.' :: (escape39 (sliceFromI b n) ++ '.' :: t))) := by
  have ht1 : splitNoCap (parenLen 4) t = [t] := by
    have := splitNoCap_append (k := 4) (s := []) ht
    rw [List.append_nil] at this
    rw [this]
    simp [splitNoCap, splitNoCapGo]
  have hs : splitNoCap (parenLen 4) (py "(8010)" ++ (b ++ (py "(8011)" ++ t))) = [[], b, t] :=
    (splitNoCap_two (k := 4) (m := py "8010") (m' := py "8011") (c := t) rfl (by decide) rfl (by decide) hb).trans (by rw [ht1])
  unfold fromGs1ElementString
  rw [guard_true hm, ok_bind, hs, ← replace39]
  show new (_ ++ _ ++ _ ++ _) = _
  simp [revertCpiEscapes]

theorem gs39_no_paren {r : Str} (h : ∀ a ∈ r, a ∈ gs39) : '(' ∉ r := fun hx => absurd (h _ hx) (by decide)

theorem from_iff (s : Str) (n : Int) (x : CPI) : fromGs1ElementString s n = .ok x ↔
    ∃ C r t, Rx.cpiElem.fullmatch s = true ∧ ('(' ∉ C ++ r ∧ '(' ∉ t) ∧ clampIdx (C ++ r).length n = C.length ∧
      s = py "(8010)" ++ (C ++ r ++ (py "(8011)" ++ t)) ∧
      new (py "urn:epc:id:cpi" ++ ':' :: (C ++ '.' :: (escape39 r ++ '.' :: t))) = .ok x := by
  constructor
  · intro h
    have hm : Rx.cpiElem.fullmatch s = true := by
      unfold fromGs1ElementString at h
      exact (guard_bind_ok.1 h).1
    obtain ⟨d, r, t, hd, hr, ht, rfl⟩ := (elem_lang s).1 hm
    rw [← List.append_assoc d] at hm h ⊢
    have hb : '(' ∉ d ++ r := by
      intro hx
      rcases List.mem_append.1 hx with hx | hx
      · exact hd.1.no_paren hx
      · exact gs39_no_paren hr.1 hx
    rw [from_eq n hm hb ht.1.no_paren] at h
    have e : sliceToI (d ++ r) n ++ sliceFromI (d ++ r) n = d ++ r := List.take_append_drop _ _
    refine ⟨_, _, t, hm, ⟨by rw [e]; exact hb, ht.1.no_paren⟩, ?_, by rw [e], h⟩
    rw [e]
    unfold sliceToI
    have := clampIdx_le' (d ++ r).length n
    rw [List.length_take]; omega
  · rintro ⟨C, r, t, hm, ⟨hb, ht⟩, hn, rfl, h⟩
    have e1 : sliceToI (C ++ r) n = C := by unfold sliceToI; rw [hn]; exact take_append_eq rfl
    have e2 : sliceFromI (C ++ r) n = r := by unfold sliceFromI; rw [hn]; exact drop_append_eq rfl
    rw [from_eq n hm hb ht, e1, e2]
    exact h

end CPI

end Epc
