private theorem pref_eq {C C' c S : Str} {k m : Nat} (hm : m = k + (C.length + c.length)) (h : clampIdx m ((k : Int) + (C'.length : Int)) = k + C.length)
    (e : C ++ '.' :: escape c = C' ++ '.' :: S) : C = C' := by
  have hl : C.length = C'.length := by
    unfold clampIdx at h
    by_cases hk : k + C'.length ≤ m
    · rw [if_neg (by omega)] at h; omega
    · rw [if_neg (by omega)] at h
      have : c.length = 0 := by omega
      have : c = [] := List.length_eq_zero_iff.1 this
      subst this
      have := congrArg List.length e
      simp [escape] at this
      omega
  exact (List.append_inj e hl).1

/-- GIAI. -/
theorem C78_giai (u : Str) (x : GIAI) (hu : GIAI.new u = .ok x) :
    (∀ r, Relay (.giai x) r → r = .ok (.giai x)) ↔ Portable (.giai x) := by
  rw [relay_iff]
  have hc : Cls.new .giai u = .ok (.giai x) := by show (GIAI.new u).map _ = _; rw [hu]; rfl
  have hx : x.epcUri = u := (Cls.new_facts hc).2.1
  constructor
  · intro H
    show _ ∧ _
    obtain ⟨s, hs, -⟩ := C46_giai u x hu
    obtain ⟨x', h2, e⟩ := map_ok_iff.1 (elem_sent (C := x.companyPref) hc H hs rfl)
    cases e
    have hcan : Canonical x.assetRef := by
      obtain ⟨C, raw, -, hcl, rfl, h3⟩ := (GIAI.from_iff s _ x).1 h2
      obtain ⟨C', S, ⟨⟨-, hC⟩, hS⟩, ⟨-, hv, -⟩, e', rfl⟩ := GIAI.new_iff.1 h3
      have e2 : C ++ '.' :: escape raw = C' ++ '.' :: S := by simpa using e'
      have eC := pref_eq (k := 6) (by simp; omega) hcl e2
      subst eC
      have eS : S = escape raw := by
        have := List.append_cancel_left e2
        injection this with _ this
        exact this.symm
      have hne : (split ':' S).headD [] ≠ [] := by
        intro hn
        rw [hn] at hv
        revert hv; decide
      exact canonical_raw (gs3a3_head hS hne) (by subst eS; exact split_escape_colon raw)
    obtain ⟨y, b, h, s', hy, hb, hh, hs', rb, -, -⟩ := C68_giai202 u x 0 hu hcan
    have e := decoded_eq (inj := Scheme.giai) (fun _ _ e => Scheme.giai.inj e) (fb := GIAI.fromBinary) (y := y) H
      (show Forms _ (.ok b) _ _ (.giai x) from ⟨.giai202, 0, C47_giai u x 0 hu, hb, rfl, rfl⟩) ((C39_giai x .giai202 0).1 b hb) (by simpa using rb [])
    subst e
    have hy' : y.epcUri = py "urn:epc:id:giai:" ++ (asciiDigits y.companyPref ++ '.' :: y.assetRef) :=
      (Cls.new_facts (c := .giai) (x := .giai y) (by show (GIAI.new _).map _ = _; rw [hy]; rfl)).2.1
    obtain ⟨C, S, ⟨⟨-, hC⟩, hS⟩, -, -, rfl⟩ := GIAI.new_iff.1 hu
    dsimp only at hy' hcan ⊢
    rw [hy']
    have hn := (split_head_form ':' S).choose_spec.2.1
    refine ⟨ascii_append.2 ⟨by decide, ascii_append.2 ⟨ascii_of_dec hC, ascii_cons.2 ⟨by decide, fun c hc => gs3a3_ascii hS c (headD_split_mem hc)⟩⟩⟩, ?_, ?_⟩
    · rw [show (16 : Nat) = (py "urn:epc:id:giai:").length from rfl, List.drop_left]
      intro hm
      rcases List.mem_append.1 hm with hm | hm
      · exact (dec_asciiDigits hC).no_colon hm
      · rcases List.mem_cons.1 hm with hm | hm
        · cases hm
        · exact hn hm
    · obtain ⟨raw, -, -, hr⟩ := hcan
      exact ⟨raw, hr⟩
  · rintro ⟨ha, hn, raw, hraw⟩
    rw [hx] at ha hn
    obtain ⟨C, S, ⟨⟨-, hC⟩, hS⟩, -, e', ex⟩ := GIAI.new_iff.1 hu
    have hS' : ':' ∉ S := by
      intro hm
      apply hn
      rw [e']
      show ':' ∈ C ++ '.' :: S
      simp [hm]
    have hxS : x.assetRef = S := by
      rw [ex]
      show (split ':' S).headD [] = S
      rw [split_notMem hS']; rfl
    have hxC : x.companyPref = C := by rw [ex]
    have hcan : Canonical x.assetRef := canonical_raw (hxS ▸ hS) hraw
    have aC : asciiDigits x.companyPref = C := by
      rw [hxC]
      exact asciiDigits_ascii (fun c hc => ha c (by rw [e']; simp [hc]))
    have eu : u = py "urn:epc:id:giai:" ++ (asciiDigits x.companyPref ++ '.' :: x.assetRef) := by
      rw [aC, hxS, e']; simp
    have hnc : ':' ∉ asciiDigits x.companyPref ++ '.' :: x.assetRef := by
      rw [aC, hxS]
      simp [hS', hC.no_colon]
    refine sent_ok hc ?_ ?_
    · rintro s C' hs rfl
      have eu' : u = py "urn:epc:id:giai:" ++ C ++ '.' :: escape raw := by rw [e', ← hraw, hxS]; simp
      have hr : ':' ∉ raw := by
        intro hm
        apply hS'
        rw [← hxS, hraw]
        exact List.mem_flatMap.2 ⟨':', hm, by decide⟩
      obtain ⟨s', hs', hr⟩ := C32_giai_partial C raw x (eu' ▸ hu) hC.no_dot hr
      have e : s = s' := Except.ok.inj (hs.symm.trans hs')
      subst e
      exact elem_back hc hs (by show (GIAI.fromGs1ElementString _ _).map _ = _; rw [hxC, hr]; rfl)
    · rintro t b h s ⟨cs, f, ht, rfl, rfl, rfl⟩
      refine ⟨(C18_parser_iff t _).2 ⟨.giai, by show (GIAI.fromTagUri t).map _ = _; rw [C16_giai_partial _ x cs f t hnc (eu ▸ hu) ht]; rfl⟩, ?_⟩
      cases cs
      · obtain ⟨y, b, h, s, hy, hb, hh, hs, rb, rh, rs⟩ := C68_giai96 u t x f hu ht
        rw [← eu, hu] at hy
        cases hy
        exact forms_back (C39_giai x .giai96 f) hb hh hs (by simpa using rb []) rh rs
      · obtain ⟨y, b, h, s, hy, hb, hh, hs, rb, rh, rs⟩ := C68_giai202 u x f hu hcan
        rw [← eu, hu] at hy
        cases hy
        exact forms_back (C39_giai x .giai202 f) hb hh hs (by simpa using rb []) rh rs

private theorem forms_none {X : Type} {inj : X → Scheme} {x : X} {B H S : Except Err Str} (hB : B = .error .convert) (hH : H = .error .convert)
    (hS : S = .error .convert) :
    (∀ b', B = .ok b' → binaryToTagEncodable b' = .ok (inj x)) ∧ (∀ h', H = .ok h' → hexToTagEncodable h' = .ok (inj x)) ∧
      (∀ s', S = .ok s' → base64ToTagEncodable s' = .ok (inj x)) := by
  subst hB; subst hH; subst hS
  exact ⟨nofun, nofun, nofun⟩

private theorem two_digits {s : Str} (h : Dec s) (hl : s.length = 2) : number (asciiDigits s) = unumber s ∧ unumber s ≤ 99 := by
  have e := number_asciiDigits ((uDigits_iff s).2 h)
  refine ⟨e, ?_⟩
  have := number_lt (digits_of_dec_ascii (dec_asciiDigits h) (ascii_of_dec h))
  rw [e, length_asciiDigits, hl] at this
  omega

/-- ITIP. -/
theorem C78_itip (u : Str) (x : ITIP) (hu : ITIP.new u = .ok x) :
    (∀ r, Relay (.itip x) r → r = .ok (.itip x)) ↔ Portable (.itip x) := by
  rw [relay_iff]
  have hc : Cls.new .itip u = .ok (.itip x) := by show (ITIP.new u).map _ = _; rw [hu]; rfl
  have hx : x.epcUri = u := (Cls.new_facts hc).2.1
  have hd : (x.piece ≠ [] ∧ Dec x.piece) ∧ (x.total ≠ [] ∧ Dec x.total) ∧ Lang Rx.gs3a3 x.serial := by
    obtain ⟨C, I, A, B, S, ⟨-, -, hA, hB, hS⟩, -, e', rfl⟩ := ITIP.new_iff.1 hu
    exact ⟨hA, hB, hS⟩
  constructor
  · intro H
    show _ ∧ _
    obtain ⟨s, hs, -⟩ := C46_itip u x hu
    obtain ⟨x', h2, e⟩ := map_ok_iff.1 (elem_sent (C := x.companyPref) hc H hs rfl)
    cases e
    have hser : x.piece.length = 2 ∧ x.total.length = 2 ∧ ∃ raw, x.serial = escape raw := by
      obtain ⟨i, C, I, k, A, B, raw, ⟨hdd, -, lA, lB⟩, -, -, -, h3⟩ := (ITIP.from_iff s _ x).1 h2
      obtain ⟨C', I', A', B', S', ⟨⟨-, hC'⟩, ⟨-, hI'⟩, ⟨-, hA'⟩, ⟨-, hB'⟩, -⟩, -, e', rfl⟩ := ITIP.new_iff.1 h3
      have hd' := Dec.cons.1 hdd
      have hIk := Dec.append.1 (Dec.append.1 hd'.2).2
      have hAB := Dec.append.1 (Dec.cons.1 hIk.2).2
      have e3 := uri3_inj (Dec.append.1 hd'.2).1.no_dot (Dec.cons.2 ⟨hd'.1, hIk.1⟩ : Dec (i :: I)).no_dot hC'.no_dot hI'.no_dot e'
      have e4 := append_sep_inj hAB.1.no_dot hA'.no_dot e3.2.2
      have e5 := append_sep_inj hAB.2.no_dot hB'.no_dot e4.2
      dsimp only
      exact ⟨e4.1 ▸ lA, e5.1 ▸ lB, raw, e5.2.symm⟩
    refine ⟨?_, hser⟩
    obtain ⟨lA, lB, raw, hraw⟩ := hser
    have hcan : Canonical x.serial := canonical_raw hd.2.2 hraw
    have n1 := two_digits hd.1.2 lA
    have n2 := two_digits hd.2.1.2 lB
    by_cases h99 : unumber x.piece = 99 ∨ unumber x.total = 99
    · exact .inr h99
    refine .inl ?_
    obtain ⟨t, ht⟩ : ∃ t, x.tagUri .itip212 0 = .ok t := by
      obtain ⟨C, I, A, B, S, -, -, rfl, -⟩ := ITIP.new_iff.1 hu
      exact ⟨_, C47_itip _ x 0 hu⟩
    obtain ⟨y, b, h, s', hy, hb, hh, hs', rb, -, -⟩ := C68_itip212 u x 0 hu ⟨lA, by omega⟩ ⟨lB, by omega⟩ hcan
    have e := decoded_eq (inj := Scheme.itip) (fun _ _ e => Scheme.itip.inj e) (fb := ITIP.fromBinary) (y := y) H
      (show Forms t (.ok b) _ _ (.itip x) from ⟨.itip212, 0, ht, hb, rfl, rfl⟩) ((C39_itip x .itip212 0).1 b hb) (by simpa using rb [])
    subst e
    have e1 : asciiDigits u = u := by
      have := (Cls.new_facts (c := .itip) (x := .itip y) (u := asciiDigits u) (by show (ITIP.new _).map _ = _; rw [hy]; rfl)).2.1
      exact (this.symm.trans hx)
    obtain ⟨_, ha, -⟩ := C63_itip u y hu
    rw [hx, ← e1]
    exact ha
  · rintro ⟨ha, lA, lB, raw, hraw⟩
    rw [hx] at ha
    have hcan : Canonical x.serial := canonical_raw hd.2.2 hraw
    have n1 := two_digits hd.1.2 lA
    have n2 := two_digits hd.2.1.2 lB
    refine sent_ok hc ?_ ?_
    · rintro s C hs rfl
      obtain ⟨s', hs', hr⟩ := C32_itip_partial u x raw hu hraw lA lB
      have e : s = s' := Except.ok.inj (hs.symm.trans hs')
      subst e
      exact elem_back hc hs (by show (ITIP.fromGs1ElementString _ _).map _ = _; rw [hr]; rfl)
    · rintro t b h s ⟨cs, f, ht, rfl, rfl, rfl⟩
      refine ⟨(C18_parser_iff t _).2 ⟨.itip, by show (ITIP.fromTagUri t).map _ = _; rw [C16_itip u x cs f t hu ht]; rfl⟩, ?_⟩
      by_cases h99 : unumber x.piece = 99 ∨ unumber x.total = 99
      · have hB : x.binary cs f = .error .convert := by
          cases cs
          · exact (C69_itip110 hu).1 (by omega)
          · exact (C69_itip212 hu).1 (by omega)
        exact forms_none hB (by show hexOf _ = _; rw [hB]; rfl) (by show base64Of _ = _; rw [hB]; rfl)
      have ha : Ascii u := by
        rcases ha with ha | ha
        · exact ha
        · exact absurd ha h99
      cases cs
      · obtain ⟨y, b, h, s, hy, hb, hh, hs, rb, rh, rs⟩ := C68_itip110 u t x f hu ⟨lA, by omega⟩ ⟨lB, by omega⟩ ht
        rw [asciiDigits_ascii ha, hu] at hy
        cases hy
        exact forms_back (C39_itip x .itip110 f) hb hh hs (by simpa using rb []) rh rs
      · obtain ⟨y, b, h, s, hy, hb, hh, hs, rb, rh, rs⟩ := C68_itip212 u x f hu ⟨lA, by omega⟩ ⟨lB, by omega⟩ hcan
        rw [asciiDigits_ascii ha, hu] at hy
        cases hy
        exact forms_back (C39_itip x .itip212 f) hb hh hs (by simpa using rb []) rh rs

/-- LGTIN. -/
theorem C78_lgtin (u : Str) (x : LGTIN) (hu : LGTIN.new u = .ok x) :
    (∀ r, Relay (.lgtin x) r → r = .ok (.lgtin x)) ↔ Portable (.lgtin x) := by
  rw [relay_iff]
  have hc : Cls.new .lgtin u = .ok (.lgtin x) := by show (LGTIN.new u).map _ = _; rw [hu]; rfl
  have hx : x.epcUri = u := (Cls.new_facts hc).2.1
  constructor
  · intro H
    show _ ∧ _
    obtain ⟨s, hs, -⟩ := C46_lgtin u x hu
    obtain ⟨x', h2, e⟩ := map_ok_iff.1 (elem_sent (C := x.companyPref) hc H hs rfl)
    cases e
    obtain ⟨i, C, I, k, raw, ⟨hd, -⟩, -, hg, -, -, h3⟩ := (LGTIN.from_iff s _ x).1 h2
    obtain ⟨C', D', S', ⟨⟨-, hC'⟩, ⟨-, hD'⟩, -⟩, -, e', rfl⟩ := LGTIN.new_iff.1 h3
    have hd' := Dec.cons.1 hd
    have hIk := Dec.append.1 (Dec.append.1 hd'.2).2
    obtain ⟨rfl, rfl, rfl⟩ := uri3_inj (Dec.append.1 hd'.2).1.no_dot (Dec.cons.2 ⟨hd'.1, hIk.1⟩ : Dec (i :: I)).no_dot hC'.no_dot hD'.no_dot e'
    dsimp only
    rw [replaceUriEscapes_escape]
    exact ⟨by simp, hg⟩
  · rintro ⟨he, hg⟩
    rw [hx] at he
    refine sent_ok hc ?_ ?_
    · rintro s C hs rfl
      obtain ⟨s', hs', hr, -⟩ := C32_lgtin_partial u x hu he
      have e : s = s' := Except.ok.inj (hs.symm.trans hs')
      subst e
      exact elem_back hc hs (by show (LGTIN.fromGs1ElementString _ _).map _ = _; rw [hr hg]; rfl)
    · rintro t b h s ⟨⟩

/-- UPUI. -/
theorem C78_upui (u : Str) (x : UPUI) (hu : UPUI.new u = .ok x) :
    (∀ r, Relay (.upui x) r → r = .ok (.upui x)) ↔ Portable (.upui x) := by
  rw [relay_iff]
  have hc : Cls.new .upui u = .ok (.upui x) := by show (UPUI.new u).map _ = _; rw [hu]; rfl
  have hx : x.epcUri = u := (Cls.new_facts hc).2.1
  constructor
  · intro H
    show _ ∨ _
    by_cases hi : x.itemRef = []
    · exact .inl hi
    refine .inr ?_
    obtain ⟨s, hs, -⟩ := C46_upui_partial u x hi hu
    obtain ⟨x', h2, e⟩ := map_ok_iff.1 (elem_sent (C := x.companyPref) hc H hs rfl)
    cases e
    obtain ⟨i, C, I, k, raw, ⟨hd, -⟩, -, -, -, h3⟩ := (UPUI.from_iff s _ x).1 h2
    obtain ⟨C', D', S', ⟨⟨-, hC'⟩, hD', -⟩, -, e', rfl⟩ := UPUI.new_iff.1 h3
    have hd' := Dec.cons.1 hd
    have hIk := Dec.append.1 (Dec.append.1 hd'.2).2
    obtain ⟨rfl, rfl, rfl⟩ := uri3_inj (Dec.append.1 hd'.2).1.no_dot (Dec.cons.2 ⟨hd'.1, hIk.1⟩ : Dec (i :: I)).no_dot hC'.no_dot hD'.no_dot e'
    dsimp only
    rw [replaceUriEscapes_escape]
    simp
  · intro he
    refine sent_ok hc ?_ ?_
    · rintro s C hs rfl
      by_cases hi : x.itemRef = []
      · have := C46_upui_index u x hi hu
        rw [show Scheme.gs1ElementString (.upui x) = x.gs1ElementString from rfl, this] at hs
        cases hs
      have he : u = _ := hx ▸ he.resolve_left hi
      obtain ⟨s', hs', hr⟩ := C32_upui_partial u x hi hu he
      have e : s = s' := Except.ok.inj (hs.symm.trans hs')
      subst e
      exact elem_back hc hs (by show (UPUI.fromGs1ElementString _ _).map _ = _; rw [hr]; rfl)
    · rintro t b h s ⟨⟩

/-- GINC. -/
theorem C78_ginc (u : Str) (x : GINC) (hu : GINC.new u = .ok x) :
    (∀ r, Relay (.ginc x) r → r = .ok (.ginc x)) ↔ Portable (.ginc x) := by
  rw [relay_iff]
  have hc : Cls.new .ginc u = .ok (.ginc x) := by show (GINC.new u).map _ = _; rw [hu]; rfl
  have hx : x.epcUri = u := (Cls.new_facts hc).2.1
  constructor
  · intro H
    obtain ⟨s, hs, -⟩ := C46_ginc u x hu
    obtain ⟨C', S, ⟨⟨-, hC⟩, hS⟩, -, eu, -⟩ := GINC.new_iff.1 hu
    obtain ⟨x', h2, e⟩ := map_ok_iff.1 (elem_sent (C := C') hc H hs ⟨hC.no_dot, S, by rw [hx, eu]; simp⟩)
    cases e
    obtain ⟨C, raw, -, hcl, rfl, h3⟩ := (GINC.from_iff s _ x).1 h2
    have e3 := (Cls.new_facts (c := .ginc) (x := .ginc x) (by show (GINC.new _).map _ = _; rw [h3]; rfl)).2.1
    have e2 : C ++ '.' :: escape raw = C' ++ '.' :: S := by
      have := e3.symm.trans (hx.trans eu)
      simpa using this
    have eC := pref_eq (k := 5) (by simp; omega) hcl e2
    subst eC
    exact ⟨C, raw, hC.no_dot, by have e3 : x.epcUri = _ := e3; rw [e3]; simp⟩
  · rintro ⟨C, raw, hC, he⟩
    rw [hx] at he
    refine sent_ok hc ?_ ?_
    · rintro s C' hs ⟨hC', rest, he'⟩
      rw [hx, he] at he'
      have : C = C' := by
        simp only [List.append_assoc] at he'
        exact (append_sep_inj hC hC' (List.append_cancel_left he')).1
      subst this
      obtain ⟨s', hs', hr⟩ := C32_ginc C raw x (he ▸ hu) hC
      have e : s = s' := Except.ok.inj (hs.symm.trans hs')
      subst e
      exact elem_back hc hs (by show (GINC.fromGs1ElementString _ _).map _ = _; rw [hr]; rfl)
    · rintro t b h s ⟨⟩

/-- PGLN: always. -/
theorem C78_pgln (u : Str) (x : PGLN) (hu : PGLN.new u = .ok x) :
    (∀ r, Relay (.pgln x) r → r = .ok (.pgln x)) ↔ Portable (.pgln x) := by
  rw [relay_iff]
  have hc : Cls.new .pgln u = .ok (.pgln x) := by show (PGLN.new u).map _ = _; rw [hu]; rfl
  refine ⟨fun _ => trivial, fun _ => sent_ok hc ?_ ?_⟩
  · rintro s C hs rfl
    obtain ⟨s', hs', hr⟩ := C32_pgln u x hu
    have e : s = s' := Except.ok.inj (hs.symm.trans hs')
    subst e
    exact elem_back hc hs (by show (PGLN.fromGs1ElementString _ _).map _ = _; rw [hr]; rfl)
  · rintro t b h s ⟨⟩

/-- GSIN: always. -/
theorem C78_gsin (u : Str) (x : GSIN) (hu : GSIN.new u = .ok x) :
    (∀ r, Relay (.gsin x) r → r = .ok (.gsin x)) ↔ Portable (.gsin x) := by
  rw [relay_iff]
  have hc : Cls.new .gsin u = .ok (.gsin x) := by show (GSIN.new u).map _ = _; rw [hu]; rfl
  refine ⟨fun _ => trivial, fun _ => sent_ok hc ?_ ?_⟩
  · rintro s C hs rfl
    obtain ⟨s', hs', hr⟩ := C32_gsin u x hu
    have e : s = s' := Except.ok.inj (hs.symm.trans hs')
    subst e
    exact elem_back hc hs (by show (GSIN.fromGs1ElementString _ _).map _ = _; rw [hr]; rfl)
  · rintro t b h s ⟨⟩

/-- BIC: always. -/
theorem C78_bic (u : Str) (x : BIC) (hu : BIC.new u = .ok x) :
    (∀ r, Relay (.bic x) r → r = .ok (.bic x)) ↔ Portable (.bic x) := by
  rw [relay_iff]
  have hc : Cls.new .bic u = .ok (.bic x) := by show (BIC.new u).map _ = _; rw [hu]; rfl
  exact ⟨fun _ => trivial, fun _ => sent_ok hc (fun s C hs hC => nomatch hC) (fun t b h s hf => nomatch hf)⟩

/-- IMOVN: always. -/
theorem C78_imovn (u : Str) (x : IMOVN) (hu : IMOVN.new u = .ok x) :
    (∀ r, Relay (.imovn x) r → r = .ok (.imovn x)) ↔ Portable (.imovn x) := by
  rw [relay_iff]
  have hc : Cls.new .imovn u = .ok (.imovn x) := by show (IMOVN.new u).map _ = _; rw [hu]; rfl
  exact ⟨fun _ => trivial, fun _ => sent_ok hc (fun s C hs hC => nomatch hC) (fun t b h s hf => nomatch hf)⟩

/-- ADI. -/
theorem C78_adi (u : Str) (x : ADI) (hu : ADI.new u = .ok x) :
    (∀ r, Relay (.adi x) r → r = .ok (.adi x)) ↔ Portable (.adi x) := by
  rw [relay_iff]
  have hc : Cls.new .adi u = .ok (.adi x) := by show (ADI.new u).map _ = _; rw [hu]; rfl
  constructor
  · intro H
    obtain ⟨rp, hr, hp⟩ := C23_adi_part u x hu
    refine ⟨rp, hr, hp, fun hz => ?_⟩
    obtain ⟨b, hb, hne⟩ := C23_adi_fails u rp x 0 0 hu hr hp hz
    obtain ⟨t, ht⟩ : ∃ t, x.tagUri .adiVar 0 = .ok t := by
      obtain ⟨C', D', S', -, -, rfl, -⟩ := ADI.new_iff.1 hu
      exact ⟨_, C47_adi _ x 0 hu⟩
    have h1 := H _ (.binary (.adi x) t b _ _ ⟨.adiVar, 0, ht, hb, rfl, rfl⟩)
    rw [(C39_adi x .adiVar 0).1 b hb] at h1
    obtain ⟨y, hy, e⟩ := map_ok_iff.1 h1
    cases e
    exact hne (by simpa using hy)
  · rintro ⟨rp, hr, hp, hz⟩
    refine sent_ok hc (fun s C hs hC => nomatch hC) ?_
    rintro t b h s ⟨cs, f, ht, rfl, rfl, rfl⟩
    refine ⟨(C18_parser_iff t _).2 ⟨.adi, by show (ADI.fromTagUri t).map _ = _; rw [C16_adi u x cs f t hu ht]; rfl⟩, ?_⟩
    cases cs
    obtain ⟨b, hb, rb⟩ := C23_adi_partial u rp x f 0 hu hr hp hz
    obtain ⟨h, hh, rh⟩ := C25_adi_var_partial u x f hu rp hr hp hz
    obtain ⟨s, hs, rs⟩ := C26_adi_var_partial u x f hu rp hr hp hz
    exact forms_back (C39_adi x .adiVar f) hb hh hs (by simpa using rb) rh (rs s 0 (by simp))

/-- An accepted object of any class comes back unchanged from every chain of conversions exactly if it meets the conditions. -/
theorem C78_all (c : Cls) (u : Str) (x : Scheme) (hu : c.new u = .ok x) : (∀ r, Relay x r → r = .ok x) ↔ Portable x := by
  cases c <;> obtain ⟨y, hy, rfl⟩ := map_ok_iff.1 hu
  all_goals first
    | exact C78_adi u y hy
    | exact C78_bic u y hy
    | exact C78_cpi u y hy
    | exact C78_gdti u y hy
    | exact C78_giai u y hy
    | exact C78_gid u y hy
    | exact C78_ginc u y hy
    | exact C78_grai u y hy
    | exact C78_gsin u y hy
    | exact C78_gsrn u y hy
    | exact C78_gsrnp u y hy
    | exact C78_imovn u y hy
    | exact C78_itip u y hy
    | exact C78_lgtin u y hy
    | exact C78_pgln u y hy
    | exact C78_sgcn u y hy
    | exact C78_sgln u y hy
    | exact C78_sgtin u y hy
    | exact C78_sscc u y hy
    | exact C78_upui u y hy
    | exact C78_usdod u y hy

-- an object that meets the conditions, one that does not, and a chain that changes the latter
example : Cls.new .sgtin (py "urn:epc:id:sgtin:9521141.012345.47%2Fx") =
      .ok (.sgtin ⟨py "urn:epc:id:sgtin:9521141.012345.47%2Fx", py "9521141", py "012345", py "47%2Fx", py "09521141123454"⟩) ∧
    Portable (.sgtin ⟨py "urn:epc:id:sgtin:9521141.012345.47%2Fx", py "9521141", py "012345", py "47%2Fx", py "09521141123454"⟩) := by
  refine ⟨by decide +kernel, by decide, py "47/x", by decide, ?_⟩
  rintro ⟨p, m, q, e, -⟩
  have : '(' ∈ py "47/x" := e ▸ (by simp)
  exact absurd this (by decide)
example : ∃ x, Cls.new .sscc (py "urn:epc:id:sscc:952114١.1234567890") = .ok x ∧ ¬ Portable x ∧ ∃ r, Relay x r ∧ r ≠ .ok x := by
  have h : Cls.new .sscc (py "urn:epc:id:sscc:952114١.1234567890") =
      .ok (.sscc ⟨py "urn:epc:id:sscc:952114١.1234567890", py "952114١", py "1234567890", py "1952114١2345678900"⟩) := by decide +kernel
  have hp : ¬ Portable (.sscc ⟨py "urn:epc:id:sscc:952114١.1234567890", py "952114١", py "1234567890", py "1952114١2345678900"⟩) := by
    show ¬ Ascii _; decide
  refine ⟨_, h, hp, Classical.byContradiction fun hn => hp ((C78_all _ _ _ h).1 fun r hr => Classical.byContradiction fun hne => hn ⟨r, hr, hne⟩)⟩

end Epc
