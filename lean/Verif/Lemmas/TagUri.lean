/-
Generated by tools/gen_taguri.py.  `from_tag_uri`: the strings it accepts and what it makes of them.
-/
import Verif.Lemmas.Verify
import Verif.Lemmas.SpecDigits

namespace Epc
open Spec Re

theorem lang_alts (l : List Re) (s : Str) : Lang (alts l) s ↔ ∃ r ∈ l, Lang r s := by
  induction l with
  | nil => simp [alts, Lang]
  | cons a l ih =>
    cases l with
    | nil => simp [alts]
    | cons b l => simp only [alts, Lang, ih, List.mem_cons, exists_eq_or_imp]

theorem lang_tagAlt (names body : Re) (s : Str) : Lang (Rx.tagAlt names body) s ↔
    ∃ n f b, Lang names n ∧ Num f ∧ Lang body b ∧ s = n ++ ':' :: (f ++ '.' :: b) := by
  simp only [Rx.tagAlt, seqs, Lang, Rx.dot, lang_chr, ← lang_numeric]
  constructor
  · rintro ⟨n, _, rfl, hn, _, _, rfl, rfl, f, _, rfl, hf, _, b, rfl, rfl, hb⟩
    exact ⟨n, f, b, hn, hf, hb, by simp⟩
  · rintro ⟨n, f, b, hn, hf, hb, rfl⟩
    exact ⟨n, ':' :: (f ++ '.' :: b), rfl, hn, [':'], f ++ '.' :: b, rfl, rfl, f, '.' :: b, rfl, hf, ['.'], b, rfl, rfl, hb⟩

/-- The names of the coding schemes that a tag URI can have. -/
def tagNames : List Str := [py "sgtin-96", py "sgtin-198", py "sscc-96", py "sgln-96", py "sgln-195", py "grai-96", py "grai-170", py "giai-96", py "giai-202", py "gsrn-96", py "gsrnp-96", py "gdti-96", py "gdti-174", py "cpi-96", py "cpi-var", py "sgcn-96", py "itip-110", py "itip-212", py "gid-96", py "usdod-96", py "adi-var"]

theorem tagNames_facts {n : Str} (h : n ∈ tagNames) : ':' ∉ n ∧ '.' ∉ n := by
  have : ∀ n ∈ tagNames, ':' ∉ n ∧ '.' ∉ n := by decide +kernel
  exact this n h

/-- What a string that `TAG_URI` matches looks like. -/
theorem tagUri_match {t : Str} (h : Rx.tagUri.matchPrefix t = true) :
    ∃ n b, n ∈ tagNames ∧ t = tagUriPrefix ++ n ++ ':' :: b ∧ (n = py "gid-96" ∨ ∃ f b', Num f ∧ b = f ++ '.' :: b') := by
  obtain ⟨x, y, rfl, hx⟩ := (matchPrefix_iff _ _).1 h
  rw [Rx.tagUri, lang_lit_seq] at hx
  obtain ⟨x, rfl, hx⟩ := hx
  rw [Rx.tagBody, lang_alts] at hx
  obtain ⟨r, hr, hx⟩ := hx
  have key : ∀ names body, Lang (Rx.tagAlt names body) x → (∀ n, Lang names n → n ∈ tagNames) →
      ∃ n b, n ∈ tagNames ∧ py "urn:epc:tag:" ++ x ++ y = tagUriPrefix ++ n ++ ':' :: b ∧
        (n = py "gid-96" ∨ ∃ f b', Num f ∧ b = f ++ '.' :: b') := by
    intro names body h1 h2
    obtain ⟨n, f, b, hn, hf, -, rfl⟩ := (lang_tagAlt _ _ _).1 h1
    exact ⟨n, f ++ '.' :: (b ++ y), h2 n hn, by simp [tagUriPrefix], .inr ⟨f, b ++ y, hf, rfl⟩⟩
  have lits : ∀ p ∈ tagNames, ∀ n, Lang (lit p) n → n ∈ tagNames := by
    intro p hp n hn
    rw [lang_lit] at hn
    exact hn ▸ hp
  have lits2 : ∀ p ∈ tagNames, ∀ q ∈ tagNames, ∀ n, Lang (alts [lit p, lit q]) n → n ∈ tagNames := by
    intro p hp q hq n hn
    rw [lang_alts] at hn
    obtain ⟨r, hr, hn⟩ := hn
    simp only [List.mem_cons, List.not_mem_nil, or_false] at hr
    rcases hr with rfl | rfl
    · exact lits p hp n hn
    · exact lits q hq n hn
  simp only [List.mem_cons, List.not_mem_nil, or_false] at hr
  rcases hr with rfl | rfl | rfl | rfl | rfl | rfl | rfl | rfl | rfl | rfl | rfl | rfl | rfl | rfl
  · exact key _ _ hx (lits2 _ (by decide) _ (by decide))
  · exact key _ _ hx (lits _ (by decide))
  · exact key _ _ hx (lits2 _ (by decide) _ (by decide))
  · exact key _ _ hx (lits2 _ (by decide) _ (by decide))
  · exact key _ _ hx (lits2 _ (by decide) _ (by decide))
  · exact key _ _ hx (lits _ (by decide))
  · exact key _ _ hx (lits _ (by decide))
  · exact key _ _ hx (lits2 _ (by decide) _ (by decide))
  · exact key _ _ hx (lits2 _ (by decide) _ (by decide))
  · exact key _ _ hx (lits _ (by decide))
  · exact key _ _ hx (lits2 _ (by decide) _ (by decide))
  · simp only [seqs, Lang, lang_chr, lang_lit] at hx
    obtain ⟨n, _, rfl, rfl, _, b, rfl, rfl, _⟩ := hx
    exact ⟨py "gid-96", b ++ y, by decide, by simp [tagUriPrefix], .inl rfl⟩
  · exact key _ _ hx (lits _ (by decide))
  · exact key _ _ hx (lits _ (by decide))

/-- `from_tag_uri` on a string of the form `urn:epc:tag:name-size:filter.body`. -/
theorem fromTagUri_filter {α : Type} {new : Str → Except Err α} {n f b : Str} (hn : ':' ∉ n ∧ '.' ∉ n) (hf : Num f) :
    fromTagUri new true (tagUriPrefix ++ n ++ ':' :: (f ++ '.' :: b)) =
      if Rx.tagUri.matchPrefix (tagUriPrefix ++ n ++ ':' :: (f ++ '.' :: b)) = true then
        new (py "urn:epc:id:" ++ (split '-' n).headD [] ++ ':' :: b) else .error .convert := by
  have hs : split ':' (tagUriPrefix ++ n ++ ':' :: (f ++ '.' :: b)) =
      py "urn" :: py "epc" :: py "tag" :: n :: split ':' (f ++ '.' :: b) := by
    rw [show tagUriPrefix ++ n ++ ':' :: (f ++ '.' :: b) = py "urn" ++ ':' :: (py "epc" ++ ':' :: (py "tag" ++ ':' :: (n ++ ':' :: (f ++ '.' :: b))))
      by simp [tagUriPrefix]]
    rw [split_append_sep (by decide), split_append_sep (by decide), split_append_sep (by decide), split_append_sep hn.1]
  have hj : joinWith ':' (n :: split ':' (f ++ '.' :: b)) = (n ++ ':' :: f) ++ '.' :: b := by
    rw [joinWith_cons _ _ (split_ne_nil _ _), joinWith_split]; simp
  have hd : '.' ∉ n ++ ':' :: f := by
    simp only [List.mem_append, List.mem_cons, not_or]
    exact ⟨hn.2, by decide, hf.dec.no_dot⟩
  have hp : getPart (split '-' n) 0 = .ok ((split '-' n).headD []) := getPart_ok (headD_split _ _)
  unfold fromTagUri
  cases hm : Rx.tagUri.matchPrefix (tagUriPrefix ++ n ++ ':' :: (f ++ '.' :: b)) with
  | false => simp
  | true =>
    simp only [hs, Bool.not_true, Bool.false_eq_true, if_false, if_true, List.drop_succ_cons, List.drop_zero]
    rw [hj, split_append_sep hd, show getPart (py "urn" :: py "epc" :: py "tag" :: n :: split ':' (f ++ '.' :: b)) 3 = .ok n from rfl, ok_bind,
      ok_bind, hp, ok_bind, List.drop_succ_cons, List.drop_zero, joinWith_split]

/-- `from_tag_uri` without filter value (GID). -/
theorem fromTagUri_nofilter {α : Type} {new : Str → Except Err α} {n b : Str} (hn : ':' ∉ n) :
    fromTagUri new false (tagUriPrefix ++ n ++ ':' :: b) =
      if Rx.tagUri.matchPrefix (tagUriPrefix ++ n ++ ':' :: b) = true then
        new (py "urn:epc:id:" ++ (split '-' n).headD [] ++ ':' :: (split ':' b).headD []) else .error .convert := by
  have hs : split ':' (tagUriPrefix ++ n ++ ':' :: b) = py "urn" :: py "epc" :: py "tag" :: n :: split ':' b := by
    rw [show tagUriPrefix ++ n ++ ':' :: b = py "urn" ++ ':' :: (py "epc" ++ ':' :: (py "tag" ++ ':' :: (n ++ ':' :: b)))
      by simp [tagUriPrefix]]
    rw [split_append_sep (by decide), split_append_sep (by decide), split_append_sep (by decide), split_append_sep hn]
  have hp : getPart (split '-' n) 0 = .ok ((split '-' n).headD []) := getPart_ok (headD_split _ _)
  have h4 : getPart (py "urn" :: py "epc" :: py "tag" :: n :: split ':' b) 4 = .ok ((split ':' b).headD []) := by
    have := headD_split ':' b
    exact getPart_ok this
  unfold fromTagUri
  cases hm : Rx.tagUri.matchPrefix (tagUriPrefix ++ n ++ ':' :: b) with
  | false => simp
  | true =>
    simp only [hs, Bool.not_true, Bool.false_eq_true, if_false, if_true]
    rw [show getPart (py "urn" :: py "epc" :: py "tag" :: n :: split ':' b) 3 = .ok n from rfl, ok_bind, h4, ok_bind, hp, ok_bind]

theorem fromTagUri_nomatch {α : Type} {new : Str → Except Err α} {b : Bool} {t : Str} (h : Rx.tagUri.matchPrefix t = false) :
    fromTagUri new b t = .error .convert := by
  simp [fromTagUri, h]

/-- The head of `name-size`. -/
def tagName (n : Str) : Str := (split '-' n).headD []

/-- A tag URI for which `from_tag_uri` returns names the class's scheme. -/
theorem fromTagUri_ok {α : Type} {new : Str → Except Err α} {nm t : Str} {x : α} (hnm : ':' ∉ nm) (hg : nm ≠ py "gid")
    (hnew : ∀ u x, new u = .ok x → ∃ b, u = py "urn:epc:id:" ++ nm ++ ':' :: b) (h : fromTagUri new true t = .ok x) :
    ∃ n f b, n ∈ tagNames ∧ tagName n = nm ∧ Num f ∧ t = tagUriPrefix ++ n ++ ':' :: (f ++ '.' :: b) ∧
      new (py "urn:epc:id:" ++ nm ++ ':' :: b) = .ok x := by
  cases hm : Rx.tagUri.matchPrefix t with
  | false => rw [fromTagUri_nomatch hm] at h; cases h
  | true =>
    obtain ⟨n, b, hn, rfl, hc⟩ := tagUri_match hm
    rcases hc with rfl | ⟨f, b, hf, rfl⟩
    · exfalso
      simp only [fromTagUri, hm, Bool.not_true, Bool.false_eq_true, if_false, if_true] at h
      have hs : split ':' (tagUriPrefix ++ py "gid-96" ++ ':' :: b) = py "urn" :: py "epc" :: py "tag" :: py "gid-96" :: split ':' b := by
        rw [show tagUriPrefix ++ py "gid-96" ++ ':' :: b = py "urn" ++ ':' :: (py "epc" ++ ':' :: (py "tag" ++ ':' :: (py "gid-96" ++ ':' :: b)))
          by simp [tagUriPrefix]]
        rw [split_append_sep (by decide), split_append_sep (by decide), split_append_sep (by decide), split_append_sep (by decide)]
      rw [hs, show getPart (py "urn" :: py "epc" :: py "tag" :: py "gid-96" :: split ':' b) 3 = .ok (py "gid-96") from rfl, ok_bind, ok_bind,
        show getPart (split '-' (py "gid-96")) 0 = .ok (py "gid") by decide, ok_bind] at h
      obtain ⟨b', hb⟩ := hnew _ _ h
      rw [List.append_assoc, List.append_assoc] at hb
      exact hg (append_sep_inj (by decide) hnm (List.append_cancel_left hb)).1.symm
    · have hnf := tagNames_facts hn
      rw [fromTagUri_filter hnf hf, if_pos hm] at h
      obtain ⟨b', hb⟩ := hnew _ _ h
      rw [List.append_assoc, List.append_assoc] at hb
      have hc : ':' ∉ (split '-' n).headD [] := fun hc => hnf.1 (headD_split_mem hc)
      have e := (append_sep_inj hc hnm (List.append_cancel_left hb)).1
      exact ⟨n, f, b, hn, e, hf, rfl, e ▸ h⟩

theorem matchPrefix_tag {names body : Re} {n f b : Str} (hmem : Lang Rx.tagBody (n ++ ':' :: (f ++ '.' :: b)) ∨
    Lang (Rx.tagAlt names body) (n ++ ':' :: (f ++ '.' :: b)) ∧ (∀ s, Lang (Rx.tagAlt names body) s → Lang Rx.tagBody s)) :
    Rx.tagUri.matchPrefix (tagUriPrefix ++ n ++ ':' :: (f ++ '.' :: b)) = true := by
  refine matchPrefix_of_fullmatch ((fullmatch_iff _ _).2 ?_)
  rw [Rx.tagUri, lang_lit_seq]
  refine ⟨n ++ ':' :: (f ++ '.' :: b), by simp [tagUriPrefix], ?_⟩
  rcases hmem with h | ⟨h1, h2⟩
  · exact h
  · exact h2 _ h1

namespace SGTIN

theorem uri_of_new {u : Str} {x : SGTIN} (h : new u = .ok x) : x.epcUri = u ∧ ∃ b, u = py "urn:epc:id:" ++ py "sgtin" ++ ':' :: b ∧ Lang Rx.sgtinBody b := by
  cases hm : Rx.sgtinUri.fullmatch u with
  | false => rw [new_nomatch hm] at h; cases h
  | true =>
    have hl := (fullmatch_iff _ _).1 hm
    rw [Rx.sgtinUri, lang_lit_seq] at hl
    obtain ⟨b, rfl, hb⟩ := hl
    refine ⟨?_, b, rfl, hb⟩
    obtain ⟨_, _, _, _, _, _, rfl⟩ := new_iff.1 h
    rfl

theorem tagNames_iff {n : Str} : (n ∈ tagNames ∧ tagName n = py "sgtin") ↔ ∃ cs : Coding, n = cs.value := by
  constructor
  · rintro ⟨h, h'⟩
    have : ∀ n ∈ tagNames, tagName n = py "sgtin" → n = Coding.value .sgtin96 ∨ n = Coding.value .sgtin198 := by decide +kernel
    exact (this n h h').elim (fun h => ⟨_, h⟩) (fun h => ⟨_, h⟩)
  · rintro ⟨cs, rfl⟩
    cases cs <;> decide +kernel

/-- `from_tag_uri` is the constructor on the pure identity URI. -/
theorem fromTagUri_body {cs : Coding} {f b : Str} (hf : Num f) (hl : Lang Rx.sgtinBody b) :
    fromTagUri (tagUriPrefix ++ cs.value ++ ':' :: (f ++ '.' :: b)) = new (py "urn:epc:id:sgtin:" ++ b) := by
  have hn := tagNames_iff.2 ⟨cs, rfl⟩
  unfold fromTagUri
  rw [fromTagUri_filter (tagNames_facts hn.1) hf, if_pos, show (split '-' cs.value).headD [] = py "sgtin" from hn.2]
  · rfl
  · refine matchPrefix_tag (names := alts [lit (py "sgtin-96"), lit (py "sgtin-198")]) (body := Rx.sgtinBody) (.inr ⟨(lang_tagAlt _ _ _).2 ⟨_, f, b, ?_, hf, hl, rfl⟩, ?_⟩)
    · rw [lang_alts]; cases cs <;> simp [lang_lit, Coding.value]
    · intro s hs
      rw [Rx.tagBody, lang_alts]
      exact ⟨_, .head _, hs⟩

theorem fromTagUri_iff {t : Str} {x : SGTIN} : fromTagUri t = .ok x ↔ ∃ cs : Coding, ∃ f b, Num f ∧
    t = tagUriPrefix ++ cs.value ++ ':' :: (f ++ '.' :: b) ∧ new (py "urn:epc:id:sgtin:" ++ b) = .ok x := by
  constructor
  · intro h
    obtain ⟨n, f, b, hn, hnm, hf, ht, hx⟩ := fromTagUri_ok (nm := py "sgtin") (by decide) (by decide)
      (fun u x h => (uri_of_new h).2.imp fun _ h => h.1) h
    obtain ⟨cs, rfl⟩ := tagNames_iff.1 ⟨hn, hnm⟩
    exact ⟨cs, f, b, hf, ht, hx⟩
  · rintro ⟨cs, f, b, hf, rfl, h⟩
    obtain ⟨-, b', hb, hl⟩ := uri_of_new h
    have hbb : b = b' := List.append_cancel_left (as := py "urn:epc:id:sgtin:") hb
    rw [fromTagUri_body hf (hbb ▸ hl), h]

theorem fromTagUri_of_new {cs : Coding} {f b : Str} {x : SGTIN} (hf : Num f) (h : new (py "urn:epc:id:sgtin:" ++ b) = .ok x) :
    fromTagUri (tagUriPrefix ++ cs.value ++ ':' :: (f ++ '.' :: b)) = .ok x :=
  fromTagUri_iff.2 ⟨cs, f, b, hf, rfl, h⟩

end SGTIN

namespace SSCC

theorem uri_of_new {u : Str} {x : SSCC} (h : new u = .ok x) : x.epcUri = u ∧ ∃ b, u = py "urn:epc:id:" ++ py "sscc" ++ ':' :: b ∧ Lang Rx.ssccBody b := by
  cases hm : Rx.ssccUri.fullmatch u with
  | false => rw [new_nomatch hm] at h; cases h
  | true =>
    have hl := (fullmatch_iff _ _).1 hm
    rw [Rx.ssccUri, lang_lit_seq] at hl
    obtain ⟨b, rfl, hb⟩ := hl
    refine ⟨?_, b, rfl, hb⟩
    obtain ⟨_, _, _, _, _, rfl⟩ := new_iff.1 h
    rfl

theorem tagNames_iff {n : Str} : (n ∈ tagNames ∧ tagName n = py "sscc") ↔ ∃ cs : Coding, n = cs.value := by
  constructor
  · rintro ⟨h, h'⟩
    have : ∀ n ∈ tagNames, tagName n = py "sscc" → n = Coding.value .sscc96 := by decide +kernel
    exact ⟨_, this n h h'⟩
  · rintro ⟨cs, rfl⟩
    cases cs <;> decide +kernel

/-- `from_tag_uri` is the constructor on the pure identity URI. -/
theorem fromTagUri_body {cs : Coding} {f b : Str} (hf : Num f) (hl : Lang Rx.ssccBody b) :
    fromTagUri (tagUriPrefix ++ cs.value ++ ':' :: (f ++ '.' :: b)) = new (py "urn:epc:id:sscc:" ++ b) := by
  have hn := tagNames_iff.2 ⟨cs, rfl⟩
  unfold fromTagUri
  rw [fromTagUri_filter (tagNames_facts hn.1) hf, if_pos, show (split '-' cs.value).headD [] = py "sscc" from hn.2]
  · rfl
  · refine matchPrefix_tag (names := lit (py "sscc-96")) (body := Rx.ssccBody) (.inr ⟨(lang_tagAlt _ _ _).2 ⟨_, f, b, ?_, hf, hl, rfl⟩, ?_⟩)
    · rw [lang_lit]; cases cs; rfl
    · intro s hs
      rw [Rx.tagBody, lang_alts]
      exact ⟨_, .tail _ (.head _), hs⟩

theorem fromTagUri_iff {t : Str} {x : SSCC} : fromTagUri t = .ok x ↔ ∃ cs : Coding, ∃ f b, Num f ∧
    t = tagUriPrefix ++ cs.value ++ ':' :: (f ++ '.' :: b) ∧ new (py "urn:epc:id:sscc:" ++ b) = .ok x := by
  constructor
  · intro h
    obtain ⟨n, f, b, hn, hnm, hf, ht, hx⟩ := fromTagUri_ok (nm := py "sscc") (by decide) (by decide)
      (fun u x h => (uri_of_new h).2.imp fun _ h => h.1) h
    obtain ⟨cs, rfl⟩ := tagNames_iff.1 ⟨hn, hnm⟩
    exact ⟨cs, f, b, hf, ht, hx⟩
  · rintro ⟨cs, f, b, hf, rfl, h⟩
    obtain ⟨-, b', hb, hl⟩ := uri_of_new h
    have hbb : b = b' := List.append_cancel_left (as := py "urn:epc:id:sscc:") hb
    rw [fromTagUri_body hf (hbb ▸ hl), h]

theorem fromTagUri_of_new {cs : Coding} {f b : Str} {x : SSCC} (hf : Num f) (h : new (py "urn:epc:id:sscc:" ++ b) = .ok x) :
    fromTagUri (tagUriPrefix ++ cs.value ++ ':' :: (f ++ '.' :: b)) = .ok x :=
  fromTagUri_iff.2 ⟨cs, f, b, hf, rfl, h⟩

end SSCC

namespace SGLN

theorem uri_of_new {u : Str} {x : SGLN} (h : new u = .ok x) : x.epcUri = u ∧ ∃ b, u = py "urn:epc:id:" ++ py "sgln" ++ ':' :: b ∧ Lang Rx.sglnBody b := by
  cases hm : Rx.sglnUri.fullmatch u with
  | false => rw [new_nomatch hm] at h; cases h
  | true =>
    have hl := (fullmatch_iff _ _).1 hm
    rw [Rx.sglnUri, lang_lit_seq] at hl
    obtain ⟨b, rfl, hb⟩ := hl
    refine ⟨?_, b, rfl, hb⟩
    obtain ⟨_, _, _, _, _, _, rfl⟩ := new_iff.1 h
    rfl

theorem tagNames_iff {n : Str} : (n ∈ tagNames ∧ tagName n = py "sgln") ↔ ∃ cs : Coding, n = cs.value := by
  constructor
  · rintro ⟨h, h'⟩
    have : ∀ n ∈ tagNames, tagName n = py "sgln" → n = Coding.value .sgln96 ∨ n = Coding.value .sgln195 := by decide +kernel
    exact (this n h h').elim (fun h => ⟨_, h⟩) (fun h => ⟨_, h⟩)
  · rintro ⟨cs, rfl⟩
    cases cs <;> decide +kernel

/-- `from_tag_uri` is the constructor on the pure identity URI. -/
theorem fromTagUri_body {cs : Coding} {f b : Str} (hf : Num f) (hl : Lang Rx.sglnBody b) :
    fromTagUri (tagUriPrefix ++ cs.value ++ ':' :: (f ++ '.' :: b)) = new (py "urn:epc:id:sgln:" ++ b) := by
  have hn := tagNames_iff.2 ⟨cs, rfl⟩
  unfold fromTagUri
  rw [fromTagUri_filter (tagNames_facts hn.1) hf, if_pos, show (split '-' cs.value).headD [] = py "sgln" from hn.2]
  · rfl
  · refine matchPrefix_tag (names := alts [lit (py "sgln-96"), lit (py "sgln-195")]) (body := Rx.sglnBody) (.inr ⟨(lang_tagAlt _ _ _).2 ⟨_, f, b, ?_, hf, hl, rfl⟩, ?_⟩)
    · rw [lang_alts]; cases cs <;> simp [lang_lit, Coding.value]
    · intro s hs
      rw [Rx.tagBody, lang_alts]
      exact ⟨_, .tail _ (.tail _ (.head _)), hs⟩

theorem fromTagUri_iff {t : Str} {x : SGLN} : fromTagUri t = .ok x ↔ ∃ cs : Coding, ∃ f b, Num f ∧
    t = tagUriPrefix ++ cs.value ++ ':' :: (f ++ '.' :: b) ∧ new (py "urn:epc:id:sgln:" ++ b) = .ok x := by
  constructor
  · intro h
    obtain ⟨n, f, b, hn, hnm, hf, ht, hx⟩ := fromTagUri_ok (nm := py "sgln") (by decide) (by decide)
      (fun u x h => (uri_of_new h).2.imp fun _ h => h.1) h
    obtain ⟨cs, rfl⟩ := tagNames_iff.1 ⟨hn, hnm⟩
    exact ⟨cs, f, b, hf, ht, hx⟩
  · rintro ⟨cs, f, b, hf, rfl, h⟩
    obtain ⟨-, b', hb, hl⟩ := uri_of_new h
    have hbb : b = b' := List.append_cancel_left (as := py "urn:epc:id:sgln:") hb
    rw [fromTagUri_body hf (hbb ▸ hl), h]

theorem fromTagUri_of_new {cs : Coding} {f b : Str} {x : SGLN} (hf : Num f) (h : new (py "urn:epc:id:sgln:" ++ b) = .ok x) :
    fromTagUri (tagUriPrefix ++ cs.value ++ ':' :: (f ++ '.' :: b)) = .ok x :=
  fromTagUri_iff.2 ⟨cs, f, b, hf, rfl, h⟩

end SGLN

namespace GRAI

theorem uri_of_new {u : Str} {x : GRAI} (h : new u = .ok x) : x.epcUri = u ∧ ∃ b, u = py "urn:epc:id:" ++ py "grai" ++ ':' :: b ∧ Lang Rx.graiBody b := by
  cases hm : Rx.graiUri.fullmatch u with
  | false => rw [new_nomatch hm] at h; cases h
  | true =>
    have hl := (fullmatch_iff _ _).1 hm
    rw [Rx.graiUri, lang_lit_seq] at hl
    obtain ⟨b, rfl, hb⟩ := hl
    refine ⟨?_, b, rfl, hb⟩
    obtain ⟨_, _, _, _, _, _, rfl⟩ := new_iff.1 h
    rfl

theorem tagNames_iff {n : Str} : (n ∈ tagNames ∧ tagName n = py "grai") ↔ ∃ cs : Coding, n = cs.value := by
  constructor
  · rintro ⟨h, h'⟩
    have : ∀ n ∈ tagNames, tagName n = py "grai" → n = Coding.value .grai96 ∨ n = Coding.value .grai170 := by decide +kernel
    exact (this n h h').elim (fun h => ⟨_, h⟩) (fun h => ⟨_, h⟩)
  · rintro ⟨cs, rfl⟩
    cases cs <;> decide +kernel

/-- `from_tag_uri` is the constructor on the pure identity URI. -/
theorem fromTagUri_body {cs : Coding} {f b : Str} (hf : Num f) (hl : Lang Rx.graiBody b) :
    fromTagUri (tagUriPrefix ++ cs.value ++ ':' :: (f ++ '.' :: b)) = new (py "urn:epc:id:grai:" ++ b) := by
  have hn := tagNames_iff.2 ⟨cs, rfl⟩
  unfold fromTagUri
  rw [fromTagUri_filter (tagNames_facts hn.1) hf, if_pos, show (split '-' cs.value).headD [] = py "grai" from hn.2]
  · rfl
  · refine matchPrefix_tag (names := alts [lit (py "grai-96"), lit (py "grai-170")]) (body := Rx.graiBody) (.inr ⟨(lang_tagAlt _ _ _).2 ⟨_, f, b, ?_, hf, hl, rfl⟩, ?_⟩)
    · rw [lang_alts]; cases cs <;> simp [lang_lit, Coding.value]
    · intro s hs
      rw [Rx.tagBody, lang_alts]
      exact ⟨_, .tail _ (.tail _ (.tail _ (.head _))), hs⟩

theorem fromTagUri_iff {t : Str} {x : GRAI} : fromTagUri t = .ok x ↔ ∃ cs : Coding, ∃ f b, Num f ∧
    t = tagUriPrefix ++ cs.value ++ ':' :: (f ++ '.' :: b) ∧ new (py "urn:epc:id:grai:" ++ b) = .ok x := by
  constructor
  · intro h
    obtain ⟨n, f, b, hn, hnm, hf, ht, hx⟩ := fromTagUri_ok (nm := py "grai") (by decide) (by decide)
      (fun u x h => (uri_of_new h).2.imp fun _ h => h.1) h
    obtain ⟨cs, rfl⟩ := tagNames_iff.1 ⟨hn, hnm⟩
    exact ⟨cs, f, b, hf, ht, hx⟩
  · rintro ⟨cs, f, b, hf, rfl, h⟩
    obtain ⟨-, b', hb, hl⟩ := uri_of_new h
    have hbb : b = b' := List.append_cancel_left (as := py "urn:epc:id:grai:") hb
    rw [fromTagUri_body hf (hbb ▸ hl), h]

theorem fromTagUri_of_new {cs : Coding} {f b : Str} {x : GRAI} (hf : Num f) (h : new (py "urn:epc:id:grai:" ++ b) = .ok x) :
    fromTagUri (tagUriPrefix ++ cs.value ++ ':' :: (f ++ '.' :: b)) = .ok x :=
  fromTagUri_iff.2 ⟨cs, f, b, hf, rfl, h⟩

end GRAI

namespace GIAI

theorem uri_of_new {u : Str} {x : GIAI} (h : new u = .ok x) : x.epcUri = u ∧ ∃ b, u = py "urn:epc:id:" ++ py "giai" ++ ':' :: b ∧ Lang Rx.giaiBody b := by
  cases hm : Rx.giaiUri.fullmatch u with
  | false => rw [new_nomatch hm] at h; cases h
  | true =>
    have hl := (fullmatch_iff _ _).1 hm
    rw [Rx.giaiUri, lang_lit_seq] at hl
    obtain ⟨b, rfl, hb⟩ := hl
    refine ⟨?_, b, rfl, hb⟩
    obtain ⟨_, _, _, _, _, rfl⟩ := new_iff.1 h
    rfl

theorem tagNames_iff {n : Str} : (n ∈ tagNames ∧ tagName n = py "giai") ↔ ∃ cs : Coding, n = cs.value := by
  constructor
  · rintro ⟨h, h'⟩
    have : ∀ n ∈ tagNames, tagName n = py "giai" → n = Coding.value .giai96 ∨ n = Coding.value .giai202 := by decide +kernel
    exact (this n h h').elim (fun h => ⟨_, h⟩) (fun h => ⟨_, h⟩)
  · rintro ⟨cs, rfl⟩
    cases cs <;> decide +kernel

/-- `from_tag_uri` is the constructor on the pure identity URI. -/
theorem fromTagUri_body {cs : Coding} {f b : Str} (hf : Num f) (hl : Lang Rx.giaiBody b) :
    fromTagUri (tagUriPrefix ++ cs.value ++ ':' :: (f ++ '.' :: b)) = new (py "urn:epc:id:giai:" ++ b) := by
  have hn := tagNames_iff.2 ⟨cs, rfl⟩
  unfold fromTagUri
  rw [fromTagUri_filter (tagNames_facts hn.1) hf, if_pos, show (split '-' cs.value).headD [] = py "giai" from hn.2]
  · rfl
  · refine matchPrefix_tag (names := alts [lit (py "giai-96"), lit (py "giai-202")]) (body := Rx.giaiBody) (.inr ⟨(lang_tagAlt _ _ _).2 ⟨_, f, b, ?_, hf, hl, rfl⟩, ?_⟩)
    · rw [lang_alts]; cases cs <;> simp [lang_lit, Coding.value]
    · intro s hs
      rw [Rx.tagBody, lang_alts]
      exact ⟨_, .tail _ (.tail _ (.tail _ (.tail _ (.head _)))), hs⟩

theorem fromTagUri_iff {t : Str} {x : GIAI} : fromTagUri t = .ok x ↔ ∃ cs : Coding, ∃ f b, Num f ∧
    t = tagUriPrefix ++ cs.value ++ ':' :: (f ++ '.' :: b) ∧ new (py "urn:epc:id:giai:" ++ b) = .ok x := by
  constructor
  · intro h
    obtain ⟨n, f, b, hn, hnm, hf, ht, hx⟩ := fromTagUri_ok (nm := py "giai") (by decide) (by decide)
      (fun u x h => (uri_of_new h).2.imp fun _ h => h.1) h
    obtain ⟨cs, rfl⟩ := tagNames_iff.1 ⟨hn, hnm⟩
    exact ⟨cs, f, b, hf, ht, hx⟩
  · rintro ⟨cs, f, b, hf, rfl, h⟩
    obtain ⟨-, b', hb, hl⟩ := uri_of_new h
    have hbb : b = b' := List.append_cancel_left (as := py "urn:epc:id:giai:") hb
    rw [fromTagUri_body hf (hbb ▸ hl), h]

theorem fromTagUri_of_new {cs : Coding} {f b : Str} {x : GIAI} (hf : Num f) (h : new (py "urn:epc:id:giai:" ++ b) = .ok x) :
    fromTagUri (tagUriPrefix ++ cs.value ++ ':' :: (f ++ '.' :: b)) = .ok x :=
  fromTagUri_iff.2 ⟨cs, f, b, hf, rfl, h⟩

end GIAI

namespace GSRN

theorem uri_of_new {u : Str} {x : GSRN} (h : new u = .ok x) : x.epcUri = u ∧ ∃ b, u = py "urn:epc:id:" ++ py "gsrn" ++ ':' :: b ∧ Lang Rx.gsrnBody b := by
  cases hm : Rx.gsrnUri.fullmatch u with
  | false => rw [new_nomatch hm] at h; cases h
  | true =>
    have hl := (fullmatch_iff _ _).1 hm
    rw [Rx.gsrnUri, lang_lit_seq] at hl
    obtain ⟨b, rfl, hb⟩ := hl
    refine ⟨?_, b, rfl, hb⟩
    obtain ⟨_, _, _, _, _, rfl⟩ := new_iff.1 h
    rfl

theorem tagNames_iff {n : Str} : (n ∈ tagNames ∧ tagName n = py "gsrn") ↔ ∃ cs : Coding, n = cs.value := by
  constructor
  · rintro ⟨h, h'⟩
    have : ∀ n ∈ tagNames, tagName n = py "gsrn" → n = Coding.value .gsrn96 := by decide +kernel
    exact ⟨_, this n h h'⟩
  · rintro ⟨cs, rfl⟩
    cases cs <;> decide +kernel

/-- `from_tag_uri` is the constructor on the pure identity URI. -/
theorem fromTagUri_body {cs : Coding} {f b : Str} (hf : Num f) (hl : Lang Rx.gsrnBody b) :
    fromTagUri (tagUriPrefix ++ cs.value ++ ':' :: (f ++ '.' :: b)) = new (py "urn:epc:id:gsrn:" ++ b) := by
  have hn := tagNames_iff.2 ⟨cs, rfl⟩
  unfold fromTagUri
  rw [fromTagUri_filter (tagNames_facts hn.1) hf, if_pos, show (split '-' cs.value).headD [] = py "gsrn" from hn.2]
  · rfl
  · refine matchPrefix_tag (names := lit (py "gsrn-96")) (body := Rx.gsrnBody) (.inr ⟨(lang_tagAlt _ _ _).2 ⟨_, f, b, ?_, hf, hl, rfl⟩, ?_⟩)
    · rw [lang_lit]; cases cs; rfl
    · intro s hs
      rw [Rx.tagBody, lang_alts]
      exact ⟨_, .tail _ (.tail _ (.tail _ (.tail _ (.tail _ (.head _))))), hs⟩

theorem fromTagUri_iff {t : Str} {x : GSRN} : fromTagUri t = .ok x ↔ ∃ cs : Coding, ∃ f b, Num f ∧
    t = tagUriPrefix ++ cs.value ++ ':' :: (f ++ '.' :: b) ∧ new (py "urn:epc:id:gsrn:" ++ b) = .ok x := by
  constructor
  · intro h
    obtain ⟨n, f, b, hn, hnm, hf, ht, hx⟩ := fromTagUri_ok (nm := py "gsrn") (by decide) (by decide)
      (fun u x h => (uri_of_new h).2.imp fun _ h => h.1) h
    obtain ⟨cs, rfl⟩ := tagNames_iff.1 ⟨hn, hnm⟩
    exact ⟨cs, f, b, hf, ht, hx⟩
  · rintro ⟨cs, f, b, hf, rfl, h⟩
    obtain ⟨-, b', hb, hl⟩ := uri_of_new h
    have hbb : b = b' := List.append_cancel_left (as := py "urn:epc:id:gsrn:") hb
    rw [fromTagUri_body hf (hbb ▸ hl), h]

theorem fromTagUri_of_new {cs : Coding} {f b : Str} {x : GSRN} (hf : Num f) (h : new (py "urn:epc:id:gsrn:" ++ b) = .ok x) :
    fromTagUri (tagUriPrefix ++ cs.value ++ ':' :: (f ++ '.' :: b)) = .ok x :=
  fromTagUri_iff.2 ⟨cs, f, b, hf, rfl, h⟩

end GSRN

namespace GSRNP

theorem uri_of_new {u : Str} {x : GSRNP} (h : new u = .ok x) : x.epcUri = u ∧ ∃ b, u = py "urn:epc:id:" ++ py "gsrnp" ++ ':' :: b ∧ Lang Rx.gsrnpBody b := by
  cases hm : Rx.gsrnpUri.fullmatch u with
  | false => rw [new_nomatch hm] at h; cases h
  | true =>
    have hl := (fullmatch_iff _ _).1 hm
    rw [Rx.gsrnpUri, lang_lit_seq] at hl
    obtain ⟨b, rfl, hb⟩ := hl
    refine ⟨?_, b, rfl, hb⟩
    obtain ⟨_, _, _, _, _, rfl⟩ := new_iff.1 h
    rfl

theorem tagNames_iff {n : Str} : (n ∈ tagNames ∧ tagName n = py "gsrnp") ↔ ∃ cs : Coding, n = cs.value := by
  constructor
  · rintro ⟨h, h'⟩
    have : ∀ n ∈ tagNames, tagName n = py "gsrnp" → n = Coding.value .gsrnp96 := by decide +kernel
    exact ⟨_, this n h h'⟩
  · rintro ⟨cs, rfl⟩
    cases cs <;> decide +kernel

/-- `from_tag_uri` is the constructor on the pure identity URI. -/
theorem fromTagUri_body {cs : Coding} {f b : Str} (hf : Num f) (hl : Lang Rx.gsrnpBody b) :
    fromTagUri (tagUriPrefix ++ cs.value ++ ':' :: (f ++ '.' :: b)) = new (py "urn:epc:id:gsrnp:" ++ b) := by
  have hn := tagNames_iff.2 ⟨cs, rfl⟩
  unfold fromTagUri
  rw [fromTagUri_filter (tagNames_facts hn.1) hf, if_pos, show (split '-' cs.value).headD [] = py "gsrnp" from hn.2]
  · rfl
  · refine matchPrefix_tag (names := lit (py "gsrnp-96")) (body := Rx.gsrnpBody) (.inr ⟨(lang_tagAlt _ _ _).2 ⟨_, f, b, ?_, hf, hl, rfl⟩, ?_⟩)
    · rw [lang_lit]; cases cs; rfl
    · intro s hs
      rw [Rx.tagBody, lang_alts]
      exact ⟨_, .tail _ (.tail _ (.tail _ (.tail _ (.tail _ (.tail _ (.head _)))))), hs⟩

theorem fromTagUri_iff {t : Str} {x : GSRNP} : fromTagUri t = .ok x ↔ ∃ cs : Coding, ∃ f b, Num f ∧
    t = tagUriPrefix ++ cs.value ++ ':' :: (f ++ '.' :: b) ∧ new (py "urn:epc:id:gsrnp:" ++ b) = .ok x := by
  constructor
  · intro h
    obtain ⟨n, f, b, hn, hnm, hf, ht, hx⟩ := fromTagUri_ok (nm := py "gsrnp") (by decide) (by decide)
      (fun u x h => (uri_of_new h).2.imp fun _ h => h.1) h
    obtain ⟨cs, rfl⟩ := tagNames_iff.1 ⟨hn, hnm⟩
    exact ⟨cs, f, b, hf, ht, hx⟩
  · rintro ⟨cs, f, b, hf, rfl, h⟩
    obtain ⟨-, b', hb, hl⟩ := uri_of_new h
    have hbb : b = b' := List.append_cancel_left (as := py "urn:epc:id:gsrnp:") hb
    rw [fromTagUri_body hf (hbb ▸ hl), h]

theorem fromTagUri_of_new {cs : Coding} {f b : Str} {x : GSRNP} (hf : Num f) (h : new (py "urn:epc:id:gsrnp:" ++ b) = .ok x) :
    fromTagUri (tagUriPrefix ++ cs.value ++ ':' :: (f ++ '.' :: b)) = .ok x :=
  fromTagUri_iff.2 ⟨cs, f, b, hf, rfl, h⟩

end GSRNP

namespace GDTI

theorem uri_of_new {u : Str} {x : GDTI} (h : new u = .ok x) : x.epcUri = u ∧ ∃ b, u = py "urn:epc:id:" ++ py "gdti" ++ ':' :: b ∧ Lang Rx.gdtiBody b := by
  cases hm : Rx.gdtiUri.fullmatch u with
  | false => rw [new_nomatch hm] at h; cases h
  | true =>
    have hl := (fullmatch_iff _ _).1 hm
    rw [Rx.gdtiUri, lang_lit_seq] at hl
    obtain ⟨b, rfl, hb⟩ := hl
    refine ⟨?_, b, rfl, hb⟩
    obtain ⟨_, _, _, _, _, _, rfl⟩ := new_iff.1 h
    rfl

theorem tagNames_iff {n : Str} : (n ∈ tagNames ∧ tagName n = py "gdti") ↔ ∃ cs : Coding, n = cs.value := by
  constructor
  · rintro ⟨h, h'⟩
    have : ∀ n ∈ tagNames, tagName n = py "gdti" → n = Coding.value .gdti96 ∨ n = Coding.value .gdti174 := by decide +kernel
    exact (this n h h').elim (fun h => ⟨_, h⟩) (fun h => ⟨_, h⟩)
  · rintro ⟨cs, rfl⟩
    cases cs <;> decide +kernel

/-- `from_tag_uri` is the constructor on the pure identity URI. -/
theorem fromTagUri_body {cs : Coding} {f b : Str} (hf : Num f) (hl : Lang Rx.gdtiBody b) :
    fromTagUri (tagUriPrefix ++ cs.value ++ ':' :: (f ++ '.' :: b)) = new (py "urn:epc:id:gdti:" ++ b) := by
  have hn := tagNames_iff.2 ⟨cs, rfl⟩
  unfold fromTagUri
  rw [fromTagUri_filter (tagNames_facts hn.1) hf, if_pos, show (split '-' cs.value).headD [] = py "gdti" from hn.2]
  · rfl
  · refine matchPrefix_tag (names := alts [lit (py "gdti-96"), lit (py "gdti-174")]) (body := Rx.gdtiBody) (.inr ⟨(lang_tagAlt _ _ _).2 ⟨_, f, b, ?_, hf, hl, rfl⟩, ?_⟩)
    · rw [lang_alts]; cases cs <;> simp [lang_lit, Coding.value]
    · intro s hs
      rw [Rx.tagBody, lang_alts]
      exact ⟨_, .tail _ (.tail _ (.tail _ (.tail _ (.tail _ (.tail _ (.tail _ (.head _))))))), hs⟩

theorem fromTagUri_iff {t : Str} {x : GDTI} : fromTagUri t = .ok x ↔ ∃ cs : Coding, ∃ f b, Num f ∧
    t = tagUriPrefix ++ cs.value ++ ':' :: (f ++ '.' :: b) ∧ new (py "urn:epc:id:gdti:" ++ b) = .ok x := by
  constructor
  · intro h
    obtain ⟨n, f, b, hn, hnm, hf, ht, hx⟩ := fromTagUri_ok (nm := py "gdti") (by decide) (by decide)
      (fun u x h => (uri_of_new h).2.imp fun _ h => h.1) h
    obtain ⟨cs, rfl⟩ := tagNames_iff.1 ⟨hn, hnm⟩
    exact ⟨cs, f, b, hf, ht, hx⟩
  · rintro ⟨cs, f, b, hf, rfl, h⟩
    obtain ⟨-, b', hb, hl⟩ := uri_of_new h
    have hbb : b = b' := List.append_cancel_left (as := py "urn:epc:id:gdti:") hb
    rw [fromTagUri_body hf (hbb ▸ hl), h]

theorem fromTagUri_of_new {cs : Coding} {f b : Str} {x : GDTI} (hf : Num f) (h : new (py "urn:epc:id:gdti:" ++ b) = .ok x) :
    fromTagUri (tagUriPrefix ++ cs.value ++ ':' :: (f ++ '.' :: b)) = .ok x :=
  fromTagUri_iff.2 ⟨cs, f, b, hf, rfl, h⟩

end GDTI

namespace CPI

theorem uri_of_new {u : Str} {x : CPI} (h : new u = .ok x) : x.epcUri = u ∧ ∃ b, u = py "urn:epc:id:" ++ py "cpi" ++ ':' :: b ∧ Lang Rx.cpiBody b := by
  cases hm : Rx.cpiUri.fullmatch u with
  | false => rw [new_nomatch hm] at h; cases h
  | true =>
    have hl := (fullmatch_iff _ _).1 hm
    rw [Rx.cpiUri, lang_lit_seq] at hl
    obtain ⟨b, rfl, hb⟩ := hl
    refine ⟨?_, b, rfl, hb⟩
    obtain ⟨_, _, _, _, _, _, rfl⟩ := new_iff.1 h
    rfl

theorem tagNames_iff {n : Str} : (n ∈ tagNames ∧ tagName n = py "cpi") ↔ ∃ cs : Coding, n = cs.value := by
  constructor
  · rintro ⟨h, h'⟩
    have : ∀ n ∈ tagNames, tagName n = py "cpi" → n = Coding.value .cpi96 ∨ n = Coding.value .cpiVar := by decide +kernel
    exact (this n h h').elim (fun h => ⟨_, h⟩) (fun h => ⟨_, h⟩)
  · rintro ⟨cs, rfl⟩
    cases cs <;> decide +kernel

/-- `from_tag_uri` is the constructor on the pure identity URI. -/
theorem fromTagUri_body {cs : Coding} {f b : Str} (hf : Num f) (hl : Lang Rx.cpiBody b) :
    fromTagUri (tagUriPrefix ++ cs.value ++ ':' :: (f ++ '.' :: b)) = new (py "urn:epc:id:cpi:" ++ b) := by
  have hn := tagNames_iff.2 ⟨cs, rfl⟩
  unfold fromTagUri
  rw [fromTagUri_filter (tagNames_facts hn.1) hf, if_pos, show (split '-' cs.value).headD [] = py "cpi" from hn.2]
  · rfl
  · refine matchPrefix_tag (names := alts [lit (py "cpi-96"), lit (py "cpi-var")]) (body := Rx.cpiBody) (.inr ⟨(lang_tagAlt _ _ _).2 ⟨_, f, b, ?_, hf, hl, rfl⟩, ?_⟩)
    · rw [lang_alts]; cases cs <;> simp [lang_lit, Coding.value]
    · intro s hs
      rw [Rx.tagBody, lang_alts]
      exact ⟨_, .tail _ (.tail _ (.tail _ (.tail _ (.tail _ (.tail _ (.tail _ (.tail _ (.head _)))))))), hs⟩

theorem fromTagUri_iff {t : Str} {x : CPI} : fromTagUri t = .ok x ↔ ∃ cs : Coding, ∃ f b, Num f ∧
    t = tagUriPrefix ++ cs.value ++ ':' :: (f ++ '.' :: b) ∧ new (py "urn:epc:id:cpi:" ++ b) = .ok x := by
  constructor
  · intro h
    obtain ⟨n, f, b, hn, hnm, hf, ht, hx⟩ := fromTagUri_ok (nm := py "cpi") (by decide) (by decide)
      (fun u x h => (uri_of_new h).2.imp fun _ h => h.1) h
    obtain ⟨cs, rfl⟩ := tagNames_iff.1 ⟨hn, hnm⟩
    exact ⟨cs, f, b, hf, ht, hx⟩
  · rintro ⟨cs, f, b, hf, rfl, h⟩
    obtain ⟨-, b', hb, hl⟩ := uri_of_new h
    have hbb : b = b' := List.append_cancel_left (as := py "urn:epc:id:cpi:") hb
    rw [fromTagUri_body hf (hbb ▸ hl), h]

theorem fromTagUri_of_new {cs : Coding} {f b : Str} {x : CPI} (hf : Num f) (h : new (py "urn:epc:id:cpi:" ++ b) = .ok x) :
    fromTagUri (tagUriPrefix ++ cs.value ++ ':' :: (f ++ '.' :: b)) = .ok x :=
  fromTagUri_iff.2 ⟨cs, f, b, hf, rfl, h⟩

end CPI

namespace SGCN

theorem uri_of_new {u : Str} {x : SGCN} (h : new u = .ok x) : x.epcUri = u ∧ ∃ b, u = py "urn:epc:id:" ++ py "sgcn" ++ ':' :: b ∧ Lang Rx.sgcnBody b := by
  cases hm : Rx.sgcnUri.fullmatch u with
  | false => rw [new_nomatch hm] at h; cases h
  | true =>
    have hl := (fullmatch_iff _ _).1 hm
    rw [Rx.sgcnUri, lang_lit_seq] at hl
    obtain ⟨b, rfl, hb⟩ := hl
    refine ⟨?_, b, rfl, hb⟩
    obtain ⟨_, _, _, _, _, _, rfl⟩ := new_iff.1 h
    rfl

theorem tagNames_iff {n : Str} : (n ∈ tagNames ∧ tagName n = py "sgcn") ↔ ∃ cs : Coding, n = cs.value := by
  constructor
  · rintro ⟨h, h'⟩
    have : ∀ n ∈ tagNames, tagName n = py "sgcn" → n = Coding.value .sgcn96 := by decide +kernel
    exact ⟨_, this n h h'⟩
  · rintro ⟨cs, rfl⟩
    cases cs <;> decide +kernel

/-- `from_tag_uri` is the constructor on the pure identity URI. -/
theorem fromTagUri_body {cs : Coding} {f b : Str} (hf : Num f) (hl : Lang Rx.sgcnBody b) :
    fromTagUri (tagUriPrefix ++ cs.value ++ ':' :: (f ++ '.' :: b)) = new (py "urn:epc:id:sgcn:" ++ b) := by
  have hn := tagNames_iff.2 ⟨cs, rfl⟩
  unfold fromTagUri
  rw [fromTagUri_filter (tagNames_facts hn.1) hf, if_pos, show (split '-' cs.value).headD [] = py "sgcn" from hn.2]
  · rfl
  · refine matchPrefix_tag (names := lit (py "sgcn-96")) (body := Rx.sgcnBody) (.inr ⟨(lang_tagAlt _ _ _).2 ⟨_, f, b, ?_, hf, hl, rfl⟩, ?_⟩)
    · rw [lang_lit]; cases cs; rfl
    · intro s hs
      rw [Rx.tagBody, lang_alts]
      exact ⟨_, .tail _ (.tail _ (.tail _ (.tail _ (.tail _ (.tail _ (.tail _ (.tail _ (.tail _ (.head _))))))))), hs⟩

theorem fromTagUri_iff {t : Str} {x : SGCN} : fromTagUri t = .ok x ↔ ∃ cs : Coding, ∃ f b, Num f ∧
    t = tagUriPrefix ++ cs.value ++ ':' :: (f ++ '.' :: b) ∧ new (py "urn:epc:id:sgcn:" ++ b) = .ok x := by
  constructor
  · intro h
    obtain ⟨n, f, b, hn, hnm, hf, ht, hx⟩ := fromTagUri_ok (nm := py "sgcn") (by decide) (by decide)
      (fun u x h => (uri_of_new h).2.imp fun _ h => h.1) h
    obtain ⟨cs, rfl⟩ := tagNames_iff.1 ⟨hn, hnm⟩
    exact ⟨cs, f, b, hf, ht, hx⟩
  · rintro ⟨cs, f, b, hf, rfl, h⟩
    obtain ⟨-, b', hb, hl⟩ := uri_of_new h
    have hbb : b = b' := List.append_cancel_left (as := py "urn:epc:id:sgcn:") hb
    rw [fromTagUri_body hf (hbb ▸ hl), h]

theorem fromTagUri_of_new {cs : Coding} {f b : Str} {x : SGCN} (hf : Num f) (h : new (py "urn:epc:id:sgcn:" ++ b) = .ok x) :
    fromTagUri (tagUriPrefix ++ cs.value ++ ':' :: (f ++ '.' :: b)) = .ok x :=
  fromTagUri_iff.2 ⟨cs, f, b, hf, rfl, h⟩

end SGCN

namespace ITIP

theorem uri_of_new {u : Str} {x : ITIP} (h : new u = .ok x) : x.epcUri = u ∧ ∃ b, u = py "urn:epc:id:" ++ py "itip" ++ ':' :: b ∧ Lang Rx.itipBody b := by
  cases hm : Rx.itipUri.fullmatch u with
  | false => rw [new_nomatch hm] at h; cases h
  | true =>
    have hl := (fullmatch_iff _ _).1 hm
    rw [Rx.itipUri, lang_lit_seq] at hl
    obtain ⟨b, rfl, hb⟩ := hl
    refine ⟨?_, b, rfl, hb⟩
    obtain ⟨_, _, _, _, _, _, _, _, rfl⟩ := new_iff.1 h
    rfl

theorem tagNames_iff {n : Str} : (n ∈ tagNames ∧ tagName n = py "itip") ↔ ∃ cs : Coding, n = cs.value := by
  constructor
  · rintro ⟨h, h'⟩
    have : ∀ n ∈ tagNames, tagName n = py "itip" → n = Coding.value .itip110 ∨ n = Coding.value .itip212 := by decide +kernel
    exact (this n h h').elim (fun h => ⟨_, h⟩) (fun h => ⟨_, h⟩)
  · rintro ⟨cs, rfl⟩
    cases cs <;> decide +kernel

/-- `from_tag_uri` is the constructor on the pure identity URI. -/
theorem fromTagUri_body {cs : Coding} {f b : Str} (hf : Num f) (hl : Lang Rx.itipBody b) :
    fromTagUri (tagUriPrefix ++ cs.value ++ ':' :: (f ++ '.' :: b)) = new (py "urn:epc:id:itip:" ++ b) := by
  have hn := tagNames_iff.2 ⟨cs, rfl⟩
  unfold fromTagUri
  rw [fromTagUri_filter (tagNames_facts hn.1) hf, if_pos, show (split '-' cs.value).headD [] = py "itip" from hn.2]
  · rfl
  · refine matchPrefix_tag (names := alts [lit (py "itip-110"), lit (py "itip-212")]) (body := Rx.itipBody) (.inr ⟨(lang_tagAlt _ _ _).2 ⟨_, f, b, ?_, hf, hl, rfl⟩, ?_⟩)
    · rw [lang_alts]; cases cs <;> simp [lang_lit, Coding.value]
    · intro s hs
      rw [Rx.tagBody, lang_alts]
      exact ⟨_, .tail _ (.tail _ (.tail _ (.tail _ (.tail _ (.tail _ (.tail _ (.tail _ (.tail _ (.tail _ (.head _)))))))))), hs⟩

theorem fromTagUri_iff {t : Str} {x : ITIP} : fromTagUri t = .ok x ↔ ∃ cs : Coding, ∃ f b, Num f ∧
    t = tagUriPrefix ++ cs.value ++ ':' :: (f ++ '.' :: b) ∧ new (py "urn:epc:id:itip:" ++ b) = .ok x := by
  constructor
  · intro h
    obtain ⟨n, f, b, hn, hnm, hf, ht, hx⟩ := fromTagUri_ok (nm := py "itip") (by decide) (by decide)
      (fun u x h => (uri_of_new h).2.imp fun _ h => h.1) h
    obtain ⟨cs, rfl⟩ := tagNames_iff.1 ⟨hn, hnm⟩
    exact ⟨cs, f, b, hf, ht, hx⟩
  · rintro ⟨cs, f, b, hf, rfl, h⟩
    obtain ⟨-, b', hb, hl⟩ := uri_of_new h
    have hbb : b = b' := List.append_cancel_left (as := py "urn:epc:id:itip:") hb
    rw [fromTagUri_body hf (hbb ▸ hl), h]

theorem fromTagUri_of_new {cs : Coding} {f b : Str} {x : ITIP} (hf : Num f) (h : new (py "urn:epc:id:itip:" ++ b) = .ok x) :
    fromTagUri (tagUriPrefix ++ cs.value ++ ':' :: (f ++ '.' :: b)) = .ok x :=
  fromTagUri_iff.2 ⟨cs, f, b, hf, rfl, h⟩

end ITIP

namespace GID

theorem uri_of_new {u : Str} {x : GID} (h : new u = .ok x) : x.epcUri = u ∧ ∃ b, u = py "urn:epc:id:" ++ py "gid" ++ ':' :: b ∧ Lang Rx.gidBody b := by
  cases hm : Rx.gidUri.fullmatch u with
  | false => rw [new_nomatch hm] at h; cases h
  | true =>
    have hl := (fullmatch_iff _ _).1 hm
    rw [Rx.gidUri, lang_lit_seq] at hl
    obtain ⟨b, rfl, hb⟩ := hl
    refine ⟨?_, b, rfl, hb⟩
    obtain ⟨_, _, _, _, _, _, rfl⟩ := new_iff.1 h
    rfl

theorem fromTagUri_iff {t : Str} {x : GID} : fromTagUri t = .ok x ↔ ∃ b r, (r = [] ∨ ∃ r', r = ':' :: r') ∧
    t = tagUriPrefix ++ Coding.value .gid96 ++ ':' :: (b ++ r) ∧ new (py "urn:epc:id:gid:" ++ b) = .ok x := by
  constructor
  · intro h
    unfold fromTagUri at h
    cases hm : Rx.tagUri.matchPrefix t with
    | false => rw [fromTagUri_nomatch hm] at h; cases h
    | true =>
      obtain ⟨n, b, hn, rfl, -⟩ := tagUri_match hm
      have hnf := tagNames_facts hn
      rw [fromTagUri_nofilter hnf.1, if_pos hm] at h
      obtain ⟨-, b', hb, -⟩ := uri_of_new h
      rw [List.append_assoc, List.append_assoc] at hb
      have hc : ':' ∉ (split '-' n).headD [] := fun hc => hnf.1 (headD_split_mem hc)
      have e := (append_sep_inj hc (by decide) (List.append_cancel_left hb)).1
      have hn' : n = py "gid-96" := by
        have : ∀ n ∈ tagNames, (split '-' n).headD [] = py "gid" → n = py "gid-96" := by decide +kernel
        exact this n hn e
      obtain ⟨r, hr, hr'⟩ := headD_split_append ':' b
      refine ⟨(split ':' b).headD [], r, hr', ?_, ?_⟩
      · rw [← hr, hn']; rfl
      · rw [e] at h; exact h
  · rintro ⟨b, r, hr, rfl, h⟩
    unfold fromTagUri
    obtain ⟨-, b', hb, hl⟩ := uri_of_new h
    have hbb : b = b' := List.append_cancel_left (as := py "urn:epc:id:gid:") hb
    subst hbb
    have hcol : ':' ∉ b := by
      obtain ⟨C, D, S, ⟨hC, hD, hS⟩, _, hu, _⟩ := new_iff.1 h
      rw [List.append_cancel_left (as := py "urn:epc:id:gid:") hu]
      exact noColon3 hC.dec.no_colon hD.dec.no_colon hS.dec.no_colon
    have hh : (split ':' (b ++ r)).headD [] = b := by
      rcases hr with rfl | ⟨r', rfl⟩
      · rw [List.append_nil, split_notMem hcol]; rfl
      · rw [split_append_sep hcol]; rfl
    rw [fromTagUri_nofilter (by decide), hh, if_pos]
    · exact h
    · refine (matchPrefix_iff _ _).2 ⟨py "urn:epc:tag:" ++ (py "gid-96" ++ ':' :: b), r, by simp [tagUriPrefix, Coding.value], ?_⟩
      rw [Rx.tagUri, lang_lit_seq]
      refine ⟨_, rfl, ?_⟩
      rw [Rx.tagBody, lang_alts]
      refine ⟨seqs [lit (py "gid-96"), Re.chr ':', Rx.gidBody], by simp, ?_⟩
      simp only [seqs, Lang, lang_chr, lang_lit]
      exact ⟨_, _, rfl, rfl, [':'], b, rfl, rfl, hl⟩

theorem fromTagUri_of_new {b : Str} {x : GID} (h : new (py "urn:epc:id:gid:" ++ b) = .ok x) :
    fromTagUri (tagUriPrefix ++ Coding.value .gid96 ++ ':' :: b) = .ok x :=
  fromTagUri_iff.2 ⟨b, [], .inl rfl, by simp, h⟩

/-- Apart from the result: `from_tag_uri` is the constructor on the pure identity URI. -/
theorem fromTagUri_body {b : Str} (hl : Lang Rx.gidBody b) (hc : ':' ∉ b) :
    fromTagUri (tagUriPrefix ++ Coding.value .gid96 ++ ':' :: b) = new (py "urn:epc:id:gid:" ++ b) := by
  unfold fromTagUri
  rw [fromTagUri_nofilter (by decide), split_notMem hc, if_pos]
  · rfl
  · refine matchPrefix_of_fullmatch ((fullmatch_iff _ _).2 ?_)
    rw [Rx.tagUri, lang_lit_seq]
    refine ⟨py "gid-96" ++ ':' :: b, by simp [tagUriPrefix, Coding.value], ?_⟩
    rw [Rx.tagBody, lang_alts]
    refine ⟨seqs [lit (py "gid-96"), Re.chr ':', Rx.gidBody], by simp, ?_⟩
    simp only [seqs, Lang, lang_chr, lang_lit]
    exact ⟨_, _, rfl, rfl, [':'], b, rfl, rfl, hl⟩

end GID

namespace USDOD

theorem uri_of_new {u : Str} {x : USDOD} (h : new u = .ok x) : x.epcUri = u ∧ ∃ b, u = py "urn:epc:id:" ++ py "usdod" ++ ':' :: b ∧ Lang Rx.usdodBody b := by
  cases hm : Rx.usdodUri.fullmatch u with
  | false => rw [new_nomatch hm] at h; cases h
  | true =>
    have hl := (fullmatch_iff _ _).1 hm
    rw [Rx.usdodUri, lang_lit_seq] at hl
    obtain ⟨b, rfl, hb⟩ := hl
    refine ⟨?_, b, rfl, hb⟩
    obtain ⟨_, _, _, _, _, rfl⟩ := new_iff.1 h
    rfl

theorem tagNames_iff {n : Str} : (n ∈ tagNames ∧ tagName n = py "usdod") ↔ ∃ cs : Coding, n = cs.value := by
  constructor
  · rintro ⟨h, h'⟩
    have : ∀ n ∈ tagNames, tagName n = py "usdod" → n = Coding.value .usdod96 := by decide +kernel
    exact ⟨_, this n h h'⟩
  · rintro ⟨cs, rfl⟩
    cases cs <;> decide +kernel

/-- `from_tag_uri` is the constructor on the pure identity URI. -/
theorem fromTagUri_body {cs : Coding} {f b : Str} (hf : Num f) (hl : Lang Rx.usdodBody b) :
    fromTagUri (tagUriPrefix ++ cs.value ++ ':' :: (f ++ '.' :: b)) = new (py "urn:epc:id:usdod:" ++ b) := by
  have hn := tagNames_iff.2 ⟨cs, rfl⟩
  unfold fromTagUri
  rw [fromTagUri_filter (tagNames_facts hn.1) hf, if_pos, show (split '-' cs.value).headD [] = py "usdod" from hn.2]
  · rfl
  · refine matchPrefix_tag (names := lit (py "usdod-96")) (body := Rx.usdodBody) (.inr ⟨(lang_tagAlt _ _ _).2 ⟨_, f, b, ?_, hf, hl, rfl⟩, ?_⟩)
    · rw [lang_lit]; cases cs; rfl
    · intro s hs
      rw [Rx.tagBody, lang_alts]
      exact ⟨_, .tail _ (.tail _ (.tail _ (.tail _ (.tail _ (.tail _ (.tail _ (.tail _ (.tail _ (.tail _ (.tail _ (.tail _ (.head _)))))))))))), hs⟩

theorem fromTagUri_iff {t : Str} {x : USDOD} : fromTagUri t = .ok x ↔ ∃ cs : Coding, ∃ f b, Num f ∧
    t = tagUriPrefix ++ cs.value ++ ':' :: (f ++ '.' :: b) ∧ new (py "urn:epc:id:usdod:" ++ b) = .ok x := by
  constructor
  · intro h
    obtain ⟨n, f, b, hn, hnm, hf, ht, hx⟩ := fromTagUri_ok (nm := py "usdod") (by decide) (by decide)
      (fun u x h => (uri_of_new h).2.imp fun _ h => h.1) h
    obtain ⟨cs, rfl⟩ := tagNames_iff.1 ⟨hn, hnm⟩
    exact ⟨cs, f, b, hf, ht, hx⟩
  · rintro ⟨cs, f, b, hf, rfl, h⟩
    obtain ⟨-, b', hb, hl⟩ := uri_of_new h
    have hbb : b = b' := List.append_cancel_left (as := py "urn:epc:id:usdod:") hb
    rw [fromTagUri_body hf (hbb ▸ hl), h]

theorem fromTagUri_of_new {cs : Coding} {f b : Str} {x : USDOD} (hf : Num f) (h : new (py "urn:epc:id:usdod:" ++ b) = .ok x) :
    fromTagUri (tagUriPrefix ++ cs.value ++ ':' :: (f ++ '.' :: b)) = .ok x :=
  fromTagUri_iff.2 ⟨cs, f, b, hf, rfl, h⟩

end USDOD

namespace ADI

theorem uri_of_new {u : Str} {x : ADI} (h : new u = .ok x) : x.epcUri = u ∧ ∃ b, u = py "urn:epc:id:" ++ py "adi" ++ ':' :: b ∧ Lang Rx.adiBody b := by
  cases hm : Rx.adiUri.fullmatch u with
  | false => rw [new_nomatch hm] at h; cases h
  | true =>
    have hl := (fullmatch_iff _ _).1 hm
    rw [Rx.adiUri, lang_lit_seq] at hl
    obtain ⟨b, rfl, hb⟩ := hl
    refine ⟨?_, b, rfl, hb⟩
    obtain ⟨_, _, _, _, _, _, rfl⟩ := new_iff.1 h
    rfl

theorem tagNames_iff {n : Str} : (n ∈ tagNames ∧ tagName n = py "adi") ↔ ∃ cs : Coding, n = cs.value := by
  constructor
  · rintro ⟨h, h'⟩
    have : ∀ n ∈ tagNames, tagName n = py "adi" → n = Coding.value .adiVar := by decide +kernel
    exact ⟨_, this n h h'⟩
  · rintro ⟨cs, rfl⟩
    cases cs <;> decide +kernel

/-- `from_tag_uri` is the constructor on the pure identity URI. -/
theorem fromTagUri_body {cs : Coding} {f b : Str} (hf : Num f) (hl : Lang Rx.adiBody b) :
    fromTagUri (tagUriPrefix ++ cs.value ++ ':' :: (f ++ '.' :: b)) = new (py "urn:epc:id:adi:" ++ b) := by
  have hn := tagNames_iff.2 ⟨cs, rfl⟩
  unfold fromTagUri
  rw [fromTagUri_filter (tagNames_facts hn.1) hf, if_pos, show (split '-' cs.value).headD [] = py "adi" from hn.2]
  · rfl
  · refine matchPrefix_tag (names := lit (py "adi-var")) (body := Rx.adiBody) (.inr ⟨(lang_tagAlt _ _ _).2 ⟨_, f, b, ?_, hf, hl, rfl⟩, ?_⟩)
    · rw [lang_lit]; cases cs; rfl
    · intro s hs
      rw [Rx.tagBody, lang_alts]
      exact ⟨_, .tail _ (.tail _ (.tail _ (.tail _ (.tail _ (.tail _ (.tail _ (.tail _ (.tail _ (.tail _ (.tail _ (.tail _ (.tail _ (.head _))))))))))))), hs⟩

theorem fromTagUri_iff {t : Str} {x : ADI} : fromTagUri t = .ok x ↔ ∃ cs : Coding, ∃ f b, Num f ∧
    t = tagUriPrefix ++ cs.value ++ ':' :: (f ++ '.' :: b) ∧ new (py "urn:epc:id:adi:" ++ b) = .ok x := by
  constructor
  · intro h
    obtain ⟨n, f, b, hn, hnm, hf, ht, hx⟩ := fromTagUri_ok (nm := py "adi") (by decide) (by decide)
      (fun u x h => (uri_of_new h).2.imp fun _ h => h.1) h
    obtain ⟨cs, rfl⟩ := tagNames_iff.1 ⟨hn, hnm⟩
    exact ⟨cs, f, b, hf, ht, hx⟩
  · rintro ⟨cs, f, b, hf, rfl, h⟩
    obtain ⟨-, b', hb, hl⟩ := uri_of_new h
    have hbb : b = b' := List.append_cancel_left (as := py "urn:epc:id:adi:") hb
    rw [fromTagUri_body hf (hbb ▸ hl), h]

theorem fromTagUri_of_new {cs : Coding} {f b : Str} {x : ADI} (hf : Num f) (h : new (py "urn:epc:id:adi:" ++ b) = .ok x) :
    fromTagUri (tagUriPrefix ++ cs.value ++ ':' :: (f ++ '.' :: b)) = .ok x :=
  fromTagUri_iff.2 ⟨cs, f, b, hf, rfl, h⟩

end ADI

end Epc
