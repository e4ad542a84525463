/-
Which tag URIs make `from_tag_uri` raise something else than ConvertException (used by C70).  Generated by tools/gen_c70.py.
-/
import Verif.Lemmas.TagUri

namespace Epc
open Re

/-- The counterpart of `fromTagUri_ok` for exceptions. -/
theorem fromTagUri_err {α : Type} {new : Str → Except Err α} {nm t : Str} {e : Err} (he : e ≠ .convert) (hnm : ':' ∉ nm) (hg : nm ≠ py "gid")
    (hnew : ∀ u, new u = .error e → ∃ b, u = py "urn:epc:id:" ++ nm ++ ':' :: b) (h : fromTagUri new true t = .error e) :
    ∃ n f b, n ∈ tagNames ∧ tagName n = nm ∧ Num f ∧ t = tagUriPrefix ++ n ++ ':' :: (f ++ '.' :: b) ∧
      new (py "urn:epc:id:" ++ nm ++ ':' :: b) = .error e := by
  cases hm : Rx.tagUri.matchPrefix t with
  | false => rw [fromTagUri_nomatch hm] at h; injection h with h; exact absurd h.symm he
  | true =>
    obtain ⟨n, b, hn, rfl, hc⟩ := tagUri_match hm
    rcases hc with rfl | ⟨f, b, hf, rfl⟩
    · exfalso
      simp only [fromTagUri, hm, Bool.not_true, Bool.false_eq_true, if_false, if_true] at h
      have hs : split ':' (tagUriPrefix ++ py "gid-96" ++ ':' :: b) = py "urn" :: py "epc" :: py "tag" :: py "gid-96" :: split ':' b := by
        rw [show tagUriPrefix ++ py "gid-96" ++ ':' :: b = py "urn" ++ ':' :: (py "epc" ++ ':' :: (py "tag" ++ ':' :: (py "gid-96" ++ ':' :: b)))
          by simp [tagUriPrefix]]
        rw [split_append_sep (by decide), split_append_sep (by decide), split_append_sep (by decide), split_append_sep (by decide)]
      rw [hs, show getPart (py "urn" :: py "epc" :: py "tag" :: py "gid-96" :: split ':' b) 3 = .ok (py "gid-96") from rfl, ok_bind, ok_bind,
        show getPart (split '-' (py "gid-96")) 0 = .ok (py "gid") by decide, ok_bind] at h
      obtain ⟨b', hb⟩ := hnew _ h
      rw [List.append_assoc, List.append_assoc] at hb
      exact hg (append_sep_inj (by decide) hnm (List.append_cancel_left hb)).1.symm
    · have hnf := tagNames_facts hn
      rw [fromTagUri_filter hnf hf, if_pos hm] at h
      obtain ⟨b', hb⟩ := hnew _ h
      rw [List.append_assoc, List.append_assoc] at hb
      have hc : ':' ∉ (split '-' n).headD [] := fun hc => hnf.1 (headD_split_mem hc)
      have e' := (append_sep_inj hc hnm (List.append_cancel_left hb)).1
      exact ⟨n, f, b, hn, e', hf, rfl, e' ▸ h⟩

namespace SGTIN

theorem uri_of_err {u : Str} {e : Err} (he : e ≠ .convert) (h : new u = .error e) :
    ∃ b, u = py "urn:epc:id:" ++ py "sgtin" ++ ':' :: b ∧ Lang Rx.sgtinBody b := by
  cases hm : Rx.sgtinUri.fullmatch u with
  | false => rw [new_nomatch hm] at h; injection h with h; exact absurd h.symm he
  | true =>
    have hl := (fullmatch_iff _ _).1 hm
    rw [Rx.sgtinUri, lang_lit_seq] at hl
    obtain ⟨b, rfl, hb⟩ := hl
    exact ⟨b, rfl, hb⟩

theorem fromTagUri_err_iff {t : Str} {e : Err} (he : e ≠ .convert) : fromTagUri t = .error e ↔ ∃ cs : Coding, ∃ f b, Num f ∧
    t = tagUriPrefix ++ cs.value ++ ':' :: (f ++ '.' :: b) ∧ new (py "urn:epc:id:sgtin:" ++ b) = .error e := by
  constructor
  · intro h
    obtain ⟨n, f, b, hn, hnm, hf, ht, hx⟩ := Epc.fromTagUri_err (nm := py "sgtin") he (by decide) (by decide)
      (fun u h => (uri_of_err he h).imp fun _ h => h.1) h
    obtain ⟨cs, rfl⟩ := tagNames_iff.1 ⟨hn, hnm⟩
    exact ⟨cs, f, b, hf, ht, hx⟩
  · rintro ⟨cs, f, b, hf, rfl, h⟩
    obtain ⟨b', hb, hl⟩ := uri_of_err he h
    have hbb : b = b' := List.append_cancel_left (as := py "urn:epc:id:sgtin:") hb
    rw [fromTagUri_body hf (hbb ▸ hl), h]

end SGTIN

namespace SGLN

theorem uri_of_err {u : Str} {e : Err} (he : e ≠ .convert) (h : new u = .error e) :
    ∃ b, u = py "urn:epc:id:" ++ py "sgln" ++ ':' :: b ∧ Lang Rx.sglnBody b := by
  cases hm : Rx.sglnUri.fullmatch u with
  | false => rw [new_nomatch hm] at h; injection h with h; exact absurd h.symm he
  | true =>
    have hl := (fullmatch_iff _ _).1 hm
    rw [Rx.sglnUri, lang_lit_seq] at hl
    obtain ⟨b, rfl, hb⟩ := hl
    exact ⟨b, rfl, hb⟩

theorem fromTagUri_err_iff {t : Str} {e : Err} (he : e ≠ .convert) : fromTagUri t = .error e ↔ ∃ cs : Coding, ∃ f b, Num f ∧
    t = tagUriPrefix ++ cs.value ++ ':' :: (f ++ '.' :: b) ∧ new (py "urn:epc:id:sgln:" ++ b) = .error e := by
  constructor
  · intro h
    obtain ⟨n, f, b, hn, hnm, hf, ht, hx⟩ := Epc.fromTagUri_err (nm := py "sgln") he (by decide) (by decide)
      (fun u h => (uri_of_err he h).imp fun _ h => h.1) h
    obtain ⟨cs, rfl⟩ := tagNames_iff.1 ⟨hn, hnm⟩
    exact ⟨cs, f, b, hf, ht, hx⟩
  · rintro ⟨cs, f, b, hf, rfl, h⟩
    obtain ⟨b', hb, hl⟩ := uri_of_err he h
    have hbb : b = b' := List.append_cancel_left (as := py "urn:epc:id:sgln:") hb
    rw [fromTagUri_body hf (hbb ▸ hl), h]

end SGLN

namespace GRAI

theorem uri_of_err {u : Str} {e : Err} (he : e ≠ .convert) (h : new u = .error e) :
    ∃ b, u = py "urn:epc:id:" ++ py "grai" ++ ':' :: b ∧ Lang Rx.graiBody b := by
  cases hm : Rx.graiUri.fullmatch u with
  | false => rw [new_nomatch hm] at h; injection h with h; exact absurd h.symm he
  | true =>
    have hl := (fullmatch_iff _ _).1 hm
    rw [Rx.graiUri, lang_lit_seq] at hl
    obtain ⟨b, rfl, hb⟩ := hl
    exact ⟨b, rfl, hb⟩

theorem fromTagUri_err_iff {t : Str} {e : Err} (he : e ≠ .convert) : fromTagUri t = .error e ↔ ∃ cs : Coding, ∃ f b, Num f ∧
    t = tagUriPrefix ++ cs.value ++ ':' :: (f ++ '.' :: b) ∧ new (py "urn:epc:id:grai:" ++ b) = .error e := by
  constructor
  · intro h
    obtain ⟨n, f, b, hn, hnm, hf, ht, hx⟩ := Epc.fromTagUri_err (nm := py "grai") he (by decide) (by decide)
      (fun u h => (uri_of_err he h).imp fun _ h => h.1) h
    obtain ⟨cs, rfl⟩ := tagNames_iff.1 ⟨hn, hnm⟩
    exact ⟨cs, f, b, hf, ht, hx⟩
  · rintro ⟨cs, f, b, hf, rfl, h⟩
    obtain ⟨b', hb, hl⟩ := uri_of_err he h
    have hbb : b = b' := List.append_cancel_left (as := py "urn:epc:id:grai:") hb
    rw [fromTagUri_body hf (hbb ▸ hl), h]

end GRAI

namespace GIAI

theorem uri_of_err {u : Str} {e : Err} (he : e ≠ .convert) (h : new u = .error e) :
    ∃ b, u = py "urn:epc:id:" ++ py "giai" ++ ':' :: b ∧ Lang Rx.giaiBody b := by
  cases hm : Rx.giaiUri.fullmatch u with
  | false => rw [new_nomatch hm] at h; injection h with h; exact absurd h.symm he
  | true =>
    have hl := (fullmatch_iff _ _).1 hm
    rw [Rx.giaiUri, lang_lit_seq] at hl
    obtain ⟨b, rfl, hb⟩ := hl
    exact ⟨b, rfl, hb⟩

theorem fromTagUri_err_iff {t : Str} {e : Err} (he : e ≠ .convert) : fromTagUri t = .error e ↔ ∃ cs : Coding, ∃ f b, Num f ∧
    t = tagUriPrefix ++ cs.value ++ ':' :: (f ++ '.' :: b) ∧ new (py "urn:epc:id:giai:" ++ b) = .error e := by
  constructor
  · intro h
    obtain ⟨n, f, b, hn, hnm, hf, ht, hx⟩ := Epc.fromTagUri_err (nm := py "giai") he (by decide) (by decide)
      (fun u h => (uri_of_err he h).imp fun _ h => h.1) h
    obtain ⟨cs, rfl⟩ := tagNames_iff.1 ⟨hn, hnm⟩
    exact ⟨cs, f, b, hf, ht, hx⟩
  · rintro ⟨cs, f, b, hf, rfl, h⟩
    obtain ⟨b', hb, hl⟩ := uri_of_err he h
    have hbb : b = b' := List.append_cancel_left (as := py "urn:epc:id:giai:") hb
    rw [fromTagUri_body hf (hbb ▸ hl), h]

end GIAI

namespace GDTI

theorem uri_of_err {u : Str} {e : Err} (he : e ≠ .convert) (h : new u = .error e) :
    ∃ b, u = py "urn:epc:id:" ++ py "gdti" ++ ':' :: b ∧ Lang Rx.gdtiBody b := by
  cases hm : Rx.gdtiUri.fullmatch u with
  | false => rw [new_nomatch hm] at h; injection h with h; exact absurd h.symm he
  | true =>
    have hl := (fullmatch_iff _ _).1 hm
    rw [Rx.gdtiUri, lang_lit_seq] at hl
    obtain ⟨b, rfl, hb⟩ := hl
    exact ⟨b, rfl, hb⟩

theorem fromTagUri_err_iff {t : Str} {e : Err} (he : e ≠ .convert) : fromTagUri t = .error e ↔ ∃ cs : Coding, ∃ f b, Num f ∧
    t = tagUriPrefix ++ cs.value ++ ':' :: (f ++ '.' :: b) ∧ new (py "urn:epc:id:gdti:" ++ b) = .error e := by
  constructor
  · intro h
    obtain ⟨n, f, b, hn, hnm, hf, ht, hx⟩ := Epc.fromTagUri_err (nm := py "gdti") he (by decide) (by decide)
      (fun u h => (uri_of_err he h).imp fun _ h => h.1) h
    obtain ⟨cs, rfl⟩ := tagNames_iff.1 ⟨hn, hnm⟩
    exact ⟨cs, f, b, hf, ht, hx⟩
  · rintro ⟨cs, f, b, hf, rfl, h⟩
    obtain ⟨b', hb, hl⟩ := uri_of_err he h
    have hbb : b = b' := List.append_cancel_left (as := py "urn:epc:id:gdti:") hb
    rw [fromTagUri_body hf (hbb ▸ hl), h]

end GDTI

namespace ITIP

theorem uri_of_err {u : Str} {e : Err} (he : e ≠ .convert) (h : new u = .error e) :
    ∃ b, u = py "urn:epc:id:" ++ py "itip" ++ ':' :: b ∧ Lang Rx.itipBody b := by
  cases hm : Rx.itipUri.fullmatch u with
  | false => rw [new_nomatch hm] at h; injection h with h; exact absurd h.symm he
  | true =>
    have hl := (fullmatch_iff _ _).1 hm
    rw [Rx.itipUri, lang_lit_seq] at hl
    obtain ⟨b, rfl, hb⟩ := hl
    exact ⟨b, rfl, hb⟩

theorem fromTagUri_err_iff {t : Str} {e : Err} (he : e ≠ .convert) : fromTagUri t = .error e ↔ ∃ cs : Coding, ∃ f b, Num f ∧
    t = tagUriPrefix ++ cs.value ++ ':' :: (f ++ '.' :: b) ∧ new (py "urn:epc:id:itip:" ++ b) = .error e := by
  constructor
  · intro h
    obtain ⟨n, f, b, hn, hnm, hf, ht, hx⟩ := Epc.fromTagUri_err (nm := py "itip") he (by decide) (by decide)
      (fun u h => (uri_of_err he h).imp fun _ h => h.1) h
    obtain ⟨cs, rfl⟩ := tagNames_iff.1 ⟨hn, hnm⟩
    exact ⟨cs, f, b, hf, ht, hx⟩
  · rintro ⟨cs, f, b, hf, rfl, h⟩
    obtain ⟨b', hb, hl⟩ := uri_of_err he h
    have hbb : b = b' := List.append_cancel_left (as := py "urn:epc:id:itip:") hb
    rw [fromTagUri_body hf (hbb ▸ hl), h]

end ITIP

namespace SSCC

theorem fromTagUri_err_convert {t : Str} {e : Err} (h : fromTagUri t = .error e) : e = .convert := by
  refine Classical.byContradiction fun he => ?_
  obtain ⟨_, _, _, _, _, _, _, hx⟩ := Epc.fromTagUri_err (nm := py "sscc") he (by decide) (by decide)
    (fun u h => absurd (new_error h) he) h
  exact he (new_error hx)

end SSCC

namespace GSRN

theorem fromTagUri_err_convert {t : Str} {e : Err} (h : fromTagUri t = .error e) : e = .convert := by
  refine Classical.byContradiction fun he => ?_
  obtain ⟨_, _, _, _, _, _, _, hx⟩ := Epc.fromTagUri_err (nm := py "gsrn") he (by decide) (by decide)
    (fun u h => absurd (new_error h) he) h
  exact he (new_error hx)

end GSRN

namespace GSRNP

theorem fromTagUri_err_convert {t : Str} {e : Err} (h : fromTagUri t = .error e) : e = .convert := by
  refine Classical.byContradiction fun he => ?_
  obtain ⟨_, _, _, _, _, _, _, hx⟩ := Epc.fromTagUri_err (nm := py "gsrnp") he (by decide) (by decide)
    (fun u h => absurd (new_error h) he) h
  exact he (new_error hx)

end GSRNP

namespace CPI

theorem fromTagUri_err_convert {t : Str} {e : Err} (h : fromTagUri t = .error e) : e = .convert := by
  refine Classical.byContradiction fun he => ?_
  obtain ⟨_, _, _, _, _, _, _, hx⟩ := Epc.fromTagUri_err (nm := py "cpi") he (by decide) (by decide)
    (fun u h => absurd (new_error h) he) h
  exact he (new_error hx)

end CPI

namespace SGCN

theorem fromTagUri_err_convert {t : Str} {e : Err} (h : fromTagUri t = .error e) : e = .convert := by
  refine Classical.byContradiction fun he => ?_
  obtain ⟨_, _, _, _, _, _, _, hx⟩ := Epc.fromTagUri_err (nm := py "sgcn") he (by decide) (by decide)
    (fun u h => absurd (new_error h) he) h
  exact he (new_error hx)

end SGCN

namespace USDOD

theorem fromTagUri_err_convert {t : Str} {e : Err} (h : fromTagUri t = .error e) : e = .convert := by
  refine Classical.byContradiction fun he => ?_
  obtain ⟨_, _, _, _, _, _, _, hx⟩ := Epc.fromTagUri_err (nm := py "usdod") he (by decide) (by decide)
    (fun u h => absurd (new_error h) he) h
  exact he (new_error hx)

end USDOD

namespace ADI

theorem fromTagUri_err_convert {t : Str} {e : Err} (h : fromTagUri t = .error e) : e = .convert := by
  refine Classical.byContradiction fun he => ?_
  obtain ⟨_, _, _, _, _, _, _, hx⟩ := Epc.fromTagUri_err (nm := py "adi") he (by decide) (by decide)
    (fun u h => absurd (new_error h) he) h
  exact he (new_error hx)

end ADI

theorem SGTIN.fromTagUri_new_err {cs : SGTIN.Coding} {f b : Str} {e : Err} (he : e ≠ .convert) (hf : Num f) :
    SGTIN.fromTagUri (tagUriPrefix ++ cs.value ++ ':' :: (f ++ '.' :: b)) = .error e ↔ SGTIN.new (py "urn:epc:id:sgtin:" ++ b) = .error e := by
  constructor
  · intro h
    have hn := SGTIN.tagNames_iff.2 ⟨cs, rfl⟩
    unfold SGTIN.fromTagUri at h
    rw [fromTagUri_filter (tagNames_facts hn.1) hf, show (split '-' cs.value).headD [] = py "sgtin" from hn.2] at h
    split at h
    · exact h
    · injection h with h; exact absurd h.symm he
  · intro h
    exact (SGTIN.fromTagUri_err_iff he).2 ⟨cs, f, b, hf, rfl, h⟩

theorem SGLN.fromTagUri_new_err {cs : SGLN.Coding} {f b : Str} {e : Err} (he : e ≠ .convert) (hf : Num f) :
    SGLN.fromTagUri (tagUriPrefix ++ cs.value ++ ':' :: (f ++ '.' :: b)) = .error e ↔ SGLN.new (py "urn:epc:id:sgln:" ++ b) = .error e := by
  constructor
  · intro h
    have hn := SGLN.tagNames_iff.2 ⟨cs, rfl⟩
    unfold SGLN.fromTagUri at h
    rw [fromTagUri_filter (tagNames_facts hn.1) hf, show (split '-' cs.value).headD [] = py "sgln" from hn.2] at h
    split at h
    · exact h
    · injection h with h; exact absurd h.symm he
  · intro h
    exact (SGLN.fromTagUri_err_iff he).2 ⟨cs, f, b, hf, rfl, h⟩

theorem GRAI.fromTagUri_new_err {cs : GRAI.Coding} {f b : Str} {e : Err} (he : e ≠ .convert) (hf : Num f) :
    GRAI.fromTagUri (tagUriPrefix ++ cs.value ++ ':' :: (f ++ '.' :: b)) = .error e ↔ GRAI.new (py "urn:epc:id:grai:" ++ b) = .error e := by
  constructor
  · intro h
    have hn := GRAI.tagNames_iff.2 ⟨cs, rfl⟩
    unfold GRAI.fromTagUri at h
    rw [fromTagUri_filter (tagNames_facts hn.1) hf, show (split '-' cs.value).headD [] = py "grai" from hn.2] at h
    split at h
    · exact h
    · injection h with h; exact absurd h.symm he
  · intro h
    exact (GRAI.fromTagUri_err_iff he).2 ⟨cs, f, b, hf, rfl, h⟩

theorem GIAI.fromTagUri_new_err {cs : GIAI.Coding} {f b : Str} {e : Err} (he : e ≠ .convert) (hf : Num f) :
    GIAI.fromTagUri (tagUriPrefix ++ cs.value ++ ':' :: (f ++ '.' :: b)) = .error e ↔ GIAI.new (py "urn:epc:id:giai:" ++ b) = .error e := by
  constructor
  · intro h
    have hn := GIAI.tagNames_iff.2 ⟨cs, rfl⟩
    unfold GIAI.fromTagUri at h
    rw [fromTagUri_filter (tagNames_facts hn.1) hf, show (split '-' cs.value).headD [] = py "giai" from hn.2] at h
    split at h
    · exact h
    · injection h with h; exact absurd h.symm he
  · intro h
    exact (GIAI.fromTagUri_err_iff he).2 ⟨cs, f, b, hf, rfl, h⟩

theorem GDTI.fromTagUri_new_err {cs : GDTI.Coding} {f b : Str} {e : Err} (he : e ≠ .convert) (hf : Num f) :
    GDTI.fromTagUri (tagUriPrefix ++ cs.value ++ ':' :: (f ++ '.' :: b)) = .error e ↔ GDTI.new (py "urn:epc:id:gdti:" ++ b) = .error e := by
  constructor
  · intro h
    have hn := GDTI.tagNames_iff.2 ⟨cs, rfl⟩
    unfold GDTI.fromTagUri at h
    rw [fromTagUri_filter (tagNames_facts hn.1) hf, show (split '-' cs.value).headD [] = py "gdti" from hn.2] at h
    split at h
    · exact h
    · injection h with h; exact absurd h.symm he
  · intro h
    exact (GDTI.fromTagUri_err_iff he).2 ⟨cs, f, b, hf, rfl, h⟩

theorem ITIP.fromTagUri_new_err {cs : ITIP.Coding} {f b : Str} {e : Err} (he : e ≠ .convert) (hf : Num f) :
    ITIP.fromTagUri (tagUriPrefix ++ cs.value ++ ':' :: (f ++ '.' :: b)) = .error e ↔ ITIP.new (py "urn:epc:id:itip:" ++ b) = .error e := by
  constructor
  · intro h
    have hn := ITIP.tagNames_iff.2 ⟨cs, rfl⟩
    unfold ITIP.fromTagUri at h
    rw [fromTagUri_filter (tagNames_facts hn.1) hf, show (split '-' cs.value).headD [] = py "itip" from hn.2] at h
    split at h
    · exact h
    · injection h with h; exact absurd h.symm he
  · intro h
    exact (ITIP.fromTagUri_err_iff he).2 ⟨cs, f, b, hf, rfl, h⟩

theorem GID.fromTagUri_err_convert {t : Str} {e : Err} (h : GID.fromTagUri t = .error e) : e = .convert := by
  unfold GID.fromTagUri at h
  cases hm : Rx.tagUri.matchPrefix t with
  | false => rw [fromTagUri_nomatch hm] at h; injection h with h; exact h.symm
  | true =>
    obtain ⟨n, b, hn, rfl, -⟩ := tagUri_match hm
    have hnf := tagNames_facts hn
    rw [fromTagUri_nofilter hnf.1, if_pos hm] at h
    exact GID.new_error h

end Epc
