/-
Generated by tools/gen_foreign.py.  Coding schemes and filter values of other classes.
-/
import Verif.Model.Foreign
import Verif.Lemmas.TagForm
import Verif.Lemmas.ParseTag
import Verif.Lemmas.Frame
import Verif.Lemmas.Encode
import Verif.Lemmas.Span

set_option linter.unusedSimpArgs false
set_option linter.unusedVariables false

namespace Epc
open Spec Re

theorem AnyCoding.value_facts (cs : AnyCoding) : cs.value ∈ tagNames ∧ tagName cs.value = cs.cls.name := by
  rcases cs with c | c | c | c | c | c | c | c | c | c | c | c | c | c <;> cases c <;> decide

theorem nameUri_inj {n n' b b' : Str} (hn : ':' ∉ n) (hn' : ':' ∉ n') (h : py "urn:epc:id:" ++ n ++ ':' :: b = py "urn:epc:id:" ++ n' ++ ':' :: b') :
    n = n' := by
  simp only [List.append_assoc] at h
  exact (append_sep_inj hn hn' (List.append_cancel_left h)).1

theorem foreign_tag {new : Str → Except Err α} {cs : AnyCoding} {n : Nat} {r : Str}
    (hnew : ∀ b, new (py "urn:epc:id:" ++ cs.cls.name ++ ':' :: b) = .error .convert) :
    Epc.fromTagUri new true (py "urn:epc:tag:" ++ cs.value ++ ':' :: (natStr n ++ '.' :: r)) = .error .convert := by
  have hv := cs.value_facts
  have := fromTagUri_filter (new := new) (n := cs.value) (f := natStr n) (b := r) (tagNames_facts hv.1) (num_natStr n)
  refine this.trans ?_
  split
  · rw [show (split '-' cs.value).headD [] = cs.cls.name from hv.2]
    exact hnew _
  · rfl

theorem foreign_tag' {new : Str → Except Err α} {cs : AnyCoding} {r : Str}
    (hnew : ∀ b, new (py "urn:epc:id:" ++ cs.cls.name ++ ':' :: b) = .error .convert) :
    Epc.fromTagUri new false (py "urn:epc:tag:" ++ cs.value ++ ':' :: r) = .error .convert := by
  have hv := cs.value_facts
  have := fromTagUri_nofilter (new := new) (n := cs.value) (b := r) (tagNames_facts hv.1).1
  refine this.trans ?_
  split
  · rw [show (split '-' cs.value).headD [] = cs.cls.name from hv.2]
    exact hnew _
  · rfl

theorem foreign_parse {cs : AnyCoding} {r : Str} {y : Scheme} (h : tagUriToTagEncodable (py "urn:epc:tag:" ++ cs.value ++ ':' :: r) = .ok y) :
    y.cls = cs.cls := by
  obtain ⟨c, hc⟩ := (tagUriToTagEncodable_iff _ _).1 h
  obtain ⟨h1, -, size, r', hs, e⟩ := Cls.fromTagUri_facts hc
  have hv := cs.value_facts
  have e' : cs.value ++ ':' :: r = (c.name ++ '-' :: size) ++ ':' :: r' := by
    have e1 : py "urn:epc:tag:" ++ (cs.value ++ ':' :: r) = py "urn:epc:tag:" ++ ((c.name ++ '-' :: size) ++ ':' :: r') := by
      simpa [tagUriPrefix] using e
    exact List.append_cancel_left e1
  have hn := Cls.name_facts c
  have e2 := (append_sep_inj (tagNames_facts hv.1).1 (by simp [hn.1, hs]) e').1
  rw [h1]
  apply Cls.name_inj
  have h2 := hv.2
  rw [e2] at h2
  rw [← h2]
  simp [tagName, split_append_sep hn.2]

theorem filterBits {w k : Nat} {f : Fin 64} (hk : 0 < k) (hw : k ≤ w) (h : (f : Nat) < 2 ^ w) (h' : w = k ∨ 2 ^ (w - 1) ≤ (f : Nat)) :
    bin k f = bitsOf w f := by
  rw [← bin_bitsOf (by omega) h]
  rcases h' with rfl | h'
  · rfl
  · rcases Nat.lt_or_ge w k with h1 | h1
    · omega
    · have hf := f.isLt
      have hw6 : w - 1 < 6 := by
        rcases Nat.lt_or_ge (w - 1) 6 with h2 | h2
        · exact h2
        · have := Nat.pow_le_pow_right (n := 2) (by decide) h2
          omega
      have key : ∀ k w : Fin 7, ∀ f : Fin 64, 0 < k.val ∧ k.val ≤ w.val ∧ (f : Nat) < 2 ^ w.val ∧ 2 ^ (w.val - 1) ≤ (f : Nat) → bin k f = bin w f := by
        decide +kernel
      exact key ⟨k, by omega⟩ ⟨w, by omega⟩ f ⟨hk, hw, h, h'⟩

namespace SGTIN

theorem new_other {n b : Str} (hn : ':' ∉ n) (hne : n ≠ py "sgtin") : new (py "urn:epc:id:" ++ n ++ ':' :: b) = .error .convert := by
  apply new_nomatch
  cases hm : Rx.sgtinUri.fullmatch (py "urn:epc:id:" ++ n ++ ':' :: b) with
  | false => rfl
  | true =>
    have hl := (fullmatch_iff _ _).1 hm
    rw [Rx.sgtinUri, lang_lit_seq] at hl
    obtain ⟨b', e, -⟩ := hl
    exact absurd (nameUri_inj (b' := b') hn (by decide : ':' ∉ py "sgtin") e) hne

theorem new_foreign {cs : AnyCoding} (hc : cs.cls ≠ .sgtin) (b : Str) : new (py "urn:epc:id:" ++ cs.cls.name ++ ':' :: b) = .error .convert :=
  new_other (Cls.name_facts _).1 (fun e => hc (Cls.name_inj e))

theorem binaryAny_other {x : SGTIN} {cs : AnyCoding} {f : Fin 64} (hc : cs.cls ≠ .sgtin) : x.binaryAny cs f = .error .key := by
  rcases cs with c | c | c | c | c | c | c | c | c | c | c | c | c | c <;> first | rfl | exact absurd rfl hc

theorem tagUriAny_other {x : SGTIN} {cs : AnyCoding} {f : Fin 64} (hc : cs.cls ≠ .sgtin) :
    x.tagUriAny cs f = .ok (py "urn:epc:tag:" ++ cs.value ++ ':' :: (natStr f ++ '.' :: (x.companyPref ++ '.' :: x.itemRef ++ '.' :: x.serial))) := by
  rcases cs with c | c | c | c | c | c | c | c | c | c | c | c | c | c <;> first | exact absurd rfl hc | simp [tagUriAny, tagUriPrefix, filterStr, ok_bind, pure_ok]

theorem uri_rest {u : Str} {x : SGTIN} (hu : new u = .ok x) : u = py "urn:epc:id:sgtin:" ++ (x.companyPref ++ '.' :: x.itemRef ++ '.' :: x.serial) := by
  obtain ⟨_, _, _, _, _, rfl, rfl⟩ := SGTIN.new_iff.1 hu
  simp

theorem binaryAny_zero {x : SGTIN} {cs : Coding} {f : Fin 64} {b : Str} (h : x.binaryAny (.sgtin cs) f = .ok b) :
    ∃ r, b = cs.header ++ (bin 3 f ++ r) ∧ x.binary cs 0 = .ok (cs.header ++ (bin 3 0 ++ r)) := by
  cases cs
  all_goals
    simp only [binaryAny, filter_ok, ok_bind, reduceIte, reduceCtorEq, if_true, if_false] at h
    obtain ⟨a1, h1, h⟩ := bind_ok_iff.1 h
    obtain ⟨a2, h2, h⟩ := bind_ok_iff.1 h
    cases h
    refine ⟨_, (by simp only [List.append_assoc]; rfl), ?_⟩
    simp [binary, filter_ok, ok_bind, pure_ok, h1, h2]

end SGTIN

namespace SSCC

theorem new_other {n b : Str} (hn : ':' ∉ n) (hne : n ≠ py "sscc") : new (py "urn:epc:id:" ++ n ++ ':' :: b) = .error .convert := by
  apply new_nomatch
  cases hm : Rx.ssccUri.fullmatch (py "urn:epc:id:" ++ n ++ ':' :: b) with
  | false => rfl
  | true =>
    have hl := (fullmatch_iff _ _).1 hm
    rw [Rx.ssccUri, lang_lit_seq] at hl
    obtain ⟨b', e, -⟩ := hl
    exact absurd (nameUri_inj (b' := b') hn (by decide : ':' ∉ py "sscc") e) hne

theorem new_foreign {cs : AnyCoding} (hc : cs.cls ≠ .sscc) (b : Str) : new (py "urn:epc:id:" ++ cs.cls.name ++ ':' :: b) = .error .convert :=
  new_other (Cls.name_facts _).1 (fun e => hc (Cls.name_inj e))

theorem binaryAny_other {x : SSCC} {cs : AnyCoding} {f : Fin 64} (hc : cs.cls ≠ .sscc) : x.binaryAny cs f = .error .key := by
  rcases cs with c | c | c | c | c | c | c | c | c | c | c | c | c | c <;> first | rfl | exact absurd rfl hc

theorem tagUriAny_other {x : SSCC} {cs : AnyCoding} {f : Fin 64} (hc : cs.cls ≠ .sscc) :
    x.tagUriAny cs f = .ok (py "urn:epc:tag:" ++ cs.value ++ ':' :: (natStr f ++ '.' :: (x.companyPref ++ '.' :: x.serial))) := by
  rcases cs with c | c | c | c | c | c | c | c | c | c | c | c | c | c <;> first | exact absurd rfl hc | simp [tagUriAny, tagUriPrefix, filterStr, ok_bind, pure_ok]

theorem uri_rest {u : Str} {x : SSCC} (hu : new u = .ok x) : u = py "urn:epc:id:sscc:" ++ (x.companyPref ++ '.' :: x.serial) := by
  obtain ⟨_, _, _, _, rfl, rfl⟩ := SSCC.new_iff.1 hu
  simp

theorem binaryAny_zero {x : SSCC} {cs : Coding} {f : Fin 64} {b : Str} (h : x.binaryAny (.sscc cs) f = .ok b) :
    ∃ r, b = cs.header ++ (bin 3 f ++ r) ∧ x.binary cs 0 = .ok (cs.header ++ (bin 3 0 ++ r)) := by
  cases cs
  all_goals
    simp only [binaryAny, filter_ok, ok_bind, reduceIte, reduceCtorEq, if_true, if_false] at h
    obtain ⟨a1, h1, h⟩ := bind_ok_iff.1 h
    cases h
    refine ⟨_, (by simp only [List.append_assoc]; rfl), ?_⟩
    simp [binary, filter_ok, ok_bind, pure_ok, h1]

end SSCC

namespace SGLN

theorem new_other {n b : Str} (hn : ':' ∉ n) (hne : n ≠ py "sgln") : new (py "urn:epc:id:" ++ n ++ ':' :: b) = .error .convert := by
  apply new_nomatch
  cases hm : Rx.sglnUri.fullmatch (py "urn:epc:id:" ++ n ++ ':' :: b) with
  | false => rfl
  | true =>
    have hl := (fullmatch_iff _ _).1 hm
    rw [Rx.sglnUri, lang_lit_seq] at hl
    obtain ⟨b', e, -⟩ := hl
    exact absurd (nameUri_inj (b' := b') hn (by decide : ':' ∉ py "sgln") e) hne

theorem new_foreign {cs : AnyCoding} (hc : cs.cls ≠ .sgln) (b : Str) : new (py "urn:epc:id:" ++ cs.cls.name ++ ':' :: b) = .error .convert :=
  new_other (Cls.name_facts _).1 (fun e => hc (Cls.name_inj e))

theorem binaryAny_other {x : SGLN} {cs : AnyCoding} {f : Fin 64} (hc : cs.cls ≠ .sgln) : x.binaryAny cs f = .error .key := by
  rcases cs with c | c | c | c | c | c | c | c | c | c | c | c | c | c <;> first | rfl | exact absurd rfl hc

theorem tagUriAny_other {x : SGLN} {cs : AnyCoding} {f : Fin 64} (hc : cs.cls ≠ .sgln) :
    x.tagUriAny cs f = .ok (py "urn:epc:tag:" ++ cs.value ++ ':' :: (natStr f ++ '.' :: (x.companyPref ++ '.' :: x.locationRef ++ '.' :: x.serial))) := by
  rcases cs with c | c | c | c | c | c | c | c | c | c | c | c | c | c <;> first | exact absurd rfl hc | simp [tagUriAny, tagUriPrefix, filterStr, ok_bind, pure_ok]

theorem uri_rest {u : Str} {x : SGLN} (hu : new u = .ok x) : u = py "urn:epc:id:sgln:" ++ (x.companyPref ++ '.' :: x.locationRef ++ '.' :: x.serial) := by
  obtain ⟨_, _, _, _, _, rfl, rfl⟩ := SGLN.new_iff.1 hu
  simp

theorem binaryAny_zero {x : SGLN} {cs : Coding} {f : Fin 64} {b : Str} (h : x.binaryAny (.sgln cs) f = .ok b) :
    ∃ r, b = cs.header ++ (bin 3 f ++ r) ∧ x.binary cs 0 = .ok (cs.header ++ (bin 3 0 ++ r)) := by
  cases cs
  all_goals
    simp only [binaryAny, filter_ok, ok_bind, reduceIte, reduceCtorEq, if_true, if_false] at h
    obtain ⟨a1, h1, h⟩ := bind_ok_iff.1 h
    obtain ⟨a2, h2, h⟩ := bind_ok_iff.1 h
    cases h
    refine ⟨_, (by simp only [List.append_assoc]; rfl), ?_⟩
    simp [binary, filter_ok, ok_bind, pure_ok, h1, h2]

end SGLN

namespace GRAI

theorem new_other {n b : Str} (hn : ':' ∉ n) (hne : n ≠ py "grai") : new (py "urn:epc:id:" ++ n ++ ':' :: b) = .error .convert := by
  apply new_nomatch
  cases hm : Rx.graiUri.fullmatch (py "urn:epc:id:" ++ n ++ ':' :: b) with
  | false => rfl
  | true =>
    have hl := (fullmatch_iff _ _).1 hm
    rw [Rx.graiUri, lang_lit_seq] at hl
    obtain ⟨b', e, -⟩ := hl
    exact absurd (nameUri_inj (b' := b') hn (by decide : ':' ∉ py "grai") e) hne

theorem new_foreign {cs : AnyCoding} (hc : cs.cls ≠ .grai) (b : Str) : new (py "urn:epc:id:" ++ cs.cls.name ++ ':' :: b) = .error .convert :=
  new_other (Cls.name_facts _).1 (fun e => hc (Cls.name_inj e))

theorem binaryAny_other {x : GRAI} {cs : AnyCoding} {f : Fin 64} (hc : cs.cls ≠ .grai) : x.binaryAny cs f = .error .key := by
  rcases cs with c | c | c | c | c | c | c | c | c | c | c | c | c | c <;> first | rfl | exact absurd rfl hc

theorem tagUriAny_other {x : GRAI} {cs : AnyCoding} {f : Fin 64} (hc : cs.cls ≠ .grai) :
    x.tagUriAny cs f = .ok (py "urn:epc:tag:" ++ cs.value ++ ':' :: (natStr f ++ '.' :: (x.companyPref ++ '.' :: x.assetType ++ '.' :: x.serial))) := by
  rcases cs with c | c | c | c | c | c | c | c | c | c | c | c | c | c <;> first | exact absurd rfl hc | simp [tagUriAny, tagUriPrefix, filterStr, ok_bind, pure_ok]

theorem uri_rest {u : Str} {x : GRAI} (hu : new u = .ok x) : u = py "urn:epc:id:grai:" ++ (x.companyPref ++ '.' :: x.assetType ++ '.' :: x.serial) := by
  obtain ⟨_, _, _, _, _, rfl, rfl⟩ := GRAI.new_iff.1 hu
  simp

theorem binaryAny_zero {x : GRAI} {cs : Coding} {f : Fin 64} {b : Str} (h : x.binaryAny (.grai cs) f = .ok b) :
    ∃ r, b = cs.header ++ (bin 3 f ++ r) ∧ x.binary cs 0 = .ok (cs.header ++ (bin 3 0 ++ r)) := by
  cases cs
  all_goals
    simp only [binaryAny, filter_ok, ok_bind, reduceIte, reduceCtorEq, if_true, if_false] at h
    obtain ⟨a1, h1, h⟩ := bind_ok_iff.1 h
    obtain ⟨a2, h2, h⟩ := bind_ok_iff.1 h
    cases h
    refine ⟨_, (by simp only [List.append_assoc]; rfl), ?_⟩
    simp [binary, filter_ok, ok_bind, pure_ok, h1, h2]

end GRAI

namespace GIAI

theorem new_other {n b : Str} (hn : ':' ∉ n) (hne : n ≠ py "giai") : new (py "urn:epc:id:" ++ n ++ ':' :: b) = .error .convert := by
  apply new_nomatch
  cases hm : Rx.giaiUri.fullmatch (py "urn:epc:id:" ++ n ++ ':' :: b) with
  | false => rfl
  | true =>
    have hl := (fullmatch_iff _ _).1 hm
    rw [Rx.giaiUri, lang_lit_seq] at hl
    obtain ⟨b', e, -⟩ := hl
    exact absurd (nameUri_inj (b' := b') hn (by decide : ':' ∉ py "giai") e) hne

theorem new_foreign {cs : AnyCoding} (hc : cs.cls ≠ .giai) (b : Str) : new (py "urn:epc:id:" ++ cs.cls.name ++ ':' :: b) = .error .convert :=
  new_other (Cls.name_facts _).1 (fun e => hc (Cls.name_inj e))

theorem binaryAny_other {x : GIAI} {cs : AnyCoding} {f : Fin 64} (hc : cs.cls ≠ .giai) : x.binaryAny cs f = .error .key := by
  rcases cs with c | c | c | c | c | c | c | c | c | c | c | c | c | c <;> first | rfl | exact absurd rfl hc

theorem tagUriAny_other {x : GIAI} {cs : AnyCoding} {f : Fin 64} (hc : cs.cls ≠ .giai) :
    x.tagUriAny cs f = .ok (py "urn:epc:tag:" ++ cs.value ++ ':' :: (natStr f ++ '.' :: (x.companyPref ++ '.' :: x.assetRef))) := by
  rcases cs with c | c | c | c | c | c | c | c | c | c | c | c | c | c <;> first | exact absurd rfl hc | simp [tagUriAny, tagUriPrefix, filterStr, ok_bind, pure_ok]

theorem binaryAny_zero {x : GIAI} {cs : Coding} {f : Fin 64} {b : Str} (h : x.binaryAny (.giai cs) f = .ok b) :
    ∃ r, b = cs.header ++ (bin 3 f ++ r) ∧ x.binary cs 0 = .ok (cs.header ++ (bin 3 0 ++ r)) := by
  cases cs
  all_goals
    simp only [binaryAny, filter_ok, ok_bind, reduceIte, reduceCtorEq, if_true, if_false] at h
    obtain ⟨a1, h1, h⟩ := bind_ok_iff.1 h
    cases h
    refine ⟨_, (by simp only [List.append_assoc]; rfl), ?_⟩
    simp [binary, filter_ok, ok_bind, pure_ok, h1]

end GIAI

namespace GSRN

theorem new_other {n b : Str} (hn : ':' ∉ n) (hne : n ≠ py "gsrn") : new (py "urn:epc:id:" ++ n ++ ':' :: b) = .error .convert := by
  apply new_nomatch
  cases hm : Rx.gsrnUri.fullmatch (py "urn:epc:id:" ++ n ++ ':' :: b) with
  | false => rfl
  | true =>
    have hl := (fullmatch_iff _ _).1 hm
    rw [Rx.gsrnUri, lang_lit_seq] at hl
    obtain ⟨b', e, -⟩ := hl
    exact absurd (nameUri_inj (b' := b') hn (by decide : ':' ∉ py "gsrn") e) hne

theorem new_foreign {cs : AnyCoding} (hc : cs.cls ≠ .gsrn) (b : Str) : new (py "urn:epc:id:" ++ cs.cls.name ++ ':' :: b) = .error .convert :=
  new_other (Cls.name_facts _).1 (fun e => hc (Cls.name_inj e))

theorem binaryAny_other {x : GSRN} {cs : AnyCoding} {f : Fin 64} (hc : cs.cls ≠ .gsrn) : x.binaryAny cs f = .error .key := by
  rcases cs with c | c | c | c | c | c | c | c | c | c | c | c | c | c <;> first | rfl | exact absurd rfl hc

theorem tagUriAny_other {x : GSRN} {cs : AnyCoding} {f : Fin 64} (hc : cs.cls ≠ .gsrn) :
    x.tagUriAny cs f = .ok (py "urn:epc:tag:" ++ cs.value ++ ':' :: (natStr f ++ '.' :: (x.companyPref ++ '.' :: x.serviceRef))) := by
  rcases cs with c | c | c | c | c | c | c | c | c | c | c | c | c | c <;> first | exact absurd rfl hc | simp [tagUriAny, tagUriPrefix, filterStr, ok_bind, pure_ok]

theorem uri_rest {u : Str} {x : GSRN} (hu : new u = .ok x) : u = py "urn:epc:id:gsrn:" ++ (x.companyPref ++ '.' :: x.serviceRef) := by
  obtain ⟨_, _, _, _, rfl, rfl⟩ := GSRN.new_iff.1 hu
  simp

theorem binaryAny_zero {x : GSRN} {cs : Coding} {f : Fin 64} {b : Str} (h : x.binaryAny (.gsrn cs) f = .ok b) :
    ∃ r, b = cs.header ++ (bin 3 f ++ r) ∧ x.binary cs 0 = .ok (cs.header ++ (bin 3 0 ++ r)) := by
  cases cs
  all_goals
    simp only [binaryAny, filter_ok, ok_bind, reduceIte, reduceCtorEq, if_true, if_false] at h
    obtain ⟨a1, h1, h⟩ := bind_ok_iff.1 h
    cases h
    refine ⟨_, (by simp only [List.append_assoc]; rfl), ?_⟩
    simp [binary, filter_ok, ok_bind, pure_ok, h1]

end GSRN

namespace GSRNP

theorem new_other {n b : Str} (hn : ':' ∉ n) (hne : n ≠ py "gsrnp") : new (py "urn:epc:id:" ++ n ++ ':' :: b) = .error .convert := by
  apply new_nomatch
  cases hm : Rx.gsrnpUri.fullmatch (py "urn:epc:id:" ++ n ++ ':' :: b) with
  | false => rfl
  | true =>
    have hl := (fullmatch_iff _ _).1 hm
    rw [Rx.gsrnpUri, lang_lit_seq] at hl
    obtain ⟨b', e, -⟩ := hl
    exact absurd (nameUri_inj (b' := b') hn (by decide : ':' ∉ py "gsrnp") e) hne

theorem new_foreign {cs : AnyCoding} (hc : cs.cls ≠ .gsrnp) (b : Str) : new (py "urn:epc:id:" ++ cs.cls.name ++ ':' :: b) = .error .convert :=
  new_other (Cls.name_facts _).1 (fun e => hc (Cls.name_inj e))

theorem binaryAny_other {x : GSRNP} {cs : AnyCoding} {f : Fin 64} (hc : cs.cls ≠ .gsrnp) : x.binaryAny cs f = .error .key := by
  rcases cs with c | c | c | c | c | c | c | c | c | c | c | c | c | c <;> first | rfl | exact absurd rfl hc

theorem tagUriAny_other {x : GSRNP} {cs : AnyCoding} {f : Fin 64} (hc : cs.cls ≠ .gsrnp) :
    x.tagUriAny cs f = .ok (py "urn:epc:tag:" ++ cs.value ++ ':' :: (natStr f ++ '.' :: (x.companyPref ++ '.' :: x.serviceRef))) := by
  rcases cs with c | c | c | c | c | c | c | c | c | c | c | c | c | c <;> first | exact absurd rfl hc | simp [tagUriAny, tagUriPrefix, filterStr, ok_bind, pure_ok]

theorem uri_rest {u : Str} {x : GSRNP} (hu : new u = .ok x) : u = py "urn:epc:id:gsrnp:" ++ (x.companyPref ++ '.' :: x.serviceRef) := by
  obtain ⟨_, _, _, _, rfl, rfl⟩ := GSRNP.new_iff.1 hu
  simp

theorem binaryAny_zero {x : GSRNP} {cs : Coding} {f : Fin 64} {b : Str} (h : x.binaryAny (.gsrnp cs) f = .ok b) :
    ∃ r, b = cs.header ++ (bin 3 f ++ r) ∧ x.binary cs 0 = .ok (cs.header ++ (bin 3 0 ++ r)) := by
  cases cs
  all_goals
    simp only [binaryAny, filter_ok, ok_bind, reduceIte, reduceCtorEq, if_true, if_false] at h
    obtain ⟨a1, h1, h⟩ := bind_ok_iff.1 h
    cases h
    refine ⟨_, (by simp only [List.append_assoc]; rfl), ?_⟩
    simp [binary, filter_ok, ok_bind, pure_ok, h1]

end GSRNP

namespace GDTI

theorem new_other {n b : Str} (hn : ':' ∉ n) (hne : n ≠ py "gdti") : new (py "urn:epc:id:" ++ n ++ ':' :: b) = .error .convert := by
  apply new_nomatch
  cases hm : Rx.gdtiUri.fullmatch (py "urn:epc:id:" ++ n ++ ':' :: b) with
  | false => rfl
  | true =>
    have hl := (fullmatch_iff _ _).1 hm
    rw [Rx.gdtiUri, lang_lit_seq] at hl
    obtain ⟨b', e, -⟩ := hl
    exact absurd (nameUri_inj (b' := b') hn (by decide : ':' ∉ py "gdti") e) hne

theorem new_foreign {cs : AnyCoding} (hc : cs.cls ≠ .gdti) (b : Str) : new (py "urn:epc:id:" ++ cs.cls.name ++ ':' :: b) = .error .convert :=
  new_other (Cls.name_facts _).1 (fun e => hc (Cls.name_inj e))

theorem binaryAny_other {x : GDTI} {cs : AnyCoding} {f : Fin 64} (hc : cs.cls ≠ .gdti) : x.binaryAny cs f = .error .key := by
  rcases cs with c | c | c | c | c | c | c | c | c | c | c | c | c | c <;> first | rfl | exact absurd rfl hc

theorem tagUriAny_other {x : GDTI} {cs : AnyCoding} {f : Fin 64} (hc : cs.cls ≠ .gdti) :
    x.tagUriAny cs f = .ok (py "urn:epc:tag:" ++ cs.value ++ ':' :: (natStr f ++ '.' :: (x.companyPref ++ '.' :: x.docType ++ '.' :: x.serial))) := by
  rcases cs with c | c | c | c | c | c | c | c | c | c | c | c | c | c <;> first | exact absurd rfl hc | simp [tagUriAny, tagUriPrefix, filterStr, ok_bind, pure_ok]

theorem uri_rest {u : Str} {x : GDTI} (hu : new u = .ok x) : u = py "urn:epc:id:gdti:" ++ (x.companyPref ++ '.' :: x.docType ++ '.' :: x.serial) := by
  obtain ⟨_, _, _, _, _, rfl, rfl⟩ := GDTI.new_iff.1 hu
  simp

theorem binaryAny_zero {x : GDTI} {cs : Coding} {f : Fin 64} {b : Str} (h : x.binaryAny (.gdti cs) f = .ok b) :
    ∃ r, b = cs.header ++ (bin 3 f ++ r) ∧ x.binary cs 0 = .ok (cs.header ++ (bin 3 0 ++ r)) := by
  cases cs
  all_goals
    simp only [binaryAny, filter_ok, ok_bind, reduceIte, reduceCtorEq, if_true, if_false] at h
    obtain ⟨a1, h1, h⟩ := bind_ok_iff.1 h
    obtain ⟨a2, h2, h⟩ := bind_ok_iff.1 h
    cases h
    refine ⟨_, (by simp only [List.append_assoc]; rfl), ?_⟩
    simp [binary, filter_ok, ok_bind, pure_ok, h1, h2]

end GDTI

namespace CPI

theorem new_other {n b : Str} (hn : ':' ∉ n) (hne : n ≠ py "cpi") : new (py "urn:epc:id:" ++ n ++ ':' :: b) = .error .convert := by
  apply new_nomatch
  cases hm : Rx.cpiUri.fullmatch (py "urn:epc:id:" ++ n ++ ':' :: b) with
  | false => rfl
  | true =>
    have hl := (fullmatch_iff _ _).1 hm
    rw [Rx.cpiUri, lang_lit_seq] at hl
    obtain ⟨b', e, -⟩ := hl
    exact absurd (nameUri_inj (b' := b') hn (by decide : ':' ∉ py "cpi") e) hne

theorem new_foreign {cs : AnyCoding} (hc : cs.cls ≠ .cpi) (b : Str) : new (py "urn:epc:id:" ++ cs.cls.name ++ ':' :: b) = .error .convert :=
  new_other (Cls.name_facts _).1 (fun e => hc (Cls.name_inj e))

theorem binaryAny_other {x : CPI} {cs : AnyCoding} {f : Fin 64} (hc : cs.cls ≠ .cpi) : x.binaryAny cs f = .error .key := by
  rcases cs with c | c | c | c | c | c | c | c | c | c | c | c | c | c <;> first | rfl | exact absurd rfl hc

theorem tagUriAny_other {x : CPI} {cs : AnyCoding} {f : Fin 64} (hc : cs.cls ≠ .cpi) :
    x.tagUriAny cs f = .ok (py "urn:epc:tag:" ++ cs.value ++ ':' :: (natStr f ++ '.' :: (x.companyPref ++ '.' :: x.cpRef ++ '.' :: x.serial))) := by
  rcases cs with c | c | c | c | c | c | c | c | c | c | c | c | c | c <;> first | exact absurd rfl hc | simp [tagUriAny, tagUriPrefix, filterStr, ok_bind, pure_ok]

theorem uri_rest {u : Str} {x : CPI} (hu : new u = .ok x) : u = py "urn:epc:id:cpi:" ++ (x.companyPref ++ '.' :: x.cpRef ++ '.' :: x.serial) := by
  obtain ⟨_, _, _, _, _, rfl, rfl⟩ := CPI.new_iff.1 hu
  simp

theorem binaryAny_zero {x : CPI} {cs : Coding} {f : Fin 64} {b : Str} (h : x.binaryAny (.cpi cs) f = .ok b) :
    ∃ r, b = cs.header ++ (bin 3 f ++ r) ∧ x.binary cs 0 = .ok (cs.header ++ (bin 3 0 ++ r)) := by
  cases cs
  all_goals
    simp only [binaryAny, filter_ok, ok_bind, reduceIte, reduceCtorEq, if_true, if_false] at h
    obtain ⟨a1, h1, h⟩ := bind_ok_iff.1 h
    obtain ⟨a2, h2, h⟩ := bind_ok_iff.1 h
    cases h
    refine ⟨_, (by simp only [List.append_assoc]; rfl), ?_⟩
    simp [binary, filter_ok, ok_bind, pure_ok, h1, h2]

end CPI

namespace SGCN

theorem new_other {n b : Str} (hn : ':' ∉ n) (hne : n ≠ py "sgcn") : new (py "urn:epc:id:" ++ n ++ ':' :: b) = .error .convert := by
  apply new_nomatch
  cases hm : Rx.sgcnUri.fullmatch (py "urn:epc:id:" ++ n ++ ':' :: b) with
  | false => rfl
  | true =>
    have hl := (fullmatch_iff _ _).1 hm
    rw [Rx.sgcnUri, lang_lit_seq] at hl
    obtain ⟨b', e, -⟩ := hl
    exact absurd (nameUri_inj (b' := b') hn (by decide : ':' ∉ py "sgcn") e) hne

theorem new_foreign {cs : AnyCoding} (hc : cs.cls ≠ .sgcn) (b : Str) : new (py "urn:epc:id:" ++ cs.cls.name ++ ':' :: b) = .error .convert :=
  new_other (Cls.name_facts _).1 (fun e => hc (Cls.name_inj e))

theorem binaryAny_other {x : SGCN} {cs : AnyCoding} {f : Fin 64} (hc : cs.cls ≠ .sgcn) : x.binaryAny cs f = .error .key := by
  rcases cs with c | c | c | c | c | c | c | c | c | c | c | c | c | c <;> first | rfl | exact absurd rfl hc

theorem tagUriAny_other {x : SGCN} {cs : AnyCoding} {f : Fin 64} (hc : cs.cls ≠ .sgcn) :
    x.tagUriAny cs f = .ok (py "urn:epc:tag:" ++ cs.value ++ ':' :: (natStr f ++ '.' :: (x.companyPref ++ '.' :: x.couponRef ++ '.' :: x.serial))) := by
  rcases cs with c | c | c | c | c | c | c | c | c | c | c | c | c | c <;> first | exact absurd rfl hc | simp [tagUriAny, tagUriPrefix, filterStr, ok_bind, pure_ok]

theorem uri_rest {u : Str} {x : SGCN} (hu : new u = .ok x) : u = py "urn:epc:id:sgcn:" ++ (x.companyPref ++ '.' :: x.couponRef ++ '.' :: x.serial) := by
  obtain ⟨_, _, _, _, _, rfl, rfl⟩ := SGCN.new_iff.1 hu
  simp

theorem binaryAny_zero {x : SGCN} {cs : Coding} {f : Fin 64} {b : Str} (h : x.binaryAny (.sgcn cs) f = .ok b) :
    ∃ r, b = cs.header ++ (bin 3 f ++ r) ∧ x.binary cs 0 = .ok (cs.header ++ (bin 3 0 ++ r)) := by
  cases cs
  all_goals
    simp only [binaryAny, filter_ok, ok_bind, reduceIte, reduceCtorEq, if_true, if_false] at h
    obtain ⟨a1, h1, h⟩ := bind_ok_iff.1 h
    obtain ⟨a2, h2, h⟩ := bind_ok_iff.1 h
    cases h
    refine ⟨_, (by simp only [List.append_assoc]; rfl), ?_⟩
    simp [binary, filter_ok, ok_bind, pure_ok, h1, h2]

end SGCN

namespace ITIP

theorem new_other {n b : Str} (hn : ':' ∉ n) (hne : n ≠ py "itip") : new (py "urn:epc:id:" ++ n ++ ':' :: b) = .error .convert := by
  apply new_nomatch
  cases hm : Rx.itipUri.fullmatch (py "urn:epc:id:" ++ n ++ ':' :: b) with
  | false => rfl
  | true =>
    have hl := (fullmatch_iff _ _).1 hm
    rw [Rx.itipUri, lang_lit_seq] at hl
    obtain ⟨b', e, -⟩ := hl
    exact absurd (nameUri_inj (b' := b') hn (by decide : ':' ∉ py "itip") e) hne

theorem new_foreign {cs : AnyCoding} (hc : cs.cls ≠ .itip) (b : Str) : new (py "urn:epc:id:" ++ cs.cls.name ++ ':' :: b) = .error .convert :=
  new_other (Cls.name_facts _).1 (fun e => hc (Cls.name_inj e))

theorem binaryAny_other {x : ITIP} {cs : AnyCoding} {f : Fin 64} (hc : cs.cls ≠ .itip) : x.binaryAny cs f = .error .key := by
  rcases cs with c | c | c | c | c | c | c | c | c | c | c | c | c | c <;> first | rfl | exact absurd rfl hc

theorem tagUriAny_other {x : ITIP} {cs : AnyCoding} {f : Fin 64} (hc : cs.cls ≠ .itip) :
    x.tagUriAny cs f = .ok (py "urn:epc:tag:" ++ cs.value ++ ':' :: (natStr f ++ '.' :: (x.companyPref ++ '.' :: x.itemRef ++ '.' :: x.piece ++ '.' :: x.total ++ '.' :: x.serial))) := by
  rcases cs with c | c | c | c | c | c | c | c | c | c | c | c | c | c <;> first | exact absurd rfl hc | simp [tagUriAny, tagUriPrefix, filterStr, ok_bind, pure_ok]

theorem uri_rest {u : Str} {x : ITIP} (hu : new u = .ok x) : u = py "urn:epc:id:itip:" ++ (x.companyPref ++ '.' :: x.itemRef ++ '.' :: x.piece ++ '.' :: x.total ++ '.' :: x.serial) := by
  obtain ⟨_, _, _, _, _, _, _, rfl, rfl⟩ := ITIP.new_iff.1 hu
  simp

theorem binaryAny_zero {x : ITIP} {cs : Coding} {f : Fin 64} {b : Str} (h : x.binaryAny (.itip cs) f = .ok b) :
    ∃ r, b = cs.header ++ (bin 3 f ++ r) ∧ x.binary cs 0 = .ok (cs.header ++ (bin 3 0 ++ r)) := by
  cases cs
  all_goals
    simp only [binaryAny, filter_ok, ok_bind, reduceIte, reduceCtorEq, if_true, if_false] at h
    obtain ⟨a1, h1, h⟩ := bind_ok_iff.1 h
    obtain ⟨a2, h2, h⟩ := bind_ok_iff.1 h
    obtain ⟨a3, h3, h⟩ := bind_ok_iff.1 h
    obtain ⟨a4, h4, h⟩ := bind_ok_iff.1 h
    cases h
    refine ⟨_, (by simp only [List.append_assoc]; rfl), ?_⟩
    simp [binary, filter_ok, ok_bind, pure_ok, h1, h2, h3, h4]

end ITIP

namespace GID

theorem new_other {n b : Str} (hn : ':' ∉ n) (hne : n ≠ py "gid") : new (py "urn:epc:id:" ++ n ++ ':' :: b) = .error .convert := by
  apply new_nomatch
  cases hm : Rx.gidUri.fullmatch (py "urn:epc:id:" ++ n ++ ':' :: b) with
  | false => rfl
  | true =>
    have hl := (fullmatch_iff _ _).1 hm
    rw [Rx.gidUri, lang_lit_seq] at hl
    obtain ⟨b', e, -⟩ := hl
    exact absurd (nameUri_inj (b' := b') hn (by decide : ':' ∉ py "gid") e) hne

theorem new_foreign {cs : AnyCoding} (hc : cs.cls ≠ .gid) (b : Str) : new (py "urn:epc:id:" ++ cs.cls.name ++ ':' :: b) = .error .convert :=
  new_other (Cls.name_facts _).1 (fun e => hc (Cls.name_inj e))

theorem binaryAny_other {x : GID} {cs : AnyCoding} (hc : cs.cls ≠ .gid) : x.binaryAny cs = .error .key := by
  rcases cs with c | c | c | c | c | c | c | c | c | c | c | c | c | c <;> first | rfl | exact absurd rfl hc

theorem tagUriAny_other {x : GID} {cs : AnyCoding} (hc : cs.cls ≠ .gid) :
    x.tagUriAny cs = .ok (py "urn:epc:tag:" ++ cs.value ++ ':' :: (x.manager ++ '.' :: x.object ++ '.' :: x.serial)) := by
  rcases cs with c | c | c | c | c | c | c | c | c | c | c | c | c | c <;> first | exact absurd rfl hc | simp [tagUriAny, tagUriPrefix, filterStr, ok_bind, pure_ok]

theorem uri_rest {u : Str} {x : GID} (hu : new u = .ok x) : u = py "urn:epc:id:gid:" ++ (x.manager ++ '.' :: x.object ++ '.' :: x.serial) := by
  obtain ⟨_, _, _, _, _, rfl, rfl⟩ := GID.new_iff.1 hu
  simp

end GID

namespace USDOD

theorem new_other {n b : Str} (hn : ':' ∉ n) (hne : n ≠ py "usdod") : new (py "urn:epc:id:" ++ n ++ ':' :: b) = .error .convert := by
  apply new_nomatch
  cases hm : Rx.usdodUri.fullmatch (py "urn:epc:id:" ++ n ++ ':' :: b) with
  | false => rfl
  | true =>
    have hl := (fullmatch_iff _ _).1 hm
    rw [Rx.usdodUri, lang_lit_seq] at hl
    obtain ⟨b', e, -⟩ := hl
    exact absurd (nameUri_inj (b' := b') hn (by decide : ':' ∉ py "usdod") e) hne

theorem new_foreign {cs : AnyCoding} (hc : cs.cls ≠ .usdod) (b : Str) : new (py "urn:epc:id:" ++ cs.cls.name ++ ':' :: b) = .error .convert :=
  new_other (Cls.name_facts _).1 (fun e => hc (Cls.name_inj e))

theorem binaryAny_other {x : USDOD} {cs : AnyCoding} {f : Fin 64} (hc : cs.cls ≠ .usdod) : x.binaryAny cs f = .error .key := by
  rcases cs with c | c | c | c | c | c | c | c | c | c | c | c | c | c <;> first | rfl | exact absurd rfl hc

theorem tagUriAny_other {x : USDOD} {cs : AnyCoding} {f : Fin 64} (hc : cs.cls ≠ .usdod) :
    x.tagUriAny cs f = .ok (py "urn:epc:tag:" ++ cs.value ++ ':' :: (natStr f ++ '.' :: (x.cage ++ '.' :: x.serial))) := by
  rcases cs with c | c | c | c | c | c | c | c | c | c | c | c | c | c <;> first | exact absurd rfl hc | simp [tagUriAny, tagUriPrefix, filterStr, ok_bind, pure_ok]

theorem uri_rest {u : Str} {x : USDOD} (hu : new u = .ok x) : u = py "urn:epc:id:usdod:" ++ (x.cage ++ '.' :: x.serial) := by
  obtain ⟨_, _, _, _, rfl, rfl⟩ := USDOD.new_iff.1 hu
  simp

theorem binaryAny_zero {x : USDOD} {cs : Coding} {f : Fin 64} {b : Str} (h : x.binaryAny (.usdod cs) f = .ok b) :
    ∃ r, b = cs.header ++ (bin 4 f ++ r) ∧ x.binary cs 0 = .ok (cs.header ++ (bin 4 0 ++ r)) := by
  cases cs
  all_goals
    simp only [binaryAny, filter_ok, ok_bind, reduceIte, reduceCtorEq, if_true, if_false] at h
    obtain ⟨a1, h1, h⟩ := bind_ok_iff.1 h
    cases h
    refine ⟨_, (by simp only [List.append_assoc]; rfl), ?_⟩
    simp [binary, filter_ok, ok_bind, pure_ok, h1]

end USDOD

namespace ADI

theorem new_other {n b : Str} (hn : ':' ∉ n) (hne : n ≠ py "adi") : new (py "urn:epc:id:" ++ n ++ ':' :: b) = .error .convert := by
  apply new_nomatch
  cases hm : Rx.adiUri.fullmatch (py "urn:epc:id:" ++ n ++ ':' :: b) with
  | false => rfl
  | true =>
    have hl := (fullmatch_iff _ _).1 hm
    rw [Rx.adiUri, lang_lit_seq] at hl
    obtain ⟨b', e, -⟩ := hl
    exact absurd (nameUri_inj (b' := b') hn (by decide : ':' ∉ py "adi") e) hne

theorem new_foreign {cs : AnyCoding} (hc : cs.cls ≠ .adi) (b : Str) : new (py "urn:epc:id:" ++ cs.cls.name ++ ':' :: b) = .error .convert :=
  new_other (Cls.name_facts _).1 (fun e => hc (Cls.name_inj e))

theorem binaryAny_other {x : ADI} {cs : AnyCoding} {f : Fin 64} (hc : cs.cls ≠ .adi) : x.binaryAny cs f = .error .key := by
  rcases cs with c | c | c | c | c | c | c | c | c | c | c | c | c | c <;> first | rfl | exact absurd rfl hc

theorem tagUriAny_other {x : ADI} {cs : AnyCoding} {f : Fin 64} (hc : cs.cls ≠ .adi) :
    x.tagUriAny cs f = .ok (py "urn:epc:tag:" ++ cs.value ++ ':' :: (natStr f ++ '.' :: (x.cage ++ '.' :: x.partNumber ++ '.' :: x.serial))) := by
  rcases cs with c | c | c | c | c | c | c | c | c | c | c | c | c | c <;> first | exact absurd rfl hc | simp [tagUriAny, tagUriPrefix, filterStr, ok_bind, pure_ok]

theorem uri_rest {u : Str} {x : ADI} (hu : new u = .ok x) : u = py "urn:epc:id:adi:" ++ (x.cage ++ '.' :: x.partNumber ++ '.' :: x.serial) := by
  obtain ⟨_, _, _, _, _, rfl, rfl⟩ := ADI.new_iff.1 hu
  simp

theorem binaryAny_zero {x : ADI} {cs : Coding} {f : Fin 64} {b : Str} (h : x.binaryAny (.adi cs) f = .ok b) :
    ∃ r, b = cs.header ++ (bin 6 f ++ r) ∧ x.binary cs 0 = .ok (cs.header ++ (bin 6 0 ++ r)) := by
  cases cs
  all_goals
    simp only [binaryAny, filter_ok, ok_bind, reduceIte, reduceCtorEq, if_true, if_false] at h
    obtain ⟨a1, h1, h⟩ := bind_ok_iff.1 h
    obtain ⟨a2, h2, h⟩ := bind_ok_iff.1 h
    obtain ⟨a3, h3, h⟩ := bind_ok_iff.1 h
    cases h
    refine ⟨_, (by simp only [List.append_assoc]; rfl), ?_⟩
    simp [binary, filter_ok, ok_bind, pure_ok, h1, h2, h3]

end ADI

end Epc
