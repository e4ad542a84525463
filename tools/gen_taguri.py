#!/usr/bin/env python3
"""Generate lean/Verif/Lemmas/TagUri.lean: exact characterisation of from_tag_uri for every tag-encodable class."""
import os
ROOT = os.path.dirname(os.path.dirname(os.path.abspath(__file__)))
# class, coding schemes, module
S = [("SGTIN", ["sgtin-96", "sgtin-198"]), ("SSCC", ["sscc-96"]), ("SGLN", ["sgln-96", "sgln-195"]),
     ("GRAI", ["grai-96", "grai-170"]), ("GIAI", ["giai-96", "giai-202"]), ("GSRN", ["gsrn-96"]),
     ("GSRNP", ["gsrnp-96"]), ("GDTI", ["gdti-96", "gdti-174"]), ("CPI", ["cpi-96", "cpi-var"]),
     ("SGCN", ["sgcn-96"]), ("ITIP", ["itip-110", "itip-212"]), ("GID", ["gid-96"]), ("USDOD", ["usdod-96"]),
     ("ADI", ["adi-var"])]
def ctor(v):
    a, b = v.split("-")
    return a + (b if b != "var" else "Var")
o = '''/-
Generated by tools/gen_taguri.py.  `from_tag_uri`: the strings it accepts and what it makes of them.
-/
import Verif.Lemmas.Verify
import Verif.Lemmas.SpecDigits

namespace Epc
open Spec Re

theorem lang_alts (l : List Re) (s : Str) : Lang (alts l) s ↔ ∃ r ∈ l, Lang r s := by
  induction l with
  | nil => simp [alts, Lang]
  | cons a l ih =>
    cases l with
    | nil => simp [alts]
    | cons b l => simp only [alts, Lang, ih, List.mem_cons, exists_eq_or_imp]

theorem lang_tagAlt (names body : Re) (s : Str) : Lang (Rx.tagAlt names body) s ↔
    ∃ n f b, Lang names n ∧ Num f ∧ Lang body b ∧ s = n ++ ':' :: (f ++ '.' :: b) := by
  simp only [Rx.tagAlt, seqs, Lang, Rx.dot, lang_chr, ← lang_numeric]
  constructor
  · rintro ⟨n, _, rfl, hn, _, _, rfl, rfl, f, _, rfl, hf, _, b, rfl, rfl, hb⟩
    exact ⟨n, f, b, hn, hf, hb, by simp⟩
  · rintro ⟨n, f, b, hn, hf, hb, rfl⟩
    exact ⟨n, ':' :: (f ++ '.' :: b), rfl, hn, [':'], f ++ '.' :: b, rfl, rfl, f, '.' :: b, rfl, hf, ['.'], b, rfl, rfl, hb⟩

/-- The names of the coding schemes that a tag URI can have. -/
def tagNames : List Str := [''' + ", ".join(f'py "{v}"' for _, l in S for v in l) + ''']

theorem tagNames_facts {n : Str} (h : n ∈ tagNames) : ':' ∉ n ∧ '.' ∉ n := by
  have : ∀ n ∈ tagNames, ':' ∉ n ∧ '.' ∉ n := by decide +kernel
  exact this n h

/-- What a string that `TAG_URI` matches looks like. -/
theorem tagUri_match {t : Str} (h : Rx.tagUri.matchPrefix t = true) :
    ∃ n b, n ∈ tagNames ∧ t = tagUriPrefix ++ n ++ ':' :: b ∧ (n = py "gid-96" ∨ ∃ f b', Num f ∧ b = f ++ '.' :: b') := by
  obtain ⟨x, y, rfl, hx⟩ := (matchPrefix_iff _ _).1 h
  rw [Rx.tagUri, lang_lit_seq] at hx
  obtain ⟨x, rfl, hx⟩ := hx
  rw [Rx.tagBody, lang_alts] at hx
  obtain ⟨r, hr, hx⟩ := hx
  have key : ∀ names body, Lang (Rx.tagAlt names body) x → (∀ n, Lang names n → n ∈ tagNames) →
      ∃ n b, n ∈ tagNames ∧ py "urn:epc:tag:" ++ x ++ y = tagUriPrefix ++ n ++ ':' :: b ∧
        (n = py "gid-96" ∨ ∃ f b', Num f ∧ b = f ++ '.' :: b') := by
    intro names body h1 h2
    obtain ⟨n, f, b, hn, hf, -, rfl⟩ := (lang_tagAlt _ _ _).1 h1
    exact ⟨n, f ++ '.' :: (b ++ y), h2 n hn, by simp [tagUriPrefix], .inr ⟨f, b ++ y, hf, rfl⟩⟩
  have lits : ∀ p ∈ tagNames, ∀ n, Lang (lit p) n → n ∈ tagNames := by
    intro p hp n hn
    rw [lang_lit] at hn
    exact hn ▸ hp
  have lits2 : ∀ p ∈ tagNames, ∀ q ∈ tagNames, ∀ n, Lang (alts [lit p, lit q]) n → n ∈ tagNames := by
    intro p hp q hq n hn
    rw [lang_alts] at hn
    obtain ⟨r, hr, hn⟩ := hn
    simp only [List.mem_cons, List.not_mem_nil, or_false] at hr
    rcases hr with rfl | rfl
    · exact lits p hp n hn
    · exact lits q hq n hn
  simp only [List.mem_cons, List.not_mem_nil, or_false] at hr
  rcases hr with ''' + " | ".join("rfl" for _ in S) + "\n"
for c, l in S:
    if c == "GID":
        o += '''  · simp only [seqs, Lang, lang_chr, lang_lit] at hx
    obtain ⟨n, _, rfl, rfl, _, b, rfl, rfl, _⟩ := hx
    exact ⟨py "gid-96", b ++ y, by decide, by simp [tagUriPrefix], .inl rfl⟩
'''
    elif len(l) == 1:
        o += '  · exact key _ _ hx (lits _ (by decide))\n'
    else:
        o += '  · exact key _ _ hx (lits2 _ (by decide) _ (by decide))\n'
o += '''
/-- `from_tag_uri` on a string of the form `urn:epc:tag:name-size:filter.body`. -/
theorem fromTagUri_filter {α : Type} {new : Str → Except Err α} {n f b : Str} (hn : ':' ∉ n ∧ '.' ∉ n) (hf : Num f) :
    fromTagUri new true (tagUriPrefix ++ n ++ ':' :: (f ++ '.' :: b)) =
      if Rx.tagUri.matchPrefix (tagUriPrefix ++ n ++ ':' :: (f ++ '.' :: b)) = true then
        new (py "urn:epc:id:" ++ (split '-' n).headD [] ++ ':' :: b) else .error .convert := by
  have hs : split ':' (tagUriPrefix ++ n ++ ':' :: (f ++ '.' :: b)) =
      py "urn" :: py "epc" :: py "tag" :: n :: split ':' (f ++ '.' :: b) := by
    rw [show tagUriPrefix ++ n ++ ':' :: (f ++ '.' :: b) = py "urn" ++ ':' :: (py "epc" ++ ':' :: (py "tag" ++ ':' :: (n ++ ':' :: (f ++ '.' :: b))))
      by simp [tagUriPrefix]]
    rw [split_append_sep (by decide), split_append_sep (by decide), split_append_sep (by decide), split_append_sep hn.1]
  have hj : joinWith ':' (n :: split ':' (f ++ '.' :: b)) = (n ++ ':' :: f) ++ '.' :: b := by
    rw [joinWith_cons _ _ (split_ne_nil _ _), joinWith_split]; simp
  have hd : '.' ∉ n ++ ':' :: f := by
    simp only [List.mem_append, List.mem_cons, not_or]
    exact ⟨hn.2, by decide, hf.dec.no_dot⟩
  have hp : getPart (split '-' n) 0 = .ok ((split '-' n).headD []) := getPart_ok (headD_split _ _)
  unfold fromTagUri
  cases hm : Rx.tagUri.matchPrefix (tagUriPrefix ++ n ++ ':' :: (f ++ '.' :: b)) with
  | false => simp
  | true =>
    simp only [hs, Bool.not_true, Bool.false_eq_true, if_false, if_true, List.drop_succ_cons, List.drop_zero]
    rw [hj, split_append_sep hd, show getPart (py "urn" :: py "epc" :: py "tag" :: n :: split ':' (f ++ '.' :: b)) 3 = .ok n from rfl, ok_bind,
      ok_bind, hp, ok_bind, List.drop_succ_cons, List.drop_zero, joinWith_split]

/-- `from_tag_uri` without filter value (GID). -/
theorem fromTagUri_nofilter {α : Type} {new : Str → Except Err α} {n b : Str} (hn : ':' ∉ n) :
    fromTagUri new false (tagUriPrefix ++ n ++ ':' :: b) =
      if Rx.tagUri.matchPrefix (tagUriPrefix ++ n ++ ':' :: b) = true then
        new (py "urn:epc:id:" ++ (split '-' n).headD [] ++ ':' :: (split ':' b).headD []) else .error .convert := by
  have hs : split ':' (tagUriPrefix ++ n ++ ':' :: b) = py "urn" :: py "epc" :: py "tag" :: n :: split ':' b := by
    rw [show tagUriPrefix ++ n ++ ':' :: b = py "urn" ++ ':' :: (py "epc" ++ ':' :: (py "tag" ++ ':' :: (n ++ ':' :: b)))
      by simp [tagUriPrefix]]
    rw [split_append_sep (by decide), split_append_sep (by decide), split_append_sep (by decide), split_append_sep hn]
  have hp : getPart (split '-' n) 0 = .ok ((split '-' n).headD []) := getPart_ok (headD_split _ _)
  have h4 : getPart (py "urn" :: py "epc" :: py "tag" :: n :: split ':' b) 4 = .ok ((split ':' b).headD []) := by
    have := headD_split ':' b
    exact getPart_ok this
  unfold fromTagUri
  cases hm : Rx.tagUri.matchPrefix (tagUriPrefix ++ n ++ ':' :: b) with
  | false => simp
  | true =>
    simp only [hs, Bool.not_true, Bool.false_eq_true, if_false, if_true]
    rw [show getPart (py "urn" :: py "epc" :: py "tag" :: n :: split ':' b) 3 = .ok n from rfl, ok_bind, h4, ok_bind, hp, ok_bind]

theorem fromTagUri_nomatch {α : Type} {new : Str → Except Err α} {b : Bool} {t : Str} (h : Rx.tagUri.matchPrefix t = false) :
    fromTagUri new b t = .error .convert := by
  simp [fromTagUri, h]

/-- The head of `name-size`. -/
def tagName (n : Str) : Str := (split '-' n).headD []

/-- A tag URI for which `from_tag_uri` returns names the class's scheme. -/
theorem fromTagUri_ok {α : Type} {new : Str → Except Err α} {nm t : Str} {x : α} (hnm : ':' ∉ nm) (hg : nm ≠ py "gid")
    (hnew : ∀ u x, new u = .ok x → ∃ b, u = py "urn:epc:id:" ++ nm ++ ':' :: b) (h : fromTagUri new true t = .ok x) :
    ∃ n f b, n ∈ tagNames ∧ tagName n = nm ∧ Num f ∧ t = tagUriPrefix ++ n ++ ':' :: (f ++ '.' :: b) ∧
      new (py "urn:epc:id:" ++ nm ++ ':' :: b) = .ok x := by
  cases hm : Rx.tagUri.matchPrefix t with
  | false => rw [fromTagUri_nomatch hm] at h; cases h
  | true =>
    obtain ⟨n, b, hn, rfl, hc⟩ := tagUri_match hm
    rcases hc with rfl | ⟨f, b, hf, rfl⟩
    · exfalso
      simp only [fromTagUri, hm, Bool.not_true, Bool.false_eq_true, if_false, if_true] at h
      have hs : split ':' (tagUriPrefix ++ py "gid-96" ++ ':' :: b) = py "urn" :: py "epc" :: py "tag" :: py "gid-96" :: split ':' b := by
        rw [show tagUriPrefix ++ py "gid-96" ++ ':' :: b = py "urn" ++ ':' :: (py "epc" ++ ':' :: (py "tag" ++ ':' :: (py "gid-96" ++ ':' :: b)))
          by simp [tagUriPrefix]]
        rw [split_append_sep (by decide), split_append_sep (by decide), split_append_sep (by decide), split_append_sep (by decide)]
      rw [hs, show getPart (py "urn" :: py "epc" :: py "tag" :: py "gid-96" :: split ':' b) 3 = .ok (py "gid-96") from rfl, ok_bind, ok_bind,
        show getPart (split '-' (py "gid-96")) 0 = .ok (py "gid") by decide, ok_bind] at h
      obtain ⟨b', hb⟩ := hnew _ _ h
      rw [List.append_assoc, List.append_assoc] at hb
      exact hg (append_sep_inj (by decide) hnm (List.append_cancel_left hb)).1.symm
    · have hnf := tagNames_facts hn
      rw [fromTagUri_filter hnf hf, if_pos hm] at h
      obtain ⟨b', hb⟩ := hnew _ _ h
      rw [List.append_assoc, List.append_assoc] at hb
      have hc : ':' ∉ (split '-' n).headD [] := fun hc => hnf.1 (headD_split_mem hc)
      have e := (append_sep_inj hc hnm (List.append_cancel_left hb)).1
      exact ⟨n, f, b, hn, e, hf, rfl, e ▸ h⟩

theorem matchPrefix_tag {names body : Re} {n f b : Str} (hmem : Lang Rx.tagBody (n ++ ':' :: (f ++ '.' :: b)) ∨
    Lang (Rx.tagAlt names body) (n ++ ':' :: (f ++ '.' :: b)) ∧ (∀ s, Lang (Rx.tagAlt names body) s → Lang Rx.tagBody s)) :
    Rx.tagUri.matchPrefix (tagUriPrefix ++ n ++ ':' :: (f ++ '.' :: b)) = true := by
  refine matchPrefix_of_fullmatch ((fullmatch_iff _ _).2 ?_)
  rw [Rx.tagUri, lang_lit_seq]
  refine ⟨n ++ ':' :: (f ++ '.' :: b), by simp [tagUriPrefix], ?_⟩
  rcases hmem with h | ⟨h1, h2⟩
  · exact h
  · exact h2 _ h1
'''
for i, (c, l) in enumerate(S):
    low = c.lower()
    o += f'''
namespace {c}

theorem uri_of_new {{u : Str}} {{x : {c}}} (h : new u = .ok x) : x.epcUri = u ∧ ∃ b, u = py "urn:epc:id:" ++ py "{low}" ++ ':' :: b ∧ Lang Rx.{low}Body b := by
  cases hm : Rx.{low}Uri.fullmatch u with
  | false => rw [new_nomatch hm] at h; cases h
  | true =>
    have hl := (fullmatch_iff _ _).1 hm
    rw [Rx.{low}Uri, lang_lit_seq] at hl
    obtain ⟨b, rfl, hb⟩ := hl
    refine ⟨?_, b, rfl, hb⟩
    obtain ⟨{", ".join(["_"]*{"SGTIN":3,"SSCC":2,"SGLN":3,"GRAI":3,"GIAI":2,"GSRN":2,"GSRNP":2,"GDTI":3,"CPI":3,"SGCN":3,"ITIP":5,"GID":3,"USDOD":2,"ADI":3}[c])}, _, _, _, rfl⟩ := new_iff.1 h
    rfl
'''
    if c == "GID":
        o += '''
theorem fromTagUri_iff {t : Str} {x : GID} : fromTagUri t = .ok x ↔ ∃ b r, (r = [] ∨ ∃ r', r = ':' :: r') ∧
    t = tagUriPrefix ++ Coding.value .gid96 ++ ':' :: (b ++ r) ∧ new (py "urn:epc:id:gid:" ++ b) = .ok x := by
  constructor
  · intro h
    unfold fromTagUri at h
    cases hm : Rx.tagUri.matchPrefix t with
    | false => rw [fromTagUri_nomatch hm] at h; cases h
    | true =>
      obtain ⟨n, b, hn, rfl, -⟩ := tagUri_match hm
      have hnf := tagNames_facts hn
      rw [fromTagUri_nofilter hnf.1, if_pos hm] at h
      obtain ⟨-, b', hb, -⟩ := uri_of_new h
      rw [List.append_assoc, List.append_assoc] at hb
      have hc : ':' ∉ (split '-' n).headD [] := fun hc => hnf.1 (headD_split_mem hc)
      have e := (append_sep_inj hc (by decide) (List.append_cancel_left hb)).1
      have hn' : n = py "gid-96" := by
        have : ∀ n ∈ tagNames, (split '-' n).headD [] = py "gid" → n = py "gid-96" := by decide +kernel
        exact this n hn e
      obtain ⟨r, hr, hr'⟩ := headD_split_append ':' b
      refine ⟨(split ':' b).headD [], r, hr', ?_, ?_⟩
      · rw [← hr, hn']; rfl
      · rw [e] at h; exact h
  · rintro ⟨b, r, hr, rfl, h⟩
    unfold fromTagUri
    obtain ⟨-, b', hb, hl⟩ := uri_of_new h
    have hbb : b = b' := List.append_cancel_left (as := py "urn:epc:id:gid:") hb
    subst hbb
    have hcol : ':' ∉ b := by
      obtain ⟨C, D, S, ⟨hC, hD, hS⟩, _, hu, _⟩ := new_iff.1 h
      rw [List.append_cancel_left (as := py "urn:epc:id:gid:") hu]
      exact noColon3 hC.dec.no_colon hD.dec.no_colon hS.dec.no_colon
    have hh : (split ':' (b ++ r)).headD [] = b := by
      rcases hr with rfl | ⟨r', rfl⟩
      · rw [List.append_nil, split_notMem hcol]; rfl
      · rw [split_append_sep hcol]; rfl
    rw [fromTagUri_nofilter (by decide), hh, if_pos]
    · exact h
    · refine (matchPrefix_iff _ _).2 ⟨py "urn:epc:tag:" ++ (py "gid-96" ++ ':' :: b), r, by simp [tagUriPrefix, Coding.value], ?_⟩
      rw [Rx.tagUri, lang_lit_seq]
      refine ⟨_, rfl, ?_⟩
      rw [Rx.tagBody, lang_alts]
      refine ⟨seqs [lit (py "gid-96"), Re.chr ':', Rx.gidBody], by simp, ?_⟩
      simp only [seqs, Lang, lang_chr, lang_lit]
      exact ⟨_, _, rfl, rfl, [':'], b, rfl, rfl, hl⟩

theorem fromTagUri_of_new {b : Str} {x : GID} (h : new (py "urn:epc:id:gid:" ++ b) = .ok x) :
    fromTagUri (tagUriPrefix ++ Coding.value .gid96 ++ ':' :: b) = .ok x :=
  fromTagUri_iff.2 ⟨b, [], .inl rfl, by simp, h⟩

/-- Apart from the result: `from_tag_uri` is the constructor on the pure identity URI. -/
theorem fromTagUri_body {b : Str} (hl : Lang Rx.gidBody b) (hc : ':' ∉ b) :
    fromTagUri (tagUriPrefix ++ Coding.value .gid96 ++ ':' :: b) = new (py "urn:epc:id:gid:" ++ b) := by
  unfold fromTagUri
  rw [fromTagUri_nofilter (by decide), split_notMem hc, if_pos]
  · rfl
  · refine matchPrefix_of_fullmatch ((fullmatch_iff _ _).2 ?_)
    rw [Rx.tagUri, lang_lit_seq]
    refine ⟨py "gid-96" ++ ':' :: b, by simp [tagUriPrefix, Coding.value], ?_⟩
    rw [Rx.tagBody, lang_alts]
    refine ⟨seqs [lit (py "gid-96"), Re.chr ':', Rx.gidBody], by simp, ?_⟩
    simp only [seqs, Lang, lang_chr, lang_lit]
    exact ⟨_, _, rfl, rfl, [':'], b, rfl, rfl, hl⟩
'''
    else:
        names = f'lit (py "{l[0]}")' if len(l) == 1 else 'alts [' + ", ".join(f'lit (py "{v}")' for v in l) + ']'
        lem = f'lang_lit' if len(l) == 1 else 'lang_alts'
        ctors = [ctor(v) for v in l]
        pat = " | ".join(["rfl"]*len(l))
        o += f'''
theorem tagNames_iff {{n : Str}} : (n ∈ tagNames ∧ tagName n = py "{low}") ↔ ∃ cs : Coding, n = cs.value := by
  constructor
  · rintro ⟨h, h'⟩
    have : ∀ n ∈ tagNames, tagName n = py "{low}" → {" ∨ ".join(f"n = Coding.value .{k}" for k in ctors)} := by decide +kernel
    {"exact ⟨_, this n h h'⟩" if len(l)==1 else "exact (this n h h').elim (fun h => ⟨_, h⟩) (fun h => ⟨_, h⟩)"}
  · rintro ⟨cs, rfl⟩
    cases cs <;> decide +kernel

/-- `from_tag_uri` is the constructor on the pure identity URI. -/
theorem fromTagUri_body {{cs : Coding}} {{f b : Str}} (hf : Num f) (hl : Lang Rx.{low}Body b) :
    fromTagUri (tagUriPrefix ++ cs.value ++ ':' :: (f ++ '.' :: b)) = new (py "urn:epc:id:{low}:" ++ b) := by
  have hn := tagNames_iff.2 ⟨cs, rfl⟩
  unfold fromTagUri
  rw [fromTagUri_filter (tagNames_facts hn.1) hf, if_pos, show (split '-' cs.value).headD [] = py "{low}" from hn.2]
  · rfl
  · refine matchPrefix_tag (names := {names}) (body := Rx.{low}Body) (.inr ⟨(lang_tagAlt _ _ _).2 ⟨_, f, b, ?_, hf, hl, rfl⟩, ?_⟩)
    · {"rw [lang_lit]; cases cs; rfl" if len(l)==1 else "rw [lang_alts]; cases cs <;> simp [lang_lit, Coding.value]"}
    · intro s hs
      rw [Rx.tagBody, lang_alts]
      exact ⟨_, {'.tail _ ('*i}.head _{')'*i}, hs⟩

theorem fromTagUri_iff {{t : Str}} {{x : {c}}} : fromTagUri t = .ok x ↔ ∃ cs : Coding, ∃ f b, Num f ∧
    t = tagUriPrefix ++ cs.value ++ ':' :: (f ++ '.' :: b) ∧ new (py "urn:epc:id:{low}:" ++ b) = .ok x := by
  constructor
  · intro h
    obtain ⟨n, f, b, hn, hnm, hf, ht, hx⟩ := fromTagUri_ok (nm := py "{low}") (by decide) (by decide)
      (fun u x h => (uri_of_new h).2.imp fun _ h => h.1) h
    obtain ⟨cs, rfl⟩ := tagNames_iff.1 ⟨hn, hnm⟩
    exact ⟨cs, f, b, hf, ht, hx⟩
  · rintro ⟨cs, f, b, hf, rfl, h⟩
    obtain ⟨-, b', hb, hl⟩ := uri_of_new h
    have hbb : b = b' := List.append_cancel_left (as := py "urn:epc:id:{low}:") hb
    rw [fromTagUri_body hf (hbb ▸ hl), h]

theorem fromTagUri_of_new {{cs : Coding}} {{f b : Str}} {{x : {c}}} (hf : Num f) (h : new (py "urn:epc:id:{low}:" ++ b) = .ok x) :
    fromTagUri (tagUriPrefix ++ cs.value ++ ':' :: (f ++ '.' :: b)) = .ok x :=
  fromTagUri_iff.2 ⟨cs, f, b, hf, rfl, h⟩
'''
    o += f"\nend {c}\n"
o += "\nend Epc\n"
open(os.path.join(ROOT, "lean/Verif/Lemmas/TagUri.lean"), "w").write(o)
