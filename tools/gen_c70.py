#!/usr/bin/env python3
"""Generates lean/Verif/Lemmas/TagErr.lean and lean/Verif/Props/C70.lean."""
lem = ['''/-
Which tag URIs make `from_tag_uri` raise something else than ConvertException (used by C70).  Generated by tools/gen_c70.py.
-/
import Verif.Lemmas.TagUri

namespace Epc
open Re

/-- The counterpart of `fromTagUri_ok` for exceptions. -/
theorem fromTagUri_err {α : Type} {new : Str → Except Err α} {nm t : Str} {e : Err} (he : e ≠ .convert) (hnm : ':' ∉ nm) (hg : nm ≠ py "gid")
    (hnew : ∀ u, new u = .error e → ∃ b, u = py "urn:epc:id:" ++ nm ++ ':' :: b) (h : fromTagUri new true t = .error e) :
    ∃ n f b, n ∈ tagNames ∧ tagName n = nm ∧ Num f ∧ t = tagUriPrefix ++ n ++ ':' :: (f ++ '.' :: b) ∧
      new (py "urn:epc:id:" ++ nm ++ ':' :: b) = .error e := by
  cases hm : Rx.tagUri.matchPrefix t with
  | false => rw [fromTagUri_nomatch hm] at h; injection h with h; exact absurd h.symm he
  | true =>
    obtain ⟨n, b, hn, rfl, hc⟩ := tagUri_match hm
    rcases hc with rfl | ⟨f, b, hf, rfl⟩
    · exfalso
      simp only [fromTagUri, hm, Bool.not_true, Bool.false_eq_true, if_false, if_true] at h
      have hs : split ':' (tagUriPrefix ++ py "gid-96" ++ ':' :: b) = py "urn" :: py "epc" :: py "tag" :: py "gid-96" :: split ':' b := by
        rw [show tagUriPrefix ++ py "gid-96" ++ ':' :: b = py "urn" ++ ':' :: (py "epc" ++ ':' :: (py "tag" ++ ':' :: (py "gid-96" ++ ':' :: b)))
          by simp [tagUriPrefix]]
        rw [split_append_sep (by decide), split_append_sep (by decide), split_append_sep (by decide), split_append_sep (by decide)]
      rw [hs, show getPart (py "urn" :: py "epc" :: py "tag" :: py "gid-96" :: split ':' b) 3 = .ok (py "gid-96") from rfl, ok_bind, ok_bind,
        show getPart (split '-' (py "gid-96")) 0 = .ok (py "gid") by decide, ok_bind] at h
      obtain ⟨b', hb⟩ := hnew _ h
      rw [List.append_assoc, List.append_assoc] at hb
      exact hg (append_sep_inj (by decide) hnm (List.append_cancel_left hb)).1.symm
    · have hnf := tagNames_facts hn
      rw [fromTagUri_filter hnf hf, if_pos hm] at h
      obtain ⟨b', hb⟩ := hnew _ h
      rw [List.append_assoc, List.append_assoc] at hb
      have hc : ':' ∉ (split '-' n).headD [] := fun hc => hnf.1 (headD_split_mem hc)
      have e' := (append_sep_inj hc hnm (List.append_cancel_left hb)).1
      exact ⟨n, f, b, hn, e', hf, rfl, e' ▸ h⟩
''']
text = ['SGTIN','SGLN','GRAI','GIAI','GDTI','ITIP']
plain = ['SSCC','GSRN','GSRNP','CPI','SGCN','USDOD','ADI']
for X in text:
    x = X.lower()
    lem.append(f'''namespace {X}

theorem uri_of_err {{u : Str}} {{e : Err}} (he : e ≠ .convert) (h : new u = .error e) :
    ∃ b, u = py "urn:epc:id:" ++ py "{x}" ++ ':' :: b ∧ Lang Rx.{x}Body b := by
  cases hm : Rx.{x}Uri.fullmatch u with
  | false => rw [new_nomatch hm] at h; injection h with h; exact absurd h.symm he
  | true =>
    have hl := (fullmatch_iff _ _).1 hm
    rw [Rx.{x}Uri, lang_lit_seq] at hl
    obtain ⟨b, rfl, hb⟩ := hl
    exact ⟨b, rfl, hb⟩

theorem fromTagUri_err_iff {{t : Str}} {{e : Err}} (he : e ≠ .convert) : fromTagUri t = .error e ↔ ∃ cs : Coding, ∃ f b, Num f ∧
    t = tagUriPrefix ++ cs.value ++ ':' :: (f ++ '.' :: b) ∧ new (py "urn:epc:id:{x}:" ++ b) = .error e := by
  constructor
  · intro h
    obtain ⟨n, f, b, hn, hnm, hf, ht, hx⟩ := Epc.fromTagUri_err (nm := py "{x}") he (by decide) (by decide)
      (fun u h => (uri_of_err he h).imp fun _ h => h.1) h
    obtain ⟨cs, rfl⟩ := tagNames_iff.1 ⟨hn, hnm⟩
    exact ⟨cs, f, b, hf, ht, hx⟩
  · rintro ⟨cs, f, b, hf, rfl, h⟩
    obtain ⟨b', hb, hl⟩ := uri_of_err he h
    have hbb : b = b' := List.append_cancel_left (as := py "urn:epc:id:{x}:") hb
    rw [fromTagUri_body hf (hbb ▸ hl), h]

end {X}
''')
for X in plain:
    lem.append(f'''namespace {X}

theorem fromTagUri_err_convert {{t : Str}} {{e : Err}} (h : fromTagUri t = .error e) : e = .convert := by
  refine Classical.byContradiction fun he => ?_
  obtain ⟨_, _, _, _, _, _, _, hx⟩ := Epc.fromTagUri_err (nm := py "{X.lower()}") he (by decide) (by decide)
    (fun u h => absurd (new_error h) he) h
  exact he (new_error hx)

end {X}
''')
lem.append('end Epc')

# ---------------------------------------------------------------- C70
add = []
for X in text:
    x = X.lower()
    add.append(f'''theorem {X}.fromTagUri_new_err {{cs : {X}.Coding}} {{f b : Str}} {{e : Err}} (he : e ≠ .convert) (hf : Num f) :
    {X}.fromTagUri (tagUriPrefix ++ cs.value ++ ':' :: (f ++ '.' :: b)) = .error e ↔ {X}.new (py "urn:epc:id:{x}:" ++ b) = .error e := by
  constructor
  · intro h
    have hn := {X}.tagNames_iff.2 ⟨cs, rfl⟩
    unfold {X}.fromTagUri at h
    rw [fromTagUri_filter (tagNames_facts hn.1) hf, show (split '-' cs.value).headD [] = py "{x}" from hn.2] at h
    split at h
    · exact h
    · injection h with h; exact absurd h.symm he
  · intro h
    exact ({X}.fromTagUri_err_iff he).2 ⟨cs, f, b, hf, rfl, h⟩
''')
add.append('''theorem GID.fromTagUri_err_convert {t : Str} {e : Err} (h : GID.fromTagUri t = .error e) : e = .convert := by
  unfold GID.fromTagUri at h
  cases hm : Rx.tagUri.matchPrefix t with
  | false => rw [fromTagUri_nomatch hm] at h; injection h with h; exact h.symm
  | true =>
    obtain ⟨n, b, hn, rfl, -⟩ := tagUri_match hm
    have hnf := tagNames_facts hn
    rw [fromTagUri_nofilter hnf.1, if_pos hm] at h
    exact GID.new_error h
''')
lem[-1:-1] = add
open('/verif/lean/Verif/Lemmas/TagErr.lean','w').write('\n'.join(lem)+'\n')

sizes = {'SGTIN':['96','198'],'SGLN':['96','195'],'GRAI':['96','170'],'GIAI':['96','202'],'GDTI':['96','174'],'ITIP':['110','212']}
out = ['''/-
C70: exactly when parsing raises something else than ConvertException.

Tag URIs: the exceptions of `from_tag_uri` are those of the constructor on the pure identity URI made of the tag URI (see C67 for these),
and ConvertException for everything that is not a tag URI of the class.  Binaries and element strings: ValueError and OverflowError come
from serials whose percent signs (after escaping) do not make sense, in exactly the cases stated here; ValueError also comes from groups in
parentheses.  Generated by tools/gen_c70.py.
-/
import Verif.Lemmas.TagErr
import Verif.Lemmas.LayoutText
import Verif.Lemmas.DecodeAll
import Verif.Lemmas.ElemParse
import Verif.Props.C53
import Verif.Props.C59
import Verif.Props.C67

namespace Epc
open Spec Re

private theorem serial_escape {raw : Str} : SerialText (escape raw) ↔ (∀ c ∈ raw, c ∈ gs82) ∧ raw ≠ [] :=
  ⟨fun h => gs82_of_lang (lang_of_serialText h), fun h => serialText_of_lang (gs3a3_escape h.1 h.2)⟩

/-! ### Tag URIs -/
''']
for X in text:
    x = X.lower()
    a, b = sizes[X]
    out.append(f'''/-- {X}: the tag URIs that raise another exception than ConvertException. -/
theorem C70_{x}_tag (t : Str) (e : Err) (he : e ≠ .convert) : {X}.fromTagUri t = .error e ↔
    ∃ size ∈ [py "{a}", py "{b}"], ∃ f body, UNumeral f ∧ t = py "urn:epc:tag:{x}-" ++ size ++ ':' :: (f ++ '.' :: body) ∧
      {X}.new (py "urn:epc:id:{x}:" ++ body) = .error e := by
  constructor
  · intro h
    obtain ⟨cs, f, b, hf, rfl, h2⟩ := ({X}.fromTagUri_err_iff he).1 h
    cases cs
    · exact ⟨py "{a}", by simp, f, b, (uNumeral_iff f).2 hf, by simp [tagUriPrefix, {X}.Coding.value], h2⟩
    · exact ⟨py "{b}", by simp, f, b, (uNumeral_iff f).2 hf, by simp [tagUriPrefix, {X}.Coding.value], h2⟩
  · rintro ⟨size, hs, f, b, hf, rfl, h⟩
    simp only [List.mem_cons, List.not_mem_nil, or_false] at hs
    rcases hs with rfl | rfl
    · exact ({X}.fromTagUri_err_iff he).2 ⟨.{x}{a}, f, b, (uNumeral_iff f).1 hf, by simp [tagUriPrefix, {X}.Coding.value], h⟩
    · exact ({X}.fromTagUri_err_iff he).2 ⟨.{x}{b}, f, b, (uNumeral_iff f).1 hf, by simp [tagUriPrefix, {X}.Coding.value], h⟩
''')
conj = ' ∧\n    '.join(f'(∀ e, {X}.fromTagUri t = .error e → e = .convert)' for X in plain+['GID'])
out.append(f'''/-- All other classes: `from_tag_uri` raises nothing but ConvertException. -/
theorem C70_other_tags (t : Str) :
    {conj} :=
  ⟨{', '.join(f'fun _ => {X}.fromTagUri_err_convert' for X in plain+['GID'])}⟩

example : SGTIN.fromTagUri (py "urn:epc:tag:sgtin-198:3.9521141.012345.%4axy") = .error .value ∧
    SGTIN.fromTagUri (py "urn:epc:tag:sgtin-198:3.9521141.012345.%aFFFFFFFF") = .error .overflow := by decide +kernel

/-! ### The constructor on a URI of given components -/
''')
# class -> prefix, components, conditions of C67 for value errors
comp = {
 'SGTIN': ('id:sgtin', 'C I', 'C.length + I.length = 13 ∧ 6 ≤ C.length ∧ C.length ≤ 12', 'S'),
 'LGTIN': ('class:lgtin', 'C I', 'C ≠ [] ∧ I ≠ []', 'S'),
 'SGLN': ('id:sgln', 'C I', 'C.length + I.length = 12 ∧ 6 ≤ C.length ∧ C.length ≤ 12 ∧ (unescapeWith uriEscapes S).length ≤ 20', 'S'),
 'GRAI': ('id:grai', 'C I', 'C ≠ []', 'S'),
 'GDTI': ('id:gdti', 'C I', 'C ≠ []', 'S'),
 'UPUI': ('id:upui', 'C I', 'C ≠ []', 'S'),
 'GIAI': ('id:giai', 'C', "6 ≤ C.length ∧ C.length ≤ 12 ∧ C.length + (S.takeWhile (· ≠ ':')).length ≤ 30", "(S.takeWhile (· ≠ ':'))"),
 'ITIP': ('id:itip', 'C I A B', 'C ≠ [] ∧ I ≠ [] ∧ A ≠ [] ∧ B ≠ []', 'S'),
}
for X,(p,cs,cond,S) in comp.items():
    x = X.lower()
    cl = cs.split()
    body = 'S'
    for c in reversed(cl): body = f"({c} ++ '.' :: {body})"
    hyps = ' '.join(f'(h{c} : UDigits {c})' for c in cl)
    assoc = ' ∧ '.join([cond, 'SerialText S'])
    pr = lambda c: f'((uDigits_iff _).1 h{c}).no_dot'
    pr2 = lambda c: f"((uDigits_iff _).1 k{c}).no_dot"
    if len(cl)==1:
        inj = f"obtain ⟨rfl, rfl⟩ := uri2_inj (q := py \"urn:epc:{p}\") {pr('C')} {pr2('C')} e"
    elif len(cl)==2:
        inj = f"obtain ⟨rfl, rfl, rfl⟩ := uri3_inj (q := py \"urn:epc:{p}\") {pr('C')} {pr('I')} {pr2('C')} {pr2('I')} e"
    else:
        inj = f"""obtain ⟨rfl, rfl, e1⟩ := uri3_inj (q := py "urn:epc:{p}") {pr('C')} {pr('I')} {pr2('C')} {pr2('I')} e
    obtain ⟨rfl, e2⟩ := append_sep_inj {pr('A')} {pr2('A')} (show A ++ '.' :: (B ++ '.' :: S) = A' ++ '.' :: (B' ++ '.' :: S') from e1)
    obtain ⟨rfl, rfl⟩ := append_sep_inj {pr('B')} {pr2('B')} e2"""
    prim = ', '.join(f"{c}'" for c in cl)
    ks = ', '.join(f'k{c}' for c in cl)
    hs = ', '.join(f'h{c}' for c in cl)
    nms = ', '.join(cl)
    out.append(f'''private theorem {x}_text {{{cs} S : Str}} {hyps} :
    ({X}.new (py "urn:epc:{p}:" ++ {body}) = .error .value ↔ {assoc} ∧ PercentsValueError {S}) ∧
    ({X}.new (py "urn:epc:{p}:" ++ {body}) = .error .overflow ↔ {assoc} ∧ PercentsOverflow {S}) := by
  refine ⟨(C67_{x} _).2.1.trans ⟨?_, ?_⟩, (C67_{x} _).2.2.1.trans ⟨?_, ?_⟩⟩
  · rintro ⟨{prim}, S', e, {ks}, h⟩
    {inj}
    exact h
  · intro h
    exact ⟨{nms}, S, rfl, {hs}, h⟩
  · rintro ⟨{prim}, S', e, {ks}, h⟩
    {inj}
    exact h
  · intro h
    exact ⟨{nms}, S, rfl, {hs}, h⟩
''')
out.append('/-! ### Binaries -/\n')
S4 = [ # cls, enc, header, size, W, K, pos, groups, bits
 ('SGTIN','sgtin198','00110110',198,47,'fun p => p + 1',58,20,140,'⟨by omega, by omega, by omega, serial_escape.2 ⟨a, b⟩, h⟩','⟨_, _, _, k, h⟩'),
 ('SGLN','sgln195','00111001',195,44,'fun p => p',55,20,140,'⟨by omega, by omega, by omega, hun, serial_escape.2 ⟨a, b⟩, h⟩','⟨_, _, _, _, k, h⟩'),
 ('GRAI','grai170','00110111',170,47,'fun p => p',58,16,112,'⟨hCne, serial_escape.2 ⟨a, b⟩, h⟩','⟨_, k, h⟩'),
 ('GDTI','gdti174','00111110',174,44,'fun p => p',55,17,119,'⟨hCne, serial_escape.2 ⟨a, b⟩, h⟩','⟨_, k, h⟩'),
]
for X,enc,hd,size,W,K,pos,g,bits,back,pat in S4:
    x = X.lower()
    hun = f'''    have hun : (unescapeWith uriEscapes (escape raw)).length ≤ 20 := by
      rw [← replaceUriEscapes_eq, replaceUriEscapes_escape, hraw]; exact sevenText_length b 20 {pos}
''' if X=='SGLN' else ''
    out.append(f'''/-- {X}-{size}. -/
theorem C70_{enc} {{b : Str}} (hB : Bits b) (hb : b.take 8 = py "{hd}") (hl : {size} ≤ b.length) :
    (∀ C D raw, KeyFields b {W} ({K}) C D → raw = sevenText b {pos} {g} →
      ({X}.fromBinary b = .error .value ↔ (∀ c ∈ raw, c ∈ gs82) ∧ raw ≠ [] ∧ PercentsValueError (escape raw)) ∧
      ({X}.fromBinary b = .error .overflow ↔ (∀ c ∈ raw, c ∈ gs82) ∧ raw ≠ [] ∧ PercentsOverflow (escape raw))) ∧
    ((¬ ∃ C D, KeyFields b {W} ({K}) C D) → {X}.fromBinary b = .error .convert) := by
  obtain ⟨k, k'⟩ := keyFields_decode (t := {X}.table) (K := {K}) (W := {W}) (by decide) (by decide) hB (by omega) (by decide)
  rw [{X}.decode_{enc} hB hb hl]
  constructor
  · intro C D raw hF hraw
    rw [k C D hF, ok_bind, decodeString_spec hB {g} {pos} {bits} (by omega) (by omega) (by omega), ok_bind, ← hraw]
    obtain ⟨p, hp, hC, hCl, hCne, hD, hDl⟩ := keyFields_facts hF
{hun}    rw [show (C ++ '.' :: D) ++ '.' :: escape raw = C ++ '.' :: (D ++ '.' :: escape raw) from by simp]
    obtain ⟨t1, t2⟩ := {x}_text (S := escape raw) ((uDigits_iff _).2 (dec_digits hC)) ((uDigits_iff _).2 (dec_digits hD))
    constructor
    · refine ({X}.fromTagUri_new_err (by decide) (num_natStr _)).trans (t1.trans ⟨fun {pat} => ⟨(serial_escape.1 k).1, (serial_escape.1 k).2, h⟩, fun ⟨a, b, h⟩ => {back}⟩)
    · refine ({X}.fromTagUri_new_err (by decide) (num_natStr _)).trans (t2.trans ⟨fun {pat} => ⟨(serial_escape.1 k).1, (serial_escape.1 k).2, h⟩, fun ⟨a, b, h⟩ => {back}⟩)
  · intro hno
    rw [k' hno, error_bind]
''')
out.append('''/-- ITIP-212. -/
theorem C70_itip212 {b : Str} (hB : Bits b) (hb : b.take 8 = py "01000001") (hl : 212 ≤ b.length) :
    (∀ C D P T raw, KeyFields b 47 (fun p => p + 1) C D → Padded 2 (bitField b 58 7) P → Padded 2 (bitField b 65 7) T → raw = sevenText b 72 20 →
      (ITIP.fromBinary b = .error .value ↔ (∀ c ∈ raw, c ∈ gs82) ∧ raw ≠ [] ∧ PercentsValueError (escape raw)) ∧
      (ITIP.fromBinary b = .error .overflow ↔ (∀ c ∈ raw, c ∈ gs82) ∧ raw ≠ [] ∧ PercentsOverflow (escape raw))) ∧
    ((¬ ((∃ C D, KeyFields b 47 (fun p => p + 1) C D) ∧ bitField b 58 7 ≤ 99 ∧ bitField b 65 7 ≤ 99)) → ITIP.fromBinary b = .error .convert) := by
  refine ⟨?_, (C53_itip212 hB hb hl).2⟩
  obtain ⟨k, k'⟩ := keyFields_decode (t := ITIP.table) (K := fun p => p + 1) (W := 47) (by decide) (by decide) hB (by omega) (by decide)
  obtain ⟨a, a'⟩ := decodeFixed_spec (bits_take (bits_drop hB 58) 7) (field_length (by omega))
  obtain ⟨c, c'⟩ := decodeFixed_spec (bits_take (bits_drop hB 65) 7) (field_length (by omega))
  rw [ITIP.decode_itip212 hB hb hl]
  intro C D P T raw hF hP hT hraw
  rw [k C D hF, ok_bind, a P hP, ok_bind, c T hT, ok_bind, decodeString_spec hB 20 72 140 (by omega) (by omega) (by omega), ok_bind, ← hraw]
  obtain ⟨p, hp, hC, hCl, hCne, hD, hDl⟩ := keyFields_facts hF
  have hPl := hP.2.1
  have hTl := hT.2.1
  rw [show (C ++ '.' :: D) ++ '.' :: (P ++ '.' :: (T ++ '.' :: escape raw)) = C ++ '.' :: (D ++ '.' :: (P ++ '.' :: (T ++ '.' :: escape raw))) from by simp]
  obtain ⟨t1, t2⟩ := itip_text (S := escape raw) ((uDigits_iff _).2 (dec_digits hC)) ((uDigits_iff _).2 (dec_digits hD))
    ((uDigits_iff _).2 (dec_digits hP.1)) ((uDigits_iff _).2 (dec_digits hT.1))
  have back : ∀ {Q : Prop}, (∀ c ∈ raw, c ∈ gs82) ∧ raw ≠ [] ∧ Q → C ≠ [] ∧ D ≠ [] ∧ P ≠ [] ∧ T ≠ [] ∧ SerialText (escape raw) ∧ Q := fun ⟨a, b, h⟩ =>
    ⟨hCne, ne_nil_of_length hDl (by omega), ne_nil_of_length hPl (by omega), ne_nil_of_length hTl (by omega), serial_escape.2 ⟨a, b⟩, h⟩
  constructor
  · exact (ITIP.fromTagUri_new_err (by decide) (num_natStr _)).trans (t1.trans ⟨fun ⟨_, _, _, _, k, h⟩ => ⟨(serial_escape.1 k).1, (serial_escape.1 k).2, h⟩, back⟩)
  · exact (ITIP.fromTagUri_new_err (by decide) (num_natStr _)).trans (t2.trans ⟨fun ⟨_, _, _, _, k, h⟩ => ⟨(serial_escape.1 k).1, (serial_escape.1 k).2, h⟩, back⟩)

/-- GIAI-202: only the text before the first colon counts. -/
theorem C70_giai202 {b : Str} (hB : Bits b) (hb : b.take 8 = py "00111000") (hl : 202 ≤ b.length) :
    (∀ C raw head, TextFields b 191 C raw → head = raw.takeWhile (· ≠ ':') →
      (GIAI.fromBinary b = .error .value ↔ (∀ c ∈ raw, c ∈ gs82) ∧ raw ≠ [] ∧ C.length + (escape head).length ≤ 30 ∧ PercentsValueError (escape head)) ∧
      (GIAI.fromBinary b = .error .overflow ↔ (∀ c ∈ raw, c ∈ gs82) ∧ raw ≠ [] ∧ C.length + (escape head).length ≤ 30 ∧ PercentsOverflow (escape head))) ∧
    ((¬ ∃ C raw, TextFields b 191 C raw) → GIAI.fromBinary b = .error .convert) := by
  refine ⟨?_, (C53_giai202 hB hb hl).2⟩
  obtain ⟨k, k'⟩ := textFields_decode (t := GIAI.table202) (W := 191) (by decide) (by decide) hB (by omega) (by decide)
  rw [GIAI.decode_giai202 hB hb hl]
  intro C raw head hF hhead
  rw [k C raw hF, ok_bind]
  obtain ⟨p, hp6, hp, hC, -⟩ := hF
  have hCl := hC.2.1
  have hsp : (escape raw).takeWhile (· ≠ ':') = escape head := by rw [← head_takeWhile, split_escape_colon, hhead]
  obtain ⟨t1, t2⟩ := giai_text (S := escape raw) ((uDigits_iff _).2 (dec_digits hC.1))
  rw [hsp] at t1 t2
  constructor
  · exact (GIAI.fromTagUri_new_err (by decide) (num_natStr _)).trans (t1.trans ⟨fun ⟨_, _, l, k, h⟩ => ⟨(serial_escape.1 k).1, (serial_escape.1 k).2, l, h⟩,
      fun ⟨a, b, l, h⟩ => ⟨by omega, by omega, l, serial_escape.2 ⟨a, b⟩, h⟩⟩)
  · exact (GIAI.fromTagUri_new_err (by decide) (num_natStr _)).trans (t2.trans ⟨fun ⟨_, _, l, k, h⟩ => ⟨(serial_escape.1 k).1, (serial_escape.1 k).2, l, h⟩,
      fun ⟨a, b, l, h⟩ => ⟨by omega, by omega, l, serial_escape.2 ⟨a, b⟩, h⟩⟩)
''')
out.append('''/-! ### Element strings -/

private theorem len_sliceI (s : Str) (lo hi : Int) : (sliceI s lo hi).length = min (clampIdx s.length hi) s.length - clampIdx s.length lo := by
  unfold sliceI slice; rw [List.length_drop, List.length_take]

private theorem len_sliceToI (s : Str) (hi : Int) : (sliceToI s hi).length = min (clampIdx s.length hi) s.length := by
  unfold sliceToI; rw [List.length_take]

private theorem clamp70 (N n k : Nat) : clampIdx N ((k : Int) + (n : Int)) = min N (k + n) := by
  rw [show ((k : Int) + (n : Int)) = ((k + n : Nat) : Int) by omega, clampIdx_pos]
  omega

private theorem clamp70' (N n : Nat) : clampIdx N (n : Int) = min N n := by rw [clampIdx_pos]; omega

private theorem serial_escape1 {raw : Str} (h : ∀ c ∈ raw, c ∈ gs82) (h1 : 1 ≤ raw.length) : SerialText (escape raw) :=
  serial_escape.2 ⟨h, by rintro rfl; simp at h1⟩

private theorem unesc_escape (raw : Str) : (unescapeWith uriEscapes (escape raw)).length = raw.length := by
  rw [← replaceUriEscapes_eq, replaceUriEscapes_escape]
''')
E = [ # X, ai, mid, digits, lim, group, indicator, ncond
 ('SGTIN','(01)','(21)',14,20,2,True,'6 ≤ n ∧ n ≤ 12'),
 ('LGTIN','(01)','(10)',14,20,2,True,'1 ≤ n'),
 ('UPUI','(01)','(235)',14,28,None,True,'1 ≤ n'),
 ('SGLN','(414)','(254)',13,20,3,False,'6 ≤ n ∧ n ≤ 12'),
 ('GRAI','(8003)0',None,13,16,None,False,'1 ≤ n'),
 ('GDTI','(253)',None,13,17,None,False,'1 ≤ n'),
 ('ITIP','(8006)','(21)',18,20,None,True,'1 ≤ n'),
]
for X,ai,mid,L,lim,grp,ind,nc in E:
    x = X.lower()
    s = f'py "{ai}" ++ (d ++ (py "{mid}" ++ raw))' if mid else f'py "{ai}" ++ (d ++ raw)'
    shape = f's = {s} ∧ UDigits d ∧ d.length = {L} ∧ (∀ a ∈ raw, a ∈ gs82) ∧ 1 ≤ raw.length ∧ raw.length ≤ {lim}'
    hv = (f'(HasGroup {grp} raw ∨ ({nc} ∧ PercentsValueError (escape raw)))' if grp else f'{nc} ∧ PercentsValueError (escape raw)')
    ho = (f'¬ HasGroup {grp} raw ∧ ' if grp else '') + f'{nc} ∧ PercentsOverflow (escape raw)'
    two = '∧' in nc
    npat = '⟨n1, n2, h⟩' if two else '⟨n1, h⟩'
    # length facts
    if ind:
        lo = -5 if X=='ITIP' else -1
        facts = f'''    have l1 : (sliceI (i :: d) 1 (1 + (n : Int))).length = min {L} (1 + n) - 1 := by
      rw [len_sliceI, hl, show clampIdx {L} (1 + (n : Int)) = min {L} (1 + n) from clamp70 {L} n 1, show clampIdx {L} 1 = 1 from rfl]; omega
    have l2 : (sliceI (i :: d) (1 + (n : Int)) ({lo})).length = {L+lo} - min {L} (1 + n) := by
      rw [len_sliceI, hl, show clampIdx {L} (1 + (n : Int)) = min {L} (1 + n) from clamp70 {L} n 1, show clampIdx {L} ({lo}) = {L+lo} from rfl]; omega
'''
    else:
        facts = f'''    have l1 : (sliceToI d (n : Int)).length = min {L} n := by
      rw [len_sliceToI, hl, clamp70']; omega
    have l2 : (sliceI d (n : Int) (-1)).length = {L-1} - min {L} n := by
      rw [len_sliceI, hl, clamp70', show clampIdx {L} (-1) = {L-1} from rfl]; omega
'''
    gi = ' hg' if grp else ''
    gh = f' (hg : ¬ HasGroup {grp} raw)' if grp else ''
    dd = '(i :: d)' if ind else 'd'
    Cx = "sliceI (i :: d) 1 (1 + (n : Int))" if ind else 'sliceToI d (n : Int)'
    decs = ('((uDigits_iff _).2 (dec_slice hd _ _)) ((uDigits_iff _).2 (Dec.cons.2 ⟨(Dec.cons.1 hd).1, dec_slice hd _ _⟩))' if ind
            else '((uDigits_iff _).2 (fun a ha => hd a (List.mem_of_mem_take ha))) ((uDigits_iff _).2 (dec_slice hd _ _))')
    args = f'(C := {Cx}) (I := ' + (f'i :: sliceI (i :: d) (1 + (n : Int)) ({lo})' if ind else 'sliceI d (n : Int) (-1)') + ')' + (' (A := slice (i :: d) 14 16) (B := (i :: d).drop 16)' if X=='ITIP' else '')
    # forward and backward between the condition of the constructor and the condition on n
    if X=='SGTIN':
        fw='fun ⟨q0, q1, q2, _, h⟩ => ⟨by rw [l1] at q1; omega, by rw [List.length_cons, l1, l2] at q0; rw [l1] at q2; omega, h⟩'
        bw='fun ⟨n1, n2, h⟩ => ⟨by rw [List.length_cons, l1, l2]; omega, by rw [l1]; omega, by rw [l1]; omega, hser, h⟩'
    elif X=='SGLN':
        fw='fun ⟨q0, q1, q2, _, _, h⟩ => ⟨by rw [l1] at q1; omega, by rw [l1] at q2; omega, h⟩'
        bw='fun ⟨n1, n2, h⟩ => ⟨by rw [l1, l2]; omega, by rw [l1]; omega, by rw [l1]; omega, by rw [unesc_escape]; exact hc.2.2, hser, h⟩'
    elif X=='LGTIN':
        fw='fun ⟨q0, _, _, h⟩ => ⟨by have := List.length_pos_iff.2 q0; rw [l1] at this; omega, h⟩'
        bw='fun ⟨n1, h⟩ => ⟨ne_nil_of_length l1 (by omega), by simp, hser, h⟩'
    elif X=='ITIP':
        fw='fun ⟨q0, _, _, _, _, h⟩ => ⟨by have := List.length_pos_iff.2 q0; rw [l1] at this; omega, h⟩'
        bw='fun ⟨n1, h⟩ => ⟨ne_nil_of_length l1 (by omega), by simp, ne_nil_of_length l3 (by omega), ne_nil_of_length l4 (by omega), hser, h⟩'
        facts += '''    have l3 : (slice (i :: d) 14 16).length = 2 := by unfold slice; rw [List.length_drop, List.length_take, hl]; rfl
    have l4 : ((i :: d).drop 16).length = 2 := by rw [List.length_drop, hl]
'''
        decs += '\n      ((uDigits_iff _).2 fun a ha => hd a (List.mem_of_mem_take (List.mem_of_mem_drop ha))) ((uDigits_iff _).2 fun a ha => hd a (List.mem_of_mem_drop ha))'
    else:
        fw='fun ⟨q0, _, h⟩ => ⟨by have := List.length_pos_iff.2 q0; rw [l1] at this; omega, h⟩'
        bw='fun ⟨n1, h⟩ => ⟨ne_nil_of_length l1 (by omega), hser, h⟩'
    s2 = s.replace('d ++','i :: d ++') if ind else s
    conv = 'match d, hd, hl with | [], _, hl => by simp at hl | i :: d, hd, hl => kk i d hd hl' 
    out.append(f'''/-- {X}: the element strings that raise ValueError or OverflowError. -/
theorem C70_{x}_element (s : Str) (n : Nat) :
    ({X}.fromGs1ElementString s n = .error .value ↔ ∃ d raw, {shape} ∧
      {hv}) ∧
    ({X}.fromGs1ElementString s n = .error .overflow ↔ ∃ d raw, {shape} ∧
      {ho}) := by
  have key : ∀ d raw, Dec d → d.length = {L} → ((∀ a ∈ raw, a ∈ gs82) ∧ 1 ≤ raw.length ∧ raw.length ≤ {lim}){' → ¬ HasGroup '+str(grp)+' raw' if grp else ''} →
      ({X}.fromGs1ElementString ({s}) n = .error .value ↔ {nc} ∧ PercentsValueError (escape raw)) ∧
      ({X}.fromGs1ElementString ({s}) n = .error .overflow ↔ {nc} ∧ PercentsOverflow (escape raw)) := by
    intro d raw hd hl hc{gi}
{"    cases d with" + chr(10) + "    | nil => simp at hl" + chr(10) + "    | cons i d => ?_" + chr(10) if ind else ""}{facts}    have hser := serial_escape1 hc.1 hc.2.1
    obtain ⟨t1, t2⟩ := {x}_text (S := escape raw) {args} {decs}
    rw [{X}.from_eq n hd hl hc{gi}]
    exact ⟨t1.trans ⟨{fw}, {bw}⟩,
      t2.trans ⟨{fw}, {bw}⟩⟩
  have shaped : ∀ e, {X}.fromGs1ElementString s n = .error e → e ≠ .convert → ∃ d raw, Dec d ∧ d.length = {L} ∧
      ((∀ a ∈ raw, a ∈ gs82) ∧ 1 ≤ raw.length ∧ raw.length ≤ {lim}) ∧ s = {s} := by
    intro e h he
    cases hm : Rx.{x}Elem.fullmatch s with
    | true =>
      obtain ⟨d, raw, ⟨hd, hl⟩, hc, e⟩ := ({X}.elem_lang s).1 hm
      exact ⟨d, raw, hd, hl, hc, e⟩
    | false =>
      unfold {X}.fromGs1ElementString at h
      rw [hm] at h
      injection h with h
      exact absurd h.symm he''' + (f'''
  constructor
  · constructor
    · intro h
      obtain ⟨d, raw, hd, hl, hc, rfl⟩ := shaped _ h (by decide)
      refine ⟨d, raw, rfl, (uDigits_iff _).2 hd, hl, hc.1, hc.2.1, hc.2.2, ?_⟩
      by_cases hg : HasGroup {grp} raw
      · exact .inl hg
      · exact .inr ((key d raw hd hl hc hg).1.1 h)
    · rintro ⟨d, raw, rfl, hd, hl, hc, h1, h2, h⟩
      by_cases hg : HasGroup {grp} raw
      · exact (C59_{x} _ n).2.2.1 d raw rfl hd hl hc h1 h2 hg
      · exact (key d raw ((uDigits_iff _).1 hd) hl ⟨hc, h1, h2⟩ hg).1.2 (h.resolve_left hg)
  · constructor
    · intro h
      obtain ⟨d, raw, hd, hl, hc, rfl⟩ := shaped _ h (by decide)
      refine ⟨d, raw, rfl, (uDigits_iff _).2 hd, hl, hc.1, hc.2.1, hc.2.2, ?_⟩
      by_cases hg : HasGroup {grp} raw
      · rw [(C59_{x} _ n).2.2.1 d raw rfl ((uDigits_iff _).2 hd) hl hc.1 hc.2.1 hc.2.2 hg] at h
        cases h
      · exact ⟨hg, (key d raw hd hl hc hg).2.1 h⟩
    · rintro ⟨d, raw, rfl, hd, hl, hc, h1, h2, hg, h⟩
      exact (key d raw ((uDigits_iff _).1 hd) hl ⟨hc, h1, h2⟩ hg).2.2 h
''' if grp else f'''
  constructor
  · constructor
    · intro h
      obtain ⟨d, raw, hd, hl, hc, rfl⟩ := shaped _ h (by decide)
      exact ⟨d, raw, rfl, (uDigits_iff _).2 hd, hl, hc.1, hc.2.1, hc.2.2, (key d raw hd hl hc).1.1 h⟩
    · rintro ⟨d, raw, rfl, hd, hl, hc, h1, h2, h⟩
      exact (key d raw ((uDigits_iff _).1 hd) hl ⟨hc, h1, h2⟩).1.2 h
  · constructor
    · intro h
      obtain ⟨d, raw, hd, hl, hc, rfl⟩ := shaped _ h (by decide)
      exact ⟨d, raw, rfl, (uDigits_iff _).2 hd, hl, hc.1, hc.2.1, hc.2.2, (key d raw hd hl hc).2.1 h⟩
    · rintro ⟨d, raw, rfl, hd, hl, hc, h1, h2, h⟩
      exact (key d raw ((uDigits_iff _).1 hd) hl ⟨hc, h1, h2⟩).2.2 h
'''))
for X,ai,k in [('GIAI','(8004)',6),('GINC','(401)',5)]:
    x = X.lower()
    out.append(f'''/-- {X}: parsing an element string is constructing from the URI that has a dot behind the first `n` characters of the body (whatever they
are) and the remaining characters escaped; C67 tells what that yields. -/
theorem C70_{x}_element (b : Str) (n : Nat) :
    ((∃ d c, b = d ++ c ∧ UDigits d ∧ 6 ≤ d.length ∧ d.length ≤ 12 ∧ (∀ a ∈ c, a ∈ gs82) ∧ 1 ≤ c.length ∧ c.length ≤ 24) →
      {X}.fromGs1ElementString (py "{ai}" ++ b) n = {X}.new (py "urn:epc:id:{x}:" ++ joinWith '.' [b.take n, escape (b.drop n)])) ∧
    ((¬ ∃ d c, b = d ++ c ∧ UDigits d ∧ 6 ≤ d.length ∧ d.length ≤ 12 ∧ (∀ a ∈ c, a ∈ gs82) ∧ 1 ≤ c.length ∧ c.length ≤ 24) →
      {X}.fromGs1ElementString (py "{ai}" ++ b) n = .error .convert) ∧
    (∀ s, (¬ ∃ b, s = py "{ai}" ++ b) → {X}.fromGs1ElementString s n = .error .convert) := by
  have no : ∀ s, Rx.{x}Elem.fullmatch s = false → {X}.fromGs1ElementString s n = .error .convert := by
    intro s hm
    unfold {X}.fromGs1ElementString
    rw [hm]
    rfl
  refine ⟨?_, ?_, ?_⟩
  · rintro ⟨d, c, rfl, hd, h1, h2, h3, h4, h5⟩
    have hm := ({X}.elem_lang (py "{ai}" ++ (d ++ c))).2 ⟨d, c, ⟨(uDigits_iff _).1 hd, h1, h2⟩, ⟨h3, h4, h5⟩, rfl⟩
    have hc : clampIdx (py "{ai}" ++ (d ++ c)).length ({k} + (n : Int)) = min (py "{ai}" ++ (d ++ c)).length ({k} + n) := clamp70 _ n {k}
    have hk : clampIdx (py "{ai}" ++ (d ++ c)).length (({k} : Nat) : Int) = {k} := by
      rw [clamp70', List.length_append]; exact Nat.min_eq_right (Nat.le_add_right _ _)
    have e1 : sliceI (py "{ai}" ++ (d ++ c)) ({k} : Nat) ({k} + (n : Int)) = (d ++ c).take n := by
      unfold sliceI slice
      rw [hc, hk, List.take_eq_take_min (l := py "{ai}" ++ (d ++ c)) (i := min _ _), Nat.min_assoc, Nat.min_comm ({k} + n), ← Nat.min_assoc, Nat.min_self, Nat.min_comm,
        ← List.take_eq_take_min, List.drop_take]
      rw [show (py "{ai}" ++ (d ++ c)).drop {k} = d ++ c from rfl, Nat.add_sub_cancel_left]
    have e2 : sliceFromI (py "{ai}" ++ (d ++ c)) ({k} + (n : Int)) = (d ++ c).drop n := by
      unfold sliceFromI
      rw [hc]
      have hlen : (py "{ai}" ++ (d ++ c)).length = {k} + (d ++ c).length := by rw [List.length_append]; rfl
      by_cases h : {k} + n ≤ (py "{ai}" ++ (d ++ c)).length
      · rw [Nat.min_eq_right h, ← List.drop_drop]; rfl
      · rw [Nat.min_eq_left (by omega), List.drop_length, List.drop_eq_nil_of_le (by omega)]
    rw [{X}.from_eq n hm, e1, e2]
    rfl
  · intro h
    refine no _ ?_
    cases hm : Rx.{x}Elem.fullmatch (py "{ai}" ++ b) with
    | false => rfl
    | true =>
      obtain ⟨d, c, ⟨hd, h1, h2⟩, ⟨h3, h4, h5⟩, e⟩ := ({X}.elem_lang _).1 hm
      exact absurd ⟨d, c, List.append_cancel_left e, (uDigits_iff _).2 hd, h1, h2, h3, h4, h5⟩ h
  · intro s h
    refine no _ ?_
    cases hm : Rx.{x}Elem.fullmatch s with
    | false => rfl
    | true =>
      obtain ⟨d, c, _, _, e⟩ := ({X}.elem_lang _).1 hm
      exact absurd ⟨_, e⟩ h
''')
out.append('''/-! ### The hypotheses are met, and all cases occur -/

example : SGTIN.fromGs1ElementString (py "(01)09521141123454(21)/xyz") 7 = .error .value ∧
    SGTIN.fromGs1ElementString (py "(01)09521141123454(21)/FFFFFFFF") 7 = .error .overflow ∧
    SGTIN.fromGs1ElementString (py "(01)09521141123454(21)/41") 7 = .error .convert ∧
    SGTIN.fromGs1ElementString (py "(01)09521141123454(21)/FFFFFFFF") 5 = .error .convert ∧
    GRAI.fromGs1ElementString (py "(8003)09521141123454/FFFFFFFF") 5 = .error .overflow := by decide +kernel

example : PercentsValueError (escape (py "/xyz")) :=
  ⟨py "2Fxyz", ⟨[], [], by decide, by simp, fun ⟨_, _, _, d, e, hp, _, hd, _⟩ => by
    have hd' := hd 'x'
    simp only [List.mem_cons, List.not_mem_nil, or_false] at hp
    rcases hp with rfl | rfl | rfl | rfl | rfl
    · rw [List.nil_append] at e
      exact absurd (hd' (by rw [← e]; decide)) (by decide)
    all_goals exact absurd (congrArg List.head? e) (by simp)⟩, fun n ⟨_, d, e, hp, _, hd, _⟩ => by
    have hd' := hd 'x'
    simp only [List.mem_cons, List.not_mem_nil, or_false] at hp
    rcases hp with rfl | rfl | rfl | rfl | rfl
    · rw [List.nil_append] at e
      exact absurd (hd' (by rw [← e]; decide)) (by decide)
    all_goals exact absurd (congrArg List.head? e) (by simp)⟩

end Epc''')
open('/verif/lean/Verif/Props/C70.lean','w').write('\n'.join(out)+'\n')
