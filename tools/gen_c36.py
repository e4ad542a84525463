"""Generates Props/C36.lean: element strings whose check digit is wrong."""
o = ['''/-
C36: element strings with a wrong check digit.

`from_gs1_element_string` does not look at the check digit, so the claim "if it returns x then x.gs1_element_string() is the string
that was parsed" is false for every scheme with a check digit (`C36_…_claim_false`).  What holds, for every string of ASCII characters
and every company prefix length (also a negative or too large one): the element string of the returned object is the parsed string
with its check digit put right, and it is the parsed string if the check digit was right.
`Corrected pre n s t`: `t` is `s`, but behind `pre` and `n` digits stands the right check digit of these digits.
The schemes without check digit give back exactly the string that was parsed; for GIAI and GINC only if the characters taken for the
company prefix contain no dot (a dot would move the boundary), for GIAI only if the string contains no colon.
Generated by tools/gen_c36.py.
-/
import Verif.Lemmas.ElemParse

namespace Epc
open Spec Re

/-- The claim, for one class. -/
def C36Claim (X : Type) (fromElem : Str → Int → Except Err X) (elem : X → Except Err Str) : Prop :=
  ∀ s n x, fromElem s n = .ok x → elem x = .ok s

''']
def stmt(X, l, pre, n, suffix='_partial', doc=None):
    return f'''/-- {X}: the check digit is ignored and put right. -/
theorem C36_{l}_partial (s : Str) (n : Int) (x : {X}) (ha : Ascii s) (h : {X}.fromGs1ElementString s n = .ok x) :
    ∃ t, x.gs1ElementString = .ok t ∧ Corrected (py "{pre}") {n} s t ∧
      (CheckDigitOk ((s.drop {len(pre)}).take {n+1}) → t = s) := by
'''
def false(X, l, s, n):
    return f'''/-- Counterexample: `{s}` has a wrong check digit and is accepted. -/
theorem C36_{l}_claim_false : ¬ C36Claim {X} {X}.fromGs1ElementString {X}.gs1ElementString := by
  intro h
  have key : ({X}.fromGs1ElementString (py "{s}") {n}).map (fun x => decide (x.gs1ElementString = .ok (py "{s}"))) = .ok false := by
    decide +kernel
  obtain ⟨x, hx, hb⟩ := map_ok_iff.1 key
  exact of_decide_eq_false hb (h _ _ x hx)

'''
def exm(X, good, n):
    return f'''example : (({X}.fromGs1ElementString (py "{good}") {n}).toOption.map (·.gs1ElementString)) = some (.ok (py "{good}")) := by decide +kernel

'''
def wrong(s, pre, n):
    i = len(pre)+n
    return s[:i]+str((int(s[i])+1)%10)+s[i+1:]

for X, l, g1, g2, good in [('SGTIN','sgtin','(01)','(21)','(01)09521141123454(21)32a/b'),('LGTIN','lgtin','(01)','(10)','(01)09521141123454(10)32a/b'),
      ('UPUI','upui','(01)','(235)','(01)09521141894569(235)51qIgY)<&Jp3*j7(SDB')]:
    hg = ', _' if X!='UPUI' else ''
    o.append(stmt(X,l,g1,13))
    I2 = '⟨_, h2⟩' if X!='UPUI' else 'h2'
    o.append(f'''  obtain ⟨i, C, I, k, c, ⟨hd, hl⟩, hc{hg}, _, rfl, hu⟩ := ({X}.from_iff _ _ _).1 h
  obtain ⟨C', I', S', ⟨⟨_, h1⟩, {I2}, _⟩, _, e, rfl⟩ := {X}.new_iff.1 hu
  have hd' := Dec.cons.1 hd
  have hC : Dec C := (Dec.append.1 hd'.2).1
  have hIk := Dec.append.1 (Dec.append.1 hd'.2).2
  obtain ⟨rfl, rfl, rfl⟩ := uri3_inj hC.no_dot (Dec.no_dot (Dec.cons.2 ⟨hd'.1, hIk.1⟩)) h1.no_dot h2.no_dot e
''')
    if X=='UPUI':
        o.append(f'''  refine ⟨py "{g1}" ++ (i :: (C ++ I) ++ (natStr (uCheck (i :: (C ++ I))) ++ (py "{g2}" ++ c))), ?_, ?_⟩
  · unfold UPUI.gs1ElementString
    dsimp only
    rw [show getIdx (i :: I) 0 = .ok i from rfl, ok_bind, show (i :: I).drop 1 = I from rfl, show i :: C ++ I = i :: (C ++ I) from rfl,
      checksum_dec (Dec.cons.2 ⟨hd'.1, Dec.append.2 ⟨hC, hIk.1⟩⟩), ok_bind, pure_ok, replaceUriEscapes_escape]
    simp
''')
    else:
        ser = 'replaceUriEscapes_escape'
        o.append(f'''  refine ⟨py "{g1}" ++ (i :: (C ++ I) ++ (natStr (uCheck (i :: (C ++ I))) ++ (py "{g2}" ++ c))), ?_, ?_⟩
  · have hk : keyBody C (i :: I) = i :: (C ++ I) := rfl
    unfold {X}.gs1ElementString
    dsimp only
    rw [{ser}, hk, padLeft_of_le (by
      rw [List.length_append, length_natStr_uCheck, List.length_cons, List.length_append]; omega)]
    simp
''')
    o.append(f'''  · refine corrected (k := k) (by rw [List.length_cons, List.length_append]; omega) ?_ ha ?_ rfl
    · simpa using hd
    · simp

''')
    o.append(false(X,l,wrong(good,g1,13),7)); o.append(exm(X,good,7))

# ITIP
good='(8006)095211411234540404(21)32a/b'
o.append(stmt('ITIP','itip','(8006)',13))
o.append('''  obtain ⟨i, C, I, k, A, B, c, ⟨hd, hl, _, _⟩, hc, _, rfl, hu⟩ := (ITIP.from_iff _ _ _).1 h
  obtain ⟨C', I', A', B', S', ⟨⟨_, h1⟩, ⟨_, h2⟩, ⟨_, h3⟩, ⟨_, h4⟩, _⟩, _, e, rfl⟩ := ITIP.new_iff.1 hu
  have hd' := Dec.cons.1 hd
  have hC : Dec C := (Dec.append.1 hd'.2).1
  have hIk := Dec.append.1 (Dec.append.1 hd'.2).2
  have hAB := Dec.append.1 (Dec.cons.1 hIk.2).2
  obtain ⟨rfl, rfl, e2⟩ := uri3_inj hC.no_dot (Dec.no_dot (Dec.cons.2 ⟨hd'.1, hIk.1⟩)) h1.no_dot h2.no_dot e
  obtain ⟨rfl, e3⟩ := append_sep_inj hAB.1.no_dot h3.no_dot e2
  obtain ⟨rfl, rfl⟩ := append_sep_inj hAB.2.no_dot h4.no_dot e3
  refine ⟨py "(8006)" ++ (i :: (C ++ I) ++ (natStr (uCheck (i :: (C ++ I))) ++ (A ++ (B ++ (py "(21)" ++ c))))), ?_, ?_⟩
  · unfold ITIP.gs1ElementString
    dsimp only
    rw [show getIdx (i :: I) 0 = .ok i from rfl, ok_bind, show (i :: I).drop 1 = I from rfl, show i :: C ++ I = i :: (C ++ I) from rfl,
      checksum_dec (Dec.cons.2 ⟨hd'.1, Dec.append.2 ⟨hC, hIk.1⟩⟩), ok_bind, pure_ok, replaceUriEscapes_escape]
    simp
  · refine corrected (k := k) (by rw [List.length_cons, List.length_append]; omega) ?_ ha ?_ rfl
    · have : Dec (i :: (C ++ (I ++ [k]))) := Dec.cons.2 ⟨hd'.1, Dec.append.2 ⟨hC, Dec.append.2 ⟨hIk.1, Dec.cons.2 ⟨(Dec.cons.1 hIk.2).1, Dec.nil⟩⟩⟩⟩
      simpa using this
    · simp

''')
o.append(false('ITIP','itip',wrong(good,'(8006)',13),7)); o.append(exm('ITIP',good,7))

# SSCC
good='(00)195211412345678900'
o.append(stmt('SSCC','sscc','(00)',17))
o.append('''  obtain ⟨i, C, I, k, ⟨hd, hl⟩, _, rfl, hu⟩ := (SSCC.from_iff _ _ _).1 h
  obtain ⟨C', I', ⟨⟨_, h1⟩, _⟩, _, e, rfl⟩ := SSCC.new_iff.1 hu
  have hd' := Dec.cons.1 hd
  obtain ⟨rfl, rfl⟩ := uri2_inj (Dec.append.1 hd'.2).1.no_dot h1.no_dot e
  refine ⟨py "(00)" ++ (i :: (C ++ I) ++ (natStr (uCheck (i :: (C ++ I))) ++ [])), ?_, ?_⟩
  · have hk : keyBody C (i :: I) = i :: (C ++ I) := rfl
    unfold SSCC.gs1ElementString
    dsimp only
    rw [hk]
    simp
  · refine corrected (k := k) (by rw [List.length_cons, List.length_append]; omega) ?_ ha ?_ rfl
    · simpa using hd
    · simp

''')
o.append(false('SSCC','sscc',wrong(good,'(00)',17),7)); o.append(exm('SSCC',good,7))
for X,l,pre,n,good in [('GSRN','gsrn','(8018)',17,'(8018)952114112345678906'),('GSRNP','gsrnp','(8017)',17,'(8017)952114112345678906'),
    ('PGLN','pgln','(417)',12,'(417)9521141890127'),('GSIN','gsin','(402)',16,'(402)95211411234567892')]:
    o.append(stmt(X,l,pre,n))
    o.append(f'''  obtain ⟨C, I, k, ⟨hd, hl⟩, _, rfl, hu⟩ := ({X}.from_iff _ _ _).1 h
  obtain ⟨C', I', ⟨⟨_, h1⟩, _⟩, _, e, rfl⟩ := {X}.new_iff.1 hu
  obtain ⟨rfl, rfl⟩ := uri2_inj (Dec.append.1 hd).1.no_dot h1.no_dot e
  refine ⟨py "{pre}" ++ (C ++ I ++ (natStr (uCheck (C ++ I)) ++ [])), ?_, ?_⟩
  · unfold {X}.gs1ElementString
    simp
  · refine corrected (k := k) (by rw [List.length_append]; omega) ?_ ha ?_ rfl
    · simpa using hd
    · simp

''')
    o.append(false(X,l,wrong(good,pre,n),7)); o.append(exm(X,good,7))
for X,l,pre,g2,good in [('SGLN','sgln','(414)','(254)','(414)9521141123454(254)32a/b'),('GRAI','grai','(8003)0','','(8003)0952114112345432a/b'),
   ('GDTI','gdti','(253)','','(253)9521141123454ABCD/5'),('SGCN','sgcn','(255)','','(255)952114167890904711')]:
    hg = ', _' if X=='SGLN' else ''
    rest = f'py "{g2}" ++ c' if g2 else 'c'
    h3 = '_' if X!='SGCN' else '⟨_, h3⟩'
    o.append(stmt(X,l,pre,12))
    if X=='SGCN':
        unesc = '''    rw [this]
    simp
'''
        o.append(f'''  obtain ⟨C, I, k, c, ⟨hd, hl⟩, hc, _, rfl, hu⟩ := (SGCN.from_iff _ _ _).1 h
  obtain ⟨C', I', S', ⟨⟨_, h1⟩, h2, ⟨_, h3⟩⟩, _, e, rfl⟩ := SGCN.new_iff.1 hu
  obtain ⟨rfl, rfl, rfl⟩ := uri3_inj (Dec.append.1 hd).1.no_dot (Dec.append.1 (Dec.append.1 hd).2).1.no_dot h1.no_dot h2.no_dot e
  have hcd : Digits (escape c) := by
    refine digits_of_dec_ascii h3 ?_
    exact gs3a3_ascii (gs3a3_escape hc.1 (by rintro rfl; simp at hc))
  have hesc : escape c = c := by
    have := replaceUriEscapes_escape (escape c)
    rw [escape_digits hcd] at this
    rw [← this, replaceUriEscapes_escape]
  rw [hesc]
  refine ⟨py "{pre}" ++ (C ++ I ++ (natStr (uCheck (C ++ I)) ++ c)), ?_, ?_⟩
  · unfold SGCN.gs1ElementString
    simp
  · refine corrected (k := k) (by rw [List.length_append]; omega) ?_ ha ?_ rfl
    · simpa using hd
    · simp

''')
    else:
        o.append(f'''  obtain ⟨C, I, k, c, ⟨hd, hl⟩, hc{hg}, _, rfl, hu⟩ := ({X}.from_iff _ _ _).1 h
  obtain ⟨C', I', S', ⟨⟨_, h1⟩, h2, _⟩, _, e, rfl⟩ := {X}.new_iff.1 hu
  obtain ⟨rfl, rfl, rfl⟩ := uri3_inj (Dec.append.1 hd).1.no_dot (Dec.append.1 (Dec.append.1 hd).2).1.no_dot h1.no_dot h2.no_dot e
  refine ⟨py "{pre}" ++ (C ++ I ++ (natStr (uCheck (C ++ I)) ++ ({rest}))), ?_, ?_⟩
  · unfold {X}.gs1ElementString
    dsimp only
    rw [replaceUriEscapes_escape]
    simp
  · refine corrected (k := k) (by rw [List.length_append]; omega) ?_ ha ?_ rfl
    · simpa using hd
    · simp

''')
    o.append(false(X,l,wrong(good,pre,12),7)); o.append(exm(X,good,7))


for X,l,L,ai in [('GIAI','giai',6,'(8004)'),('GINC','ginc',5,'(401)')]:
    col = X=='GIAI'
    o.append(f'''/-- {X} has no check digit: the string is given back exactly, if the characters taken for the company prefix contain no dot{" and the string contains no colon" if col else ""}. -/
theorem C36_{l}_partial (s : Str) (n : Int) (x : {X}) {"(hs : ':' ∉ s) " if col else ""}(hd : '.' ∉ s ∨ ∃ m : Nat, n = m ∧ '.' ∉ (s.drop {L}).take m)
    (h : {X}.fromGs1ElementString s n = .ok x) : x.gs1ElementString = .ok s := by
  obtain ⟨C, c, _, hcl, rfl, hu⟩ := ({X}.from_iff _ _ _).1 h
  obtain ⟨C', S', ⟨⟨_, h1⟩, _⟩, _, e, rfl⟩ := {X}.new_iff.1 hu
  have hC : '.' ∉ C := by
    rcases hd with hd | ⟨m, rfl, hd⟩
    · exact fun hm => hd (by simp [hm])
    · rw [show (py "{ai}" ++ (C ++ c)).drop {L} = C ++ c from rfl] at hd
      rw [show ({L} : Int) + (m : Int) = (({L} + m : Nat) : Int) by omega, clampIdx_pos] at hcl
      have hle : C.length ≤ m := by omega
      intro hm
      refine hd ?_
      rw [List.take_append, List.take_of_length_le hle]
      exact List.mem_append_left _ hm
  obtain ⟨rfl, rfl⟩ := uri2_inj hC h1.no_dot e
  unfold {X}.gs1ElementString
  dsimp only
''')
    if col: o.append('''  rw [split_notMem (escape_no_colon (fun hm => hs (by simp [hm])))]
  show Except.ok (_ ++ (_ ++ replaceUriEscapes (escape c))) = _
  rw [replaceUriEscapes_escape]

''')
    else: o.append('''  rw [replaceUriEscapes_escape]

''')
    o.append(false(X,l,f'{ai}9521141.23',9).replace('has a wrong check digit and is accepted',f'with company prefix length 9 is accepted and gives the object of `{ai}95211412.3`'))
    o.append(exm(X,ai+'9521141xyz/.1',7))
o.append(r'''/-- CPI has no check digit: the string is given back exactly. -/
theorem C36_cpi : C36Claim CPI CPI.fromGs1ElementString CPI.gs1ElementString := by
  intro s n x h
  obtain ⟨C, r, t, hm, ⟨hp, _⟩, _, rfl, hu⟩ := (CPI.from_iff _ _ _).1 h
  obtain ⟨C', D', S', ⟨⟨_, h1⟩, h2, _⟩, _, e, rfl⟩ := CPI.new_iff.1 hu
  obtain ⟨d, q, t', ⟨hd, _⟩, ⟨hq, _⟩, _, e'⟩ := (CPI.elem_lang _).1 hm
  have e'' : (C ++ r) ++ '(' :: (py "8011)" ++ t) = (d ++ q) ++ '(' :: (py "8011)" ++ t') := by
    have := List.append_cancel_left e'
    simpa using this
  have hp' : '(' ∉ d ++ q := by
    intro hx
    rcases List.mem_append.1 hx with hx | hx
    · exact hd.no_paren hx
    · exact CPI.gs39_no_paren hq hx
  have hr := (append_sep_inj hp hp' e'').1
  have hch : ∀ a ∈ C ++ r, a ≠ '.' ∧ a ≠ '%' := by
    intro a ha
    rw [hr] at ha
    rcases List.mem_append.1 ha with ha | ha
    · exact ⟨isDecimal_ne_dot (hd a ha), fun e => by rw [e] at ha; exact absurd (hd _ ha) (by decide)⟩
    · exact ⟨fun e => by rw [e] at ha; exact absurd (hq _ ha) (by decide), fun e => by rw [e] at ha; exact absurd (hq _ ha) (by decide)⟩
  obtain ⟨rfl, rfl, rfl⟩ := uri3_inj (fun hx => (hch _ (List.mem_append_left _ hx)).1 rfl)
    (escape39_no_dot' (fun hx => (hch _ (List.mem_append_right _ hx)).1 rfl)) h1.no_dot (cpref_no_dot h2) e
  unfold CPI.gs1ElementString
  dsimp only
  rw [replaceCpi_escape39' (fun a ha => (hch a (List.mem_append_right _ ha)).2)]
  simp

example : ((CPI.fromGs1ElementString (py "(8010)95211415PQ7/Z43(8011)12345") 7).toOption.map (·.gs1ElementString)) =
    some (.ok (py "(8010)95211415PQ7/Z43(8011)12345")) := by decide +kernel

end Epc
''')
open('/verif/lean/Verif/Props/C36.lean','w').write(''.join(o))
