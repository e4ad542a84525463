"""Generates Props/C59.lean: complete specification of from_gs1_element_string."""
o = [r'''/-
C59: what `from_gs1_element_string(s, n)` does, completely, for every string `s` and every company prefix length `n` (a non-negative
integer).  Negative lengths are not refused: they count from the end, as slice bounds do; the theorems `C59_x_negative` reduce every
negative length to a non-negative one.

For every class with element strings there is one theorem with up to four parts:
* the strings that are accepted: application identifier, digits (the first `n` of them, or for the classes with an indicator or
  extension digit the first `n` behind it, are the company prefix; the last digit is the check digit, which is ignored), and the
  serial part; the object returned is the one whose URI consists of these parts;
* every other string (and every other `n`) raises ConvertException, except for the two following cases:
* SGTIN, LGTIN, SGLN: a serial number containing a group in parentheses of the length of an application identifier raises ValueError;
* a serial number whose escapes the URI check misreads (see `LoneLetterEscapes`) raises ConvertException, ValueError or OverflowError.
For GIAI and GINC the strings are limited to those with no dot among the first `n` characters (a dot moves the boundary, see C36) and,
for GIAI, with no colon.
Generated by tools/gen_c59.py.
-/
import Verif.Lemmas.ElemParse
import Verif.Lemmas.LayoutText

namespace Epc
open Spec Re

private theorem clamp_add (N n k : Nat) : clampIdx N ((k : Int) + (n : Int)) = min N (k + n) := by
  rw [show ((k : Int) + (n : Int)) = ((k + n : Nat) : Int) by omega, clampIdx_pos]
  omega

private theorem clamp_nat (N n : Nat) : clampIdx N (n : Int) = min N n := by
  rw [clampIdx_pos]
  omega

private theorem not_ok_error {α : Type} {r : Except Err α} (h : ∀ x, r ≠ .ok x) : ∃ e, r = .error e := by
  cases r with
  | ok x => exact absurd rfl (h x)
  | error e => exact ⟨e, rfl⟩

private theorem dec_ne_nil {C : Str} {n : Nat} (h : C.length = n) (hn : 0 < n) : C ≠ [] := by
  rintro rfl
  simp at h
  omega

''']
def conv(X, rx):
    return f'''    have hm : Rx.{rx}.fullmatch s = true := by
      cases hm : Rx.{rx}.fullmatch s with
      | true => rfl
      | false =>
        exfalso
        refine hr ?_
        unfold {X}.fromGs1ElementString
        rw [hm]
        rfl
'''
# ---------------------------------------------------------------- digits and a text
#        X      l      ai        g2      key   N  cap  G     urn                 extra          range
rows = [('SGTIN','sgtin','(01)','(21)',True,14,20,2,'urn:epc:id:sgtin',None,(6,12)),
 ('LGTIN','lgtin','(01)','(10)',True,14,20,2,'urn:epc:class:lgtin',None,(6,12)),
 ('UPUI','upui','(01)','(235)',True,14,28,None,'urn:epc:id:upui',None,(1,12)),
 ('SGLN','sgln','(414)','(254)',False,13,20,3,'urn:epc:id:sgln',None,(6,12)),
 ('GRAI','grai','(8003)0','',False,13,16,None,'urn:epc:id:grai',16,(6,12)),
 ('GDTI','gdti','(253)','',False,13,17,None,'urn:epc:id:gdti',17,(6,12)),
 ('ITIP','itip','(8006)','(21)',True,18,20,None,'urn:epc:id:itip',None,(6,12))]
good = {'SGTIN':'(01)09521141123454(21)32a/b','LGTIN':'(01)09521141123454(10)32a/b','UPUI':'(01)09521141894569(235)51qIgY)<&Jp3*j7(SDB',
 'SGLN':'(414)9521141123454(254)32a/b','GRAI':'(8003)0952114112345432a/b','GDTI':'(253)9521141123454ABCD/5','ITIP':'(8006)095211411234540404(21)32a/b'}
for X,l,ai,g2,key,N,cap,G,urn,extra,(lo,hi) in rows:
    itip = X=='ITIP'
    tail = f'py "{g2}" ++ raw' if g2 else 'raw'
    vs = ('i ' if key else '')+'C I k '+('A B ' if itip else '')+'raw'
    end = 'k :: (A ++ B)' if itip else '[k]'
    digs = f'i :: (C ++ (I ++ ({end})))' if key and itip else ('i :: (C ++ (I ++ [k]))' if key else 'C ++ (I ++ [k])')
    ref = 'i :: I' if key else 'I'
    M = 12
    whole = f's = py "{ai}" ++ ({digs} ++ ({tail}))' if g2 else f's = py "{ai}" ++ ({digs} ++ raw)'
    wholeD = f's = py "{ai}" ++ (d ++ ({tail}))' if g2 else f's = py "{ai}" ++ (d ++ raw)'
    ng = f'¬ HasGroup {G} raw → ' if G else ''
    ex = f'C.length + I.length = {M} → ' + ('A.length = 2 → B.length = 2 → ' if itip else '')
    exl = f'(escape raw).length ≤ {extra} → ' if extra else ''
    exc = f' ∧ (escape raw).length ≤ {extra}' if extra else ''
    jl = 'C, '+ref+', '+('A, B, ' if itip else '')+'escape raw'
    o.append(f'''/-- {X}. -/
theorem C59_{l} (s : Str) (n : Nat) :
    (∀ {vs}, {whole} →
      UDigits ({digs}) → C.length = n → {ex}{lo} ≤ n → n ≤ {hi} →
      (∀ a ∈ raw, a ∈ gs82) → 1 ≤ raw.length → raw.length ≤ {cap} → {ng}LoneLetterEscapes raw → {exl}
      ∃ x, {X}.fromGs1ElementString s n = .ok x ∧ {X}.new (py "{urn}:" ++ joinWith '.' [{jl}]) = .ok x) ∧
    ((¬ ∃ d raw, {wholeD} ∧ UDigits d ∧ d.length = {N} ∧ (∀ a ∈ raw, a ∈ gs82) ∧ 1 ≤ raw.length ∧ raw.length ≤ {cap} ∧
        ({f"HasGroup {G} raw ∨ " if G else ""}¬ LoneLetterEscapes raw ∨ ({lo} ≤ n ∧ n ≤ {hi}{exc}))) →
      {X}.fromGs1ElementString s n = .error .convert) ∧
''')
    if G: o.append(f'''    (∀ d raw, {wholeD} → UDigits d → d.length = {N} → (∀ a ∈ raw, a ∈ gs82) → 1 ≤ raw.length → raw.length ≤ {cap} →
      HasGroup {G} raw → {X}.fromGs1ElementString s n = .error .value) ∧
''')
    o.append(f'''    (∀ d raw, {wholeD} → UDigits d → d.length = {N} → (∀ a ∈ raw, a ∈ gs82) → 1 ≤ raw.length → raw.length ≤ {cap} →
      {ng}¬ LoneLetterEscapes raw →
      ∃ e, {X}.fromGs1ElementString s n = .error e ∧ (e = .convert ∨ e = .value ∨ e = .overflow)) := by
''')
    hgn = ', hg' if G else ''
    intros = vs.replace(' ',' ')
    # decs
    if key and itip:
        decs = '''    have hd' := Dec.cons.1 hd
    have hC : Dec C := (Dec.append.1 hd'.2).1
    have hIk := Dec.append.1 (Dec.append.1 hd'.2).2
    have hAB := Dec.append.1 (Dec.cons.1 hIk.2).2
    have hI : Dec (i :: I) := Dec.cons.2 ⟨hd'.1, hIk.1⟩
'''
    elif key:
        decs = '''    have hd' := Dec.cons.1 hd
    have hC : Dec C := (Dec.append.1 hd'.2).1
    have hIk := Dec.append.1 (Dec.append.1 hd'.2).2
    have hI : Dec (i :: I) := Dec.cons.2 ⟨hd'.1, hIk.1⟩
'''
    else:
        decs = '''    have hC : Dec C := (Dec.append.1 hd).1
    have hI : Dec I := (Dec.append.1 (Dec.append.1 hd).2).1
'''
    hIne = '⟨by simp, hI⟩' if X in ('SGTIN','LGTIN','ITIP') else 'hI'
    sumpf = 'by rw [List.length_cons]; omega' if key else 'hsum'
    if itip: sumpf = 'by rw [List.length_cons]; omega'
    lens = {'SGTIN':'hv, by rw [hu]; exact h1, by rw [hu]; exact h2','LGTIN':'hv, by rw [hu]; exact h1, by rw [hu]; exact h2',
       'ITIP':'hv, by rw [hu]; exact h1, by rw [hu]; exact h2','UPUI':'hv, by rw [hu]; exact h1, by rw [hu]; exact h2',
       'SGLN':'hv, by rw [hu]; exact h2','GRAI':'hv, hx','GDTI':'hv, hx'}[X]
    rng = '' if X=='UPUI' else '⟨by omega, by omega⟩, '
    abw = 'A, B, ' if itip else ''
    abp = '⟨dec_ne_nil hA (by decide), hAB.1⟩, ⟨dec_ne_nil hB (by decide), hAB.2⟩, ' if itip else ''
    clamp = f'by show clampIdx {N} ((1 : Nat) + (n : Int)) = _; rw [clamp_add]; omega' if key else 'by rw [clamp_nat]; omega'
    fi = ('i, ' if key else '')+'C, I, k, '+abw+'raw'
    o.append(f'''  have hverr : ∀ raw : Str, (∀ a ∈ raw, a ∈ gs82) → 1 ≤ raw.length → LoneLetterEscapes raw → verifyGs3a3 (escape raw) = .ok () :=
    fun raw h h1 hl => (verify_escape_iff h (by rintro rfl; simp at h1)).2 hl
  refine ⟨?_, ?_, {"?_, " if G else ""}?_⟩
  · intro {vs} e hd hn hsum {"hA hB " if itip else ""}hlo hhi hc h1 h2 {"hg " if G else ""}hl {"hx" if extra else ""}
    rw [uDigits_iff] at hd
    have hv := hverr raw hc h1 hl
    have hu := replaceUriEscapes_escape raw
{decs}    have hnew := ({X}.new_iff (u := py "{urn}" ++ ':' :: (C ++ '.' :: (({ref}) ++ '.' :: {"(A ++ '.' :: (B ++ '.' :: escape raw))" if itip else "escape raw"})))).2
      ⟨C, {ref}, {abw}escape raw, ⟨⟨dec_ne_nil hn (by omega), hC⟩, {hIne}, {abp}gs3a3_escape hc (by rintro rfl; simp at h1)⟩, ⟨{sumpf}, {rng}{lens}⟩, rfl, rfl⟩
    exact ⟨_, ({X}.from_iff s n _).2 ⟨{fi}, ⟨hd, {"hsum, hA, hB" if itip else "hsum"}⟩, ⟨hc, h1, h2⟩{hgn}, {clamp}, e, hnew⟩, hnew⟩
  · intro hno
    refine Classical.byContradiction fun hr => ?_
{conv(X,l+'Elem')}    obtain ⟨d, raw, ⟨hd, hl⟩, ⟨hc, h1, h2⟩, rfl⟩ := ({X}.elem_lang s).1 hm
''')
    if G: o.append(f'''    have hg : ¬ HasGroup {G} raw := fun hg => hno ⟨d, raw, rfl, (uDigits_iff d).2 hd, hl, hc, h1, h2, .inl hg⟩
''')
    pre2 = '.inr (.inl hll)' if G else '.inl hll'
    pre3 = (lambda t: f'.inr (.inr {t})' if G else f'.inr {t}')
    if key:
        cons = '''    cases d with
    | nil => simp at hl
    | cons i d => ?_
'''
    else: cons=''
    feq = f'{X}.from_eq n hd hl ⟨hc, h1, h2⟩'+(' hg' if G else '')
    # destructuring new_iff
    nI = '⟨_, q2⟩' if X in ('SGTIN','LGTIN','ITIP') else 'q2'
    ndst = f"⟨C', I', {'A_, B_, ' if itip else ''}S', ⟨⟨_, q1⟩, {nI}, _⟩, hb, e', _⟩"
    hbC = 'hb.1' if X=='UPUI' else 'hb.2.1'
    hbv = 'hb.2.1' if X=='UPUI' else 'hb.2.2.1'
    dotC = 'Dec.no_dot (dec_slice hd _ _)' if key else 'Dec.no_dot (hd.take _)'
    dotI = 'Dec.no_dot (Dec.cons.2 ⟨(Dec.cons.1 hd).1, dec_slice hd _ _⟩)' if key else 'Dec.no_dot (dec_slice hd _ _)'
    err_dst = f"⟨C', I', {'A_, B_, ' if itip else ''}S', ⟨⟨_, q1⟩, {nI}, {'⟨_, q3⟩, ⟨_, q4⟩, ' if itip else ''}_⟩, e', hve⟩"
    if itip:
        inj = f'''obtain ⟨-, -, e2⟩ := uri3_inj ({dotC}) ({dotI}) q1.no_dot q2.no_dot e'
      obtain ⟨-, e3⟩ := append_sep_inj (Dec.no_dot (dec_slice hd _ _)) q3.no_dot e2
      obtain ⟨-, e4⟩ := append_sep_inj (Dec.no_dot (hd.drop _)) q4.no_dot e3'''
        ndst = f"⟨C', I', A_, B_, S', ⟨⟨_, q1⟩, ⟨_, q2⟩, ⟨_, q3⟩, ⟨_, q4⟩, _⟩, hb, e', _⟩"
    else:
        inj = f'''obtain ⟨-, -, e4⟩ := uri3_inj ({dotC}) ({dotI}) q1.no_dot q2.no_dot e' '''
    fdst = f"⟨{'i₁, ' if key else ''}C₁, I₁, k₁, {'A₁, B₁, ' if itip else ''}c₁, ⟨hd₁, {'hl₁, _, _' if itip else 'hl₁'}⟩, _{', _' if G else ''}, hcl, es, hu⟩"
    if key: d1c = '(Dec.append.1 (Dec.cons.1 hd₁).2).1'; d1i='(Dec.cons.2 ⟨(Dec.cons.1 hd₁).1, (Dec.append.1 (Dec.append.1 (Dec.cons.1 hd₁).2).2).1⟩)'
    else: d1c='(Dec.append.1 hd₁).1'; d1i='(Dec.append.1 (Dec.append.1 hd₁).2).1'
    cl1 = f'''      have hcl' : min {N} (1 + n) = C₁.length + 1 := by rw [← clamp_add]; exact hcl
''' if key else f'''      have hcl' : min {N} n = C₁.length := by rw [← clamp_nat]; exact hcl
'''
    extraok = ''
    if extra:
        extraok = f'''
      have hx : (escape raw).length ≤ {extra} := by
        rw [{feq}] at hok
        obtain {ndst} := {X}.new_iff.1 hok
        {inj.strip()}
        rw [e4]; exact hb.2.2.2'''
    rngpf = {'UPUI':'''
      have hne := dec_pos q1
      rw [← e1] at hne''' if False else ''}.get(X,'')
    if X=='UPUI':
        fin = f'''      obtain ⟨C', I', S', ⟨⟨qn, q1⟩, q2, _⟩, hb, e', _⟩ := UPUI.new_iff.1 hu
      obtain ⟨e1, -, -⟩ := uri3_inj (Dec.no_dot {d1c}) (Dec.no_dot {d1i}) q1.no_dot q2.no_dot e'
      have hpos : 0 < C₁.length := by rw [e1]; exact List.length_pos_iff.2 qn
      exact hno ⟨_, raw, rfl, (uDigits_iff _).2 hd, hl, hc, h1, h2, {pre3('⟨by omega, by omega⟩')}⟩
'''
    else:
        i3 = 'e2' if itip else '-'
        fin = f'''      obtain {ndst} := {X}.new_iff.1 hu
      obtain ⟨e1, -, -⟩ := uri3_inj (Dec.no_dot {d1c}) (Dec.no_dot {d1i}) q1.no_dot q2.no_dot e'
      have hb' := {hbC}
      rw [← e1] at hb'
      exact hno ⟨_, raw, rfl, (uDigits_iff _).2 hd, hl, hc, h1, h2, {pre3('⟨by omega, by omega'+(', hx' if extra else '')+'⟩')}⟩
'''
    o.append(f'''    have hlone : LoneLetterEscapes raw := Classical.byContradiction fun hll =>
      hno ⟨d, raw, rfl, (uDigits_iff d).2 hd, hl, hc, h1, h2, {pre2}⟩
{cons}    cases hok : {X}.fromGs1ElementString (py "{ai}" ++ ({'i :: d' if key else 'd'} ++ ({tail}))) n with
    | ok x =>{extraok}
      obtain {fdst} := ({X}.from_iff _ _ _).1 hok
{cl1}{fin}    | error er =>
      refine hr ?_
      rw [hok]
      rw [{feq}] at hok
      rcases {X}.new_error hok with rfl | {err_dst}
      · rfl
      exfalso
      {inj}
      rw [← e4, hverr raw hc h1 hlone] at hve
      cases hve
''')
    if G:
        o.append(f'''  · intro d raw e hd hl hc h1 h2 hg
    rw [uDigits_iff] at hd
    subst e
{cons}    exact {X}.from_group n hd hl ⟨hc, h1, h2⟩ hg
''')
    o.append(f'''  · intro d raw e hd hl hc h1 h2 {"hg " if G else ""}hlone
    rw [uDigits_iff] at hd
    subst e
{cons}    rw [{feq}]
    cases hok : {X}.new _ with
    | ok x =>
      exfalso
      obtain {ndst} := {X}.new_iff.1 hok
      {inj}
      have hv := {hbv}
      rw [← e4] at hv
      exact hlone ((verify_escape_iff hc (by rintro rfl; simp at h1)).1 hv)
    | error er =>
      refine ⟨er, rfl, ?_⟩
      rcases {X}.new_error hok with rfl | {err_dst}
      · exact .inl rfl
      · exact verify_error hve

example : (({X}.fromGs1ElementString (py "{good[X]}") 7).toOption.isSome) = true := by decide +kernel

''')
# ---------------------------------------------------------------- digits only
for X,l,ai,key,N,g in [('SSCC','sscc','(00)',True,18,'(00)195211412345678900'),('GSRN','gsrn','(8018)',False,18,'(8018)952114112345678906'),
    ('GSRNP','gsrnp','(8017)',False,18,'(8017)952114112345678906'),('PGLN','pgln','(417)',False,13,'(417)9521141890127'),('GSIN','gsin','(402)',False,17,'(402)95211411234567892')]:
    vs=('i ' if key else '')+'C I k'
    digs='i :: (C ++ (I ++ [k]))' if key else 'C ++ (I ++ [k])'
    ref='i :: I' if key else 'I'
    M=N-2 if key else N-1
    CN = 16 if X=='GSIN' else N
    decs = '''    have hd' := Dec.cons.1 hd
    have hC : Dec C := (Dec.append.1 hd'.2).1
    have hI : Dec (i :: I) := Dec.cons.2 ⟨hd'.1, (Dec.append.1 (Dec.append.1 hd'.2).2).1⟩
''' if key else '''    have hC : Dec C := (Dec.append.1 hd).1
    have hI : Dec I := (Dec.append.1 (Dec.append.1 hd).2).1
'''
    hIne = '⟨by simp, hI⟩' if key else ('hI' if X=='PGLN' else '⟨dec_ne_nil rfl (by omega), hI⟩')
    sumpf = 'by rw [List.length_cons]; omega' if key else 'hsum'
    clamp = f'by show clampIdx {N} ((1 : Nat) + (n : Int)) = _; rw [clamp_add]; omega' if key else 'by rw [clamp_nat]; omega'
    cl1 = f'''      have hcl' : min {N} (1 + n) = C₁.length + 1 := by rw [← clamp_add]; exact hcl
''' if key else f'''      have hcl' : min {CN} n = C₁.length := by rw [← clamp_nat]; exact hcl
'''
    cons = '''    cases d with
    | nil => simp at hl
    | cons i d => ?_
''' if key else ''
    d1c = '(Dec.append.1 (Dec.cons.1 hd₁).2).1' if key else '(Dec.append.1 hd₁).1'
    o.append(f'''/-- {X}. -/
theorem C59_{l} (s : Str) (n : Nat) :
    (∀ {vs}, s = py "{ai}" ++ ({digs}) → UDigits ({digs}) → C.length = n → C.length + I.length = {M} → 6 ≤ n → n ≤ 12 →
      ∃ x, {X}.fromGs1ElementString s n = .ok x ∧ {X}.new (py "urn:epc:id:{l}:" ++ joinWith '.' [C, {ref}]) = .ok x) ∧
    ((¬ ∃ d, s = py "{ai}" ++ d ∧ UDigits d ∧ d.length = {N} ∧ 6 ≤ n ∧ n ≤ 12) → {X}.fromGs1ElementString s n = .error .convert) := by
  refine ⟨?_, ?_⟩
  · intro {vs} e hd hn hsum hlo hhi
    rw [uDigits_iff] at hd
{decs}    have hnew := ({X}.new_iff (u := py "urn:epc:id:{l}" ++ ':' :: (C ++ '.' :: ({ref})))).2
      ⟨C, {ref}, ⟨⟨dec_ne_nil hn (by omega), hC⟩, {hIne}⟩, ⟨{sumpf}, by omega, by omega⟩, rfl, rfl⟩
    exact ⟨_, ({X}.from_iff s n _).2 ⟨{"i, " if key else ""}C, I, k, ⟨hd, hsum⟩, {clamp}, e, hnew⟩, hnew⟩
  · intro hno
    refine Classical.byContradiction fun hr => ?_
{conv(X,l+'Elem')}    obtain ⟨d, ⟨hd, hl⟩, rfl⟩ := ({X}.elem_lang s).1 hm
{cons}    cases hok : {X}.fromGs1ElementString (py "{ai}" ++ {'(i :: d)' if key else 'd'}) n with
    | ok x =>
      obtain ⟨{'i₁, ' if key else ''}C₁, I₁, k₁, ⟨hd₁, hl₁⟩, hcl, es, hu⟩ := ({X}.from_iff _ _ _).1 hok
{cl1}      obtain ⟨C', I', ⟨⟨_, q1⟩, _⟩, hb, e', _⟩ := {X}.new_iff.1 hu
      obtain ⟨e1, -⟩ := uri2_inj (Dec.no_dot {d1c}) q1.no_dot e'
      have hb' := hb.2
      rw [← e1] at hb'
      exact hno ⟨_, rfl, (uDigits_iff _).2 hd, hl, by omega, by omega⟩
    | error er =>
      refine hr ?_
      rw [hok]
      rw [{X}.from_eq n hd hl] at hok
      rw [{X}.new_error hok]

example : (({X}.fromGs1ElementString (py "{g}") 7).toOption.isSome) = true := by decide +kernel

''')
# ---------------------------------------------------------------- SGCN
o.append(r'''/-- SGCN. -/
theorem C59_sgcn (s : Str) (n : Nat) :
    (∀ C I k S, s = py "(255)" ++ (C ++ (I ++ [k]) ++ S) → UDigits (C ++ (I ++ [k])) → C.length = n → C.length + I.length = 12 →
      6 ≤ n → n ≤ 12 → Digits S → 1 ≤ S.length → S.length ≤ 12 →
      ∃ x, SGCN.fromGs1ElementString s n = .ok x ∧ SGCN.new (py "urn:epc:id:sgcn:" ++ joinWith '.' [C, I, S]) = .ok x) ∧
    ((¬ ∃ d S, s = py "(255)" ++ (d ++ S) ∧ UDigits d ∧ d.length = 13 ∧ Digits S ∧ 1 ≤ S.length ∧ S.length ≤ 12 ∧ 6 ≤ n ∧ n ≤ 12) →
      SGCN.fromGs1ElementString s n = .error .convert) := by
  refine ⟨?_, ?_⟩
  · intro C I k S e hd hn hsum hlo hhi hS h1 h2
    rw [uDigits_iff] at hd
    have hC : Dec C := (Dec.append.1 hd).1
    have hI : Dec I := (Dec.append.1 (Dec.append.1 hd).2).1
    have hgs : ∀ a ∈ S, a ∈ gs82 := fun a ha => gs3a3_gs82 (gs3a3_digits hS (by rintro rfl; simp at h1)) a ha
    have hnew := (SGCN.new_iff (u := py "urn:epc:id:sgcn" ++ ':' :: (C ++ '.' :: (I ++ '.' :: S)))).2
      ⟨C, I, S, ⟨⟨dec_ne_nil hn (by omega), hC⟩, hI, ⟨by rintro rfl; simp at h1, dec_of_digits hS⟩⟩, ⟨hsum, h2, by omega, by omega⟩, rfl, rfl⟩
    refine ⟨_, (SGCN.from_iff s n _).2 ⟨C, I, k, S, ⟨hd, hsum⟩, ⟨hgs, h1, h2⟩, by rw [clamp_nat]; omega, e, ?_⟩, hnew⟩
    rw [escape_digits hS]
    exact hnew
  · intro hno
    refine Classical.byContradiction fun hr => ?_
''' + conv('SGCN','sgcnElem') + r'''    obtain ⟨d, raw, ⟨hd, hl⟩, ⟨hc, h1, h2⟩, rfl⟩ := (SGCN.elem_lang s).1 hm
    cases hok : SGCN.fromGs1ElementString (py "(255)" ++ (d ++ raw)) n with
    | ok x =>
      obtain ⟨C, I, k, c, ⟨hd₁, hl₁⟩, hc₁, hcl, es, hu⟩ := (SGCN.from_iff _ _ _).1 hok
      have hcl' : min 13 n = C.length := by rw [← clamp_nat]; exact hcl
      obtain ⟨C', I', S', ⟨⟨_, q1⟩, q2, ⟨_, q3⟩⟩, hb, e', _⟩ := SGCN.new_iff.1 hu
      obtain ⟨rfl, rfl, rfl⟩ := uri3_inj (Dec.append.1 hd₁).1.no_dot (Dec.append.1 (Dec.append.1 hd₁).2).1.no_dot q1.no_dot q2.no_dot e'
      have hcd : Digits (escape c) :=
        digits_of_dec_ascii q3 (gs3a3_ascii (gs3a3_escape hc₁.1 (by rintro rfl; simp at hc₁)))
      have hesc : escape c = c := by
        have := replaceUriEscapes_escape (escape c)
        rw [escape_digits hcd] at this
        rw [← this, replaceUriEscapes_escape]
      rw [hesc] at hcd
      refine hno ⟨_, c, es, (uDigits_iff _).2 hd₁, ?_, hcd, hc₁.2.1, hc₁.2.2, by omega, by omega⟩
      simp only [List.length_append, List.length_cons, List.length_nil]
      omega
    | error er =>
      refine hr ?_
      rw [hok]
      rw [SGCN.from_eq n hd hl ⟨hc, h1, h2⟩] at hok
      rw [SGCN.new_error hok]

example : ((SGCN.fromGs1ElementString (py "(255)952114167890904711") 7).toOption.isSome) = true := by decide +kernel

private theorem escape_len_ge (raw : Str) : raw.length ≤ (escape raw).length := by
  induction raw with
  | nil => simp
  | cons c raw ih =>
    rw [escape, List.flatMap_cons, List.length_append, List.length_cons]
    have : 1 ≤ (escChar c).length := by
      unfold escChar
      repeat' split
      all_goals simp
    have h2 : (escape raw).length = (List.flatMap escChar raw).length := rfl
    omega

private theorem from_cut (p b : Str) (k n : Nat) (hp : p.length = k) :
    sliceI (p ++ b) (k : Nat) (k + (n : Int)) = b.take n ∧ sliceFromI (p ++ b) (k + (n : Int)) = b.drop n := by
  have hk : clampIdx (p ++ b).length (k : Int) = k := by rw [clamp_nat, List.length_append]; omega
  have hkn : clampIdx (p ++ b).length ((k : Int) + (n : Int)) = min (k + b.length) (k + n) := by
    rw [clamp_add, List.length_append, hp]
  constructor
  · have := sliceI_append (a := p) (b := b.take n) (c := b.drop n) (lo := (k : Int)) (hi := (k : Int) + (n : Int))
      (by rw [List.take_append_drop, hk, hp]) (by rw [List.take_append_drop, hkn, List.length_take, hp]; omega)
    rwa [List.take_append_drop] at this
  · unfold sliceFromI
    rw [hkn]
    by_cases hle : n ≤ b.length
    · rw [show min (k + b.length) (k + n) = p.length + n by omega, List.drop_append]
      simp
    · rw [show min (k + b.length) (k + n) = p.length + b.length by omega, List.drop_append, List.drop_eq_nil_of_le (by omega : b.length ≤ n)]
      simp

''')
for X,l,ai,K in [('GIAI','giai','(8004)',6),('GINC','ginc','(401)',5)]:
    col = X=='GIAI'
    lim = 'n + (escape c).length ≤ 30' if col else 'n + c.length ≤ 30'
    hcol = "':' ∉ c → " if col else ''
    head = '(split_nocolon hcol)' 
    o.append(f'''/-- {X}. -/
theorem C59_{l} (s : Str) (n : Nat) :
    (∀ C c, s = py "{ai}" ++ (C ++ c) → UDigits C → C.length = n → 6 ≤ n → n ≤ 12 → (∀ a ∈ c, a ∈ gs82) → 1 ≤ c.length →
      {lim} → {hcol}LoneLetterEscapes c →
      ∃ x, {X}.fromGs1ElementString s n = .ok x ∧ {X}.new (py "urn:epc:id:{l}:" ++ joinWith '.' [C, escape c]) = .ok x) ∧
    ({"':' ∉ s → " if col else ""}'.' ∉ (s.drop {K}).take n →
      (¬ ∃ C c, s = py "{ai}" ++ (C ++ c) ∧ UDigits C ∧ C.length = n ∧ (∀ a ∈ c, a ∈ gs82) ∧ 1 ≤ c.length ∧
        (¬ LoneLetterEscapes c ∨ (6 ≤ n ∧ n ≤ 12 ∧ {lim}))) →
      {X}.fromGs1ElementString s n = .error .convert) ∧
    (∀ C c, s = py "{ai}" ++ (C ++ c) → UDigits C → C.length = n → (∀ a ∈ c, a ∈ gs82) → 1 ≤ c.length → {hcol}¬ LoneLetterEscapes c →
      ∃ e, {X}.fromGs1ElementString s n = .error e ∧ (e = .convert ∨ e = .value ∨ e = .overflow)) := by
  have key : ∀ b : Str, Rx.{l}Elem.fullmatch (py "{ai}" ++ b) = true → {X}.fromGs1ElementString (py "{ai}" ++ b) n =
      {X}.new (py "urn:epc:id:{l}" ++ ':' :: (b.take n ++ '.' :: escape (b.drop n))) := by
    intro b hm
    have hcut := from_cut (py "{ai}") b {K} n rfl
    rw [{X}.from_eq n hm, show (({K} : Int) + (n : Int)) = (({K} : Nat) : Int) + (n : Int) from rfl, hcut.1, hcut.2]
''')
    if col:
        o.append('''  have hhead : ∀ c : Str, ':' ∉ c → (split ':' (escape c)).headD [] = escape c := by
    intro c hc
    rw [split_notMem (escape_no_colon hc)]
    rfl
''')
    fieldsnew = f'⟨⟨by omega, by omega⟩, by rw [hhead c hcol]; exact hv, by rw [hhead c hcol]; omega⟩' if col else f'⟨⟨by omega, by omega⟩, hv, by rw [hu]; omega, by rw [hu]; omega⟩'
    o.append(f'''  refine ⟨?_, ?_, ?_⟩
  · intro C c e hd hn hlo hhi hc h1 hlim {"hcol " if col else ""}hl
    rw [uDigits_iff] at hd
    have hne : c ≠ [] := by rintro rfl; simp at h1
    have hv := (verify_escape_iff hc hne).2 hl
    have hu := replaceUriEscapes_escape c
    have hle := escape_len_ge c
    have hnew := ({X}.new_iff (u := py "urn:epc:id:{l}" ++ ':' :: (C ++ '.' :: escape c))).2
      ⟨C, escape c, ⟨⟨dec_ne_nil hn (by omega), hd⟩, gs3a3_escape hc hne⟩, {fieldsnew}, rfl, rfl⟩
    have hm : Rx.{l}Elem.fullmatch s = true := ({X}.elem_lang s).2 ⟨C, c, ⟨hd, by omega, by omega⟩, ⟨hc, h1, by omega⟩, e⟩
    refine ⟨_, ?_, hnew⟩
    subst e
    rw [key _ hm, ← hn, List.take_left' rfl, List.drop_left' rfl]
    exact hnew
  · intro {"hcs " if col else ""}hdot hno
    refine Classical.byContradiction fun hr => ?_
{conv(X,l+'Elem')}    obtain ⟨d, q, _, _, e⟩ := ({X}.elem_lang s).1 hm
    have e0 : s = py "{ai}" ++ (d ++ q) := e
    generalize d ++ q = b at e0
    subst e0
    have hdb : (py "{ai}" ++ b).drop {K} = b := rfl
    rw [hdb] at hdot
    have hsplit : py "{ai}" ++ b = py "{ai}" ++ (b.take n ++ b.drop n) := by rw [List.take_append_drop]
    have hclen : b.drop n ≠ [] → (b.take n).length = n := by
      intro hne
      rw [List.length_take]
      have : n < b.length := by
        refine Classical.byContradiction fun hn => hne (List.drop_eq_nil_of_le (by omega))
      omega
    have hnocol : {"':' ∉ b.drop n" if col else "True"} := {"fun hx => hcs (List.mem_append_right _ (List.mem_of_mem_drop hx))" if col else "trivial"}
    cases hok : {X}.fromGs1ElementString (py "{ai}" ++ b) n with
    | ok x =>
      rw [key b hm] at hok
      obtain ⟨C', S', ⟨⟨_, q1⟩, hS⟩, hb, e', _⟩ := {X}.new_iff.1 hok
      obtain ⟨e1, e2⟩ := uri2_inj hdot q1.no_dot e'
      rw [← e1] at q1 hb
      rw [← e2] at hS hb
      obtain ⟨g1, g2⟩ := gs82_of_lang hS
      have hn := hclen g2
      {"rw [hhead _ hnocol, hn] at hb" if col else "rw [replaceUriEscapes_escape, hn] at hb"}
      exact hno ⟨b.take n, b.drop n, hsplit, (uDigits_iff _).2 q1, hn, g1, List.length_pos_iff.2 g2, .inr ⟨hb.1.1, hb.1.2, {"hb.2.2" if col else "hb.2.2.2"}⟩⟩
    | error er =>
      refine hr ?_
      rw [hok]
      rw [key b hm] at hok
      rcases {X}.new_error hok with rfl | ⟨C', S', ⟨⟨_, q1⟩, hS⟩, e', hve⟩
      · rfl
      exfalso
      obtain ⟨e1, e2⟩ := uri2_inj hdot q1.no_dot e'
      rw [← e1] at q1
      rw [← e2] at hS hve
      obtain ⟨g1, g2⟩ := gs82_of_lang hS
      refine hno ⟨b.take n, b.drop n, hsplit, (uDigits_iff _).2 q1, hclen g2, g1, List.length_pos_iff.2 g2, .inl fun hl => ?_⟩
      {"rw [hhead _ hnocol] at hve" if col else "skip"}
      rw [(verify_escape_iff g1 g2).2 hl] at hve
      cases hve
  · intro C c e hd hn hc h1 {"hcol " if col else ""}hlone
    rw [uDigits_iff] at hd
    subst e
    have hne : c ≠ [] := by rintro rfl; simp at h1
    cases hm : Rx.{l}Elem.fullmatch (py "{ai}" ++ (C ++ c)) with
    | false =>
      refine ⟨.convert, ?_, .inl rfl⟩
      unfold {X}.fromGs1ElementString
      rw [hm]
      rfl
    | true =>
      rw [key _ hm, ← hn, List.take_left' rfl, List.drop_left' rfl]
      cases hok : {X}.new _ with
      | ok x =>
        exfalso
        obtain ⟨C', S', ⟨⟨_, q1⟩, hS⟩, hb, e', _⟩ := {X}.new_iff.1 hok
        obtain ⟨e1, e2⟩ := uri2_inj hd.no_dot q1.no_dot e'
        have hv := hb.2.1
        rw [← e2{", hhead _ hcol" if col else ""}] at hv
        exact hlone ((verify_escape_iff hc hne).1 hv)
      | error er =>
        refine ⟨er, rfl, ?_⟩
        rcases {X}.new_error hok with rfl | ⟨C', S', _, e', hve⟩
        · exact .inl rfl
        · exact verify_error hve

example : (({X}.fromGs1ElementString (py "{ai}9521141xyz/.1") 7).toOption.isSome) = true := by decide +kernel

''')
o.append(r'''/-- CPI. -/
theorem C59_cpi (s : Str) (n : Nat) :
    (∀ C r t, s = py "(8010)" ++ (C ++ r ++ (py "(8011)" ++ t)) → UDigits C → C.length = n → 6 ≤ n → n ≤ 12 →
      (∀ a ∈ r, a ∈ gs39) → 1 ≤ r.length → n + (escape39 r).length ≤ 30 → UNumeral t → t.length ≤ 12 →
      ∃ x, CPI.fromGs1ElementString s n = .ok x ∧ CPI.new (py "urn:epc:id:cpi:" ++ joinWith '.' [C, escape39 r, t]) = .ok x) ∧
    ((¬ ∃ C r t, s = py "(8010)" ++ (C ++ r ++ (py "(8011)" ++ t)) ∧ UDigits C ∧ C.length = n ∧ 6 ≤ n ∧ n ≤ 12 ∧
        (∀ a ∈ r, a ∈ gs39) ∧ 1 ≤ r.length ∧ n + (escape39 r).length ≤ 30 ∧ UNumeral t ∧ t.length ≤ 12) →
      CPI.fromGs1ElementString s n = .error .convert) := by
  refine ⟨?_, ?_⟩
  · intro C r t e hd hn hlo hhi hr h1 hlim ht h2
    rw [uDigits_iff] at hd
    rw [uNumeral_iff] at ht
    have hne : r ≠ [] := by rintro rfl; simp at h1
    have hle := length_escape39_ge r
    have htd : Dec t ∧ 1 ≤ t.length := ⟨ht.dec, List.length_pos_iff.2 ht.ne_nil⟩
    have hnew := (CPI.new_iff (u := py "urn:epc:id:cpi" ++ ':' :: (C ++ '.' :: (escape39 r ++ '.' :: t)))).2
      ⟨C, escape39 r, t, ⟨⟨dec_ne_nil hn (by omega), hd⟩, (lang_cpref _).2 ⟨r, hne, hr, rfl⟩, ht⟩, ⟨by omega, h2, by omega, by omega⟩, rfl, rfl⟩
    have hm : Rx.cpiElem.fullmatch s = true := (CPI.elem_lang s).2
      ⟨C, r, t, ⟨hd, by omega, by omega⟩, ⟨hr, by omega⟩, ⟨htd.1, htd.2, h2⟩, by rw [e]; simp⟩
    refine ⟨_, (CPI.from_iff s n _).2 ⟨C, r, t, hm, ⟨?_, htd.1.no_paren⟩, ?_, e, hnew⟩, hnew⟩
    · intro hx
      rcases List.mem_append.1 hx with hx | hx
      · exact hd.no_paren hx
      · exact CPI.gs39_no_paren hr hx
    · rw [clamp_nat, List.length_append]; omega
  · intro hno
    refine Classical.byContradiction fun hr => ?_
''' + conv('CPI','cpiElem') + r'''    obtain ⟨d, q, t', ⟨hd, _⟩, ⟨hq, _⟩, ⟨ht', _⟩, es⟩ := (CPI.elem_lang _).1 hm
    have hp' : '(' ∉ d ++ q := by
      intro hx
      rcases List.mem_append.1 hx with hx | hx
      · exact hd.no_paren hx
      · exact CPI.gs39_no_paren hq hx
    cases hok : CPI.fromGs1ElementString s n with
    | ok x =>
      obtain ⟨C, r, t, _, ⟨hp, _⟩, hcl, e, hu⟩ := (CPI.from_iff _ _ _).1 hok
      rw [clamp_nat, List.length_append] at hcl
      obtain ⟨C', D', S', ⟨⟨_, h1⟩, h2, h3⟩, hb, e', rfl⟩ := CPI.new_iff.1 hu
      have e'' : (C ++ r) ++ '(' :: (py "8011)" ++ t) = (d ++ q) ++ '(' :: (py "8011)" ++ t') := by
        rw [es] at e
        have := List.append_cancel_left e
        simpa using this.symm
      have hre := (append_sep_inj hp hp' e'').1
      have hch : ∀ a ∈ C ++ r, a ≠ '.' ∧ a ≠ '%' := by
        intro a ha
        rw [hre] at ha
        rcases List.mem_append.1 ha with ha | ha
        · exact ⟨isDecimal_ne_dot (hd a ha), fun e => by rw [e] at ha; exact absurd (hd _ ha) (by decide)⟩
        · exact ⟨fun e => by rw [e] at ha; exact absurd (hq _ ha) (by decide), fun e => by rw [e] at ha; exact absurd (hq _ ha) (by decide)⟩
      obtain ⟨rfl, rfl, rfl⟩ := uri3_inj (fun hx => (hch _ (List.mem_append_left _ hx)).1 rfl)
        (escape39_no_dot' (fun hx => (hch _ (List.mem_append_right _ hx)).1 rfl)) h1.no_dot (cpref_no_dot h2) e'
      obtain ⟨raw, hne, hraw, hesc⟩ := (lang_cpref _).1 h2
      have hrr : r = raw := by
        rw [← replaceCpi_escape39' (fun a ha => (hch a (List.mem_append_right _ ha)).2), hesc, replaceCpi_escape39 hraw]
      subst hrr
      have hpos : 1 ≤ r.length := List.length_pos_iff.2 hne
      have hn : C.length = n := by omega
      exact hno ⟨C, r, t, e, (uDigits_iff _).2 h1, hn, by omega, by omega, hraw, hpos, by omega, (uNumeral_iff _).2 h3, hb.2.1⟩
    | error er =>
      refine hr ?_
      have hok' := hok
      rw [es, show py "(8010)" ++ (d ++ (q ++ (py "(8011)" ++ t'))) = py "(8010)" ++ ((d ++ q) ++ (py "(8011)" ++ t')) by simp,
        CPI.from_eq n (by rw [es] at hm; simpa using hm) hp' ht'.no_paren] at hok'
      rw [hok, CPI.new_error hok']

example : ((CPI.fromGs1ElementString (py "(8010)95211415PQ7/Z43(8011)12345") 7).toOption.isSome) = true := by decide +kernel

''')
# ---------------------------------------------------------------- negative lengths
o.append('''private theorem clamp_neg_eq (N k : Nat) (hk : 1 ≤ k) : clampIdx N (-(k : Int)) = clampIdx N ((N - k : Nat) : Int) := by
  unfold clampIdx
  split <;> split <;> omega

private theorem clamp_neg_key (N k : Nat) (hk : 2 ≤ k) (hN : k ≤ N) : clampIdx N (1 + -(k : Int)) = clampIdx N (1 + ((N - k : Nat) : Int)) := by
  unfold clampIdx
  split <;> split <;> omega

private theorem clamp_neg_body (N K k : Nat) (hk : K < k) (hN : k ≤ N) : clampIdx N (K + -(k : Int)) = clampIdx N (K + ((N - k : Nat) : Int)) := by
  unfold clampIdx
  split <;> split <;> omega

private theorem sliceI_clamp {s : Str} {i j i' j' : Int} (hi : clampIdx s.length i = clampIdx s.length i')
    (hj : clampIdx s.length j = clampIdx s.length j') : sliceI s i j = sliceI s i' j' := by
  unfold sliceI
  rw [hi, hj]

private theorem sliceToI_clamp {s : Str} {j j' : Int} (hj : clampIdx s.length j = clampIdx s.length j') : sliceToI s j = sliceToI s j' := by
  unfold sliceToI
  rw [hj]

private theorem sliceFromI_clamp {s : Str} {j j' : Int} (hj : clampIdx s.length j = clampIdx s.length j') : sliceFromI s j = sliceFromI s j' := by
  unfold sliceFromI
  rw [hj]

''')
def nomatch(X,rx):
    return f'''  cases hm : Rx.{rx}.fullmatch s with
  | false =>
    unfold {X}.fromGs1ElementString
    rw [hm]
    rfl
  | true =>
'''
for X,l,ai,g2,key,N,cap,G,urn,extra,_ in rows+[('SGCN','sgcn','(255)','',False,13,12,None,'',None,None)]+[(X,l,ai,None,key,N,None,None,'',None,None) for X,l,ai,key,N in [('SSCC','sscc','(00)',True,18),('GSRN','gsrn','(8018)',False,18),
    ('GSRNP','gsrnp','(8017)',False,18),('PGLN','pgln','(417)',False,13),('GSIN','gsin','(402)',False,17)]]:
    CN = 16 if X=='GSIN' else N
    o.append(f'''/-- {X}: negative company prefix lengths. -/
theorem C59_{l}_negative (s : Str) (k : Nat) :
''')
    if key: o.append(f'''    (2 ≤ k → k ≤ {N} → {X}.fromGs1ElementString s (-(k : Int)) = {X}.fromGs1ElementString s (({N} - k : Nat) : Int)) ∧
    (k = 1 ∨ {N} < k → ∀ x, {X}.fromGs1ElementString s (-(k : Int)) ≠ .ok x) := by
  refine ⟨fun h1 h2 => ?_, fun h x hx => ?_⟩
  rotate_left
  · obtain ⟨i, C, I, q, {'A, B, ' if X=='ITIP' else ''}{'c, ' if g2 is not None else ''}_, {'_, ' if g2 is not None else ''}{'_, ' if G else ''}hcl, _⟩ := ({X}.from_iff _ _ _).1 hx
    unfold clampIdx at hcl
    split at hcl <;> omega
  have hk := clamp_neg_key {N} k h1 h2
''')
    else: o.append(f'''    1 ≤ k → {X}.fromGs1ElementString s (-(k : Int)) = {X}.fromGs1ElementString s (({CN} - k : Nat) : Int) := by
  intro h1
  have hk := clamp_neg_eq {CN} k h1
''')
    o.append(nomatch(X,l+'Elem'))
    if g2 is not None: o.append(f'''    obtain ⟨d, c, ⟨hd, hl⟩, hc, rfl⟩ := ({X}.elem_lang s).1 hm
''')
    else: o.append(f'''    obtain ⟨d, ⟨hd, hl⟩, rfl⟩ := ({X}.elem_lang s).1 hm
''')
    if key: o.append('''    cases d with
    | nil => simp at hl
    | cons i d => ?_
''')
    args = 'hd hl'+(' hc' if g2 is not None else '')+(' hg' if G else '')
    if G: o.append(f'''    by_cases hg : HasGroup {G} c
    · rw [{X}.from_group _ hd hl hc hg, {X}.from_group _ hd hl hc hg]
''')
    P=f"(({CN} - k : Nat) : Int)"; Q="(-(k : Int))"
    if key: haves=[(f"sliceI (i :: d) 1 (1 + {Q}) = sliceI (i :: d) 1 (1 + {P})","sliceI_clamp rfl (by rw [hl]; exact hk)"),(f"∀ m, sliceI (i :: d) (1 + {Q}) m = sliceI (i :: d) (1 + {P}) m","fun m => sliceI_clamp (by rw [hl]; exact hk) rfl")]
    elif X=='GSIN': haves=[(f"sliceToI (d.take 16) {Q} = sliceToI (d.take 16) {P}","sliceToI_clamp (by rw [show (d.take 16).length = 16 by rw [List.length_take]; omega]; exact hk)"),(f"sliceFromI (d.take 16) {Q} = sliceFromI (d.take 16) {P}","sliceFromI_clamp (by rw [show (d.take 16).length = 16 by rw [List.length_take]; omega]; exact hk)")]
    else: haves=[(f"sliceToI d {Q} = sliceToI d {P}","sliceToI_clamp (by rw [hl]; exact hk)"),(f"sliceI d {Q} (-1) = sliceI d {P} (-1)","sliceI_clamp (by rw [hl]; exact hk) rfl")]
    for q,(a,b) in enumerate(haves): o.append(f"    have e{q} : {a} := {b}\n")
    o.append(f"""    rw [{X}.from_eq _ {args}, {X}.from_eq _ {args}, e0, e1]

""")
for X,l,K in [('GIAI','giai',6),('GINC','ginc',5)]:
    o.append(f'''/-- {X}: negative company prefix lengths. -/
theorem C59_{l}_negative (s : Str) (k : Nat) :
    ({K} < k → k ≤ s.length → {X}.fromGs1ElementString s (-(k : Int)) = {X}.fromGs1ElementString s ((s.length - k : Nat) : Int)) ∧
    (1 ≤ k → k ≤ {K} ∨ s.length < k → ∀ x, {X}.fromGs1ElementString s (-(k : Int)) ≠ .ok x) := by
  refine ⟨fun h1 h2 => ?_, fun h0 h x hx => ?_⟩
  rotate_left
  · obtain ⟨C, c, hm, hcl, e, hnew⟩ := ({X}.from_iff _ _ _).1 hx
    obtain ⟨C', S', ⟨⟨hne, q1⟩, _⟩, _, e', _⟩ := {X}.new_iff.1 hnew
    obtain ⟨d, q, ⟨_, hd, _⟩, _, es⟩ := ({X}.elem_lang s).1 hm
    have hlen : s.length = {K} + d.length + q.length := by
      rw [es, List.length_append, List.length_append, show (py "{'(8004)' if X=='GIAI' else '(401)'}").length = {K} from rfl]
      omega
    have hC : C = [] := by
      refine List.length_eq_zero_iff.1 ?_
      unfold clampIdx at hcl
      split at hcl <;> omega
    subst hC
    have e2 := List.append_cancel_left e'
    injection e2 with _ e2
    cases C' with
    | nil => exact hne rfl
    | cons a C' =>
      injection e2 with e3 _
      have := q1 a (List.mem_cons_self ..)
      rw [← e3] at this
      exact absurd this (by decide)
  have hk := clamp_neg_body s.length {K} k h1 h2
{nomatch(X,l+'Elem')}    have e0 : sliceI s ({K} : Nat) ({K} + (-(k : Int))) = sliceI s ({K} : Nat) ({K} + ((s.length - k : Nat) : Int)) := sliceI_clamp rfl hk
    have e1 : sliceFromI s ({K} + (-(k : Int))) = sliceFromI s ({K} + ((s.length - k : Nat) : Int)) := sliceFromI_clamp hk
    rw [{X}.from_eq _ hm, {X}.from_eq _ hm, e0, e1]

''')
o.append(r'''/-- CPI: negative company prefix lengths. -/
theorem C59_cpi_negative (s b t : Str) (k : Nat) (hs : s = py "(8010)" ++ (b ++ (py "(8011)" ++ t))) (hb : '(' ∉ b) (ht : '(' ∉ t) (h1 : 1 ≤ k) :
    CPI.fromGs1ElementString s (-(k : Int)) = CPI.fromGs1ElementString s ((b.length - k : Nat) : Int) := by
  have hk := clamp_neg_eq b.length k h1
''' + nomatch('CPI','cpiElem') + r'''    subst hs
    have e0 : sliceToI b (-(k : Int)) = sliceToI b ((b.length - k : Nat) : Int) := sliceToI_clamp hk
    have e1 : sliceFromI b (-(k : Int)) = sliceFromI b ((b.length - k : Nat) : Int) := sliceFromI_clamp hk
    rw [CPI.from_eq _ hm hb ht, CPI.from_eq _ hm hb ht, e0, e1]

/-- A negative length is accepted. -/
example : (SGTIN.fromGs1ElementString (py "(01)09521141123454(21)32a/b") (-7)).toOption.isSome = true ∧
    (GIAI.fromGs1ElementString (py "(8004)9521141xyz") (-9)).toOption.isSome = true := by decide +kernel

''')
o.append('''end Epc
''')
open('/verif/lean/Verif/Props/C59.lean','w').write(''.join(o))
