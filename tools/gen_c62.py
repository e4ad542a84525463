"""Generates Props/C62.lean: the text of every GS1 element string."""
o=['''/-
C62: the text of the GS1 element string of every accepted object, and what it determines.

For the URI `urn:epc:id:<scheme>:<prefix>.<reference>.<serial>` the first theorem of each class gives the element string character by character:
application identifier, key with its check digit (`KeyOf`, Spec/Key.lean), application identifier, and the serial with the escapes of TDS
replaced (`unescapeWith uriEscapes`, Spec/Serial.lean).  There is no restriction to serials in canonical form.
The second theorem says that two objects of the class whose company prefixes have the same length and whose element strings are equal
have the same company prefix, the same reference and, unescaped, the same serial.
Generated by tools/gen_c62.py.
-/
import Verif.Lemmas.Key
import Verif.Lemmas.ElemParse
import Verif.Lemmas.Unescape
import Verif.Lemmas.SerialText

namespace Epc
open Spec Re

/-- Two keys of the same length are equal only if what is in front of the check digit is. -/
private theorem keyOf_inj {n : Nat} {b b' k : Str} (h : KeyOf n b k) (h' : KeyOf n b' k) : b = b' := by
  obtain ⟨c, e⟩ := h.1
  obtain ⟨c', e'⟩ := h'.1
  rw [e] at e'
  exact (List.append_inj' e' rfl).1

/-- Equal texts that start with a key. -/
private theorem key_tail_inj {n : Nat} {b b' k k' s s' : Str} (h : KeyOf n b k) (h' : KeyOf n b' k') (e : k ++ s = k' ++ s') : b = b' ∧ s = s' := by
  obtain ⟨e1, e2⟩ := List.append_inj e (by rw [h.2.1, h'.2.1])
  subst e1
  exact ⟨keyOf_inj h h', e2⟩

/-- The indicator digit in front. -/
private theorem body_inj {i i' : Char} {C C' I I' : Str} (hl : C.length = C'.length) (e : i :: (C ++ I) = i' :: (C' ++ I')) : C = C' ∧ i :: I = i' :: I' := by
  injection e with e1 e2
  obtain ⟨e3, e4⟩ := List.append_inj e2 hl
  rw [e1, e3, e4]
  exact ⟨rfl, rfl⟩

''']
def URI(pre,parts):
    # parts joined with dots; right-nested for the model, flat in the statement
    return f'py "{pre}:" ++ ' + " ++ '.' :: ".join(parts)
def NEST(pre,parts):
    s=parts[-1]
    for p in reversed(parts[:-1]): s=f"({p} ++ '.' :: {s})"
    return f'py "{pre}" ++ \':\' :: {s}'
def thm(doc,name,binders,hyps,concl,proof):
    o.append(f'/-- {doc} -/\ntheorem {name} {binders}\n    {hyps} :\n    {concl} := by\n{proof}\n')

def unify(X,pre,parts,names,pat,conds,inj):
    """proof prefix: destructure hu and identify components"""
    e=f"  have e' : {NEST(pre,parts)} = {NEST(pre,names)} := by\n    rw [← e]; simp\n"
    return f'''  obtain ⟨{', '.join(names)}, {pat}, {conds}, e, rfl⟩ := {X}.new_iff.1 hu
{e}  obtain ⟨{', '.join(['rfl']*len(parts))}⟩ := {inj} e'
'''

EX=[]
# indicator + serial
for X,l,pre,g2,ex in [
  ('SGTIN','sgtin','urn:epc:id:sgtin','(21)',('urn:epc:id:sgtin:9521141.012345.a%2f%2F%25','(01)09521141123454(21)a%2f/%')),
  ('LGTIN','lgtin','urn:epc:class:lgtin','(10)',('urn:epc:class:lgtin:9521141.012345.32a%2Fb','(01)09521141123454(10)32a/b')),
  ('UPUI','upui','urn:epc:id:upui','(235)',('urn:epc:id:upui:9521141.089456.51qIgY)%3C%26Jp3*j7(SDB','(01)09521141894569(235)51qIgY)<&Jp3*j7(SDB'))]:
    u=URI(pre,['C','i :: I','S'])
    concl=f'∃ k, KeyOf 14 (i :: (C ++ I)) k ∧ x.gs1ElementString = .ok (py "(01)" ++ k ++ py "{g2}" ++ unescapeWith uriEscapes S)'
    hyps=f"(hC : '.' ∉ C) (hI : '.' ∉ i :: I) (hu : {X}.new ({u}) = .ok x)"
    if X=='UPUI': pat,conds="⟨⟨_, hC'⟩, hI', _⟩","⟨hl, _⟩"
    else: pat,conds="⟨⟨_, hC'⟩, ⟨_, hI'⟩, _⟩","⟨hl, _⟩"
    pr=unify(X,pre,['C','(i :: I)','S'],["C'","J","S'"],pat,conds,"uri3_inj hC hI hC'.no_dot hI'.no_dot")
    pr+='''  have hI := Dec.cons.1 hI'
  have hd : Dec (i :: (C ++ I)) := Dec.cons.2 ⟨hI.1, Dec.append.2 ⟨hC', hI.2⟩⟩
  have hk : KeyOf 14 (i :: (C ++ I)) (i :: (C ++ I) ++ natStr (uCheck (i :: (C ++ I)))) :=
    keyOf_check hd (by simp only [List.length_append, List.length_cons] at hl ⊢; omega)
  refine ⟨_, hk, ?_⟩
'''
    if X=='UPUI':
        pr+='''  unfold UPUI.gs1ElementString
  dsimp only
  rw [show getIdx (i :: I) 0 = .ok i from rfl, ok_bind, show (i :: I).drop 1 = I from rfl, show i :: C ++ I = i :: (C ++ I) from rfl,
    checksum_dec hd, ok_bind, pure_ok, replaceUriEscapes_eq]
  simp
'''
    else:
        pr+=f'''  have hpad : padLeft '0' 14 (keyBody C (i :: I) ++ natStr (uCheck (keyBody C (i :: I)))) = i :: (C ++ I) ++ natStr (uCheck (i :: (C ++ I))) :=
    padLeft_of_le (Nat.le_of_eq hk.2.1.symm)
  unfold {X}.gs1ElementString
  dsimp only
  rw [hpad, replaceUriEscapes_eq]
'''
    what={'SGTIN':'`(01)`, GTIN (indicator digit, company prefix, item reference, check digit), `(21)`, serial.','LGTIN':'`(01)`, GTIN, `(10)`, lot.','UPUI':'`(01)`, GTIN, `(235)`, third-party-controlled serial (an object without item reference raises, C46_upui_index).'}[X]
    thm(f'{X}: {what}',f'C62_{l}',f'(i : Char) (C I S : Str) (x : {X})',hyps,concl,pr)
    u2=URI(pre,["C'","i' :: I'","S'"])
    hy2=hyps+f"\n    (hC' : '.' ∉ C') (hI' : '.' ∉ i' :: I') (hv : {X}.new ({u2}) = .ok y)\n    (hl : C.length = C'.length) (h : x.gs1ElementString = y.gs1ElementString)"
    thm(f'{X}: what the element string determines.',f'C62_{l}_determines',f"(i i' : Char) (C I S C' I' S' : Str) (x y : {X})",hy2,
     "C = C' ∧ i :: I = i' :: I' ∧ unescapeWith uriEscapes S = unescapeWith uriEscapes S'",
     f'''  obtain ⟨k, hk, e⟩ := C62_{l} i C I S x hC hI hu
  obtain ⟨k', hk', e'⟩ := C62_{l} i' C' I' S' y hC' hI' hv
  rw [e, e', Except.ok.injEq] at h
  simp only [List.append_assoc] at h
  obtain ⟨h1, h2⟩ := key_tail_inj hk hk' (List.append_cancel_left h)
  exact ⟨(body_inj hl h1).1, (body_inj hl h1).2, List.append_cancel_left h2⟩
''')
    EX.append((X,)+ex)
# ITIP
X,l,pre='ITIP','itip','urn:epc:id:itip'
u=URI(pre,['C','i :: I','A','B','S'])
hyps=f"(hC : '.' ∉ C) (hI : '.' ∉ i :: I) (hA : '.' ∉ A) (hB : '.' ∉ B)\n    (hu : {X}.new ({u}) = .ok x)"
thm('ITIP: `(8006)`, GTIN, piece, total, `(21)`, serial.','C62_itip','(i : Char) (C I A B S : Str) (x : ITIP)',hyps,
 '∃ k, KeyOf (18 - A.length - B.length) (i :: (C ++ I)) k ∧\n      x.gs1ElementString = .ok (py "(8006)" ++ k ++ A ++ B ++ py "(21)" ++ unescapeWith uriEscapes S)',
 "  obtain ⟨C', J, A', B', S', ⟨⟨_, hC'⟩, ⟨_, hI'⟩, ⟨_, hA'⟩, ⟨_, hB'⟩, _⟩, ⟨hl, _⟩, e, rfl⟩ := ITIP.new_iff.1 hu\n"
 +f"  have e' : {NEST(pre,['C','(i :: I)','A','(B ++ '+chr(39)+'.'+chr(39)+' :: S)'])} = {NEST(pre,[chr(67)+chr(39),'J',chr(65)+chr(39),'(B'+chr(39)+' ++ '+chr(39)+'.'+chr(39)+' :: S'+chr(39)+')'])} := by\n    rw [← e]; simp\n"
 +'''  obtain ⟨rfl, rfl, e''⟩ := uri3_inj hC hI hC'.no_dot hI'.no_dot e'
  obtain ⟨rfl, e3⟩ := append_sep_inj hA hA'.no_dot e''
  obtain ⟨rfl, rfl⟩ := append_sep_inj hB hB'.no_dot e3
  have hI := Dec.cons.1 hI'
  have hd : Dec (i :: (C ++ I)) := Dec.cons.2 ⟨hI.1, Dec.append.2 ⟨hC', hI.2⟩⟩
  refine ⟨_, keyOf_check hd (by simp only [List.length_append, List.length_cons] at hl ⊢; omega), ?_⟩
  unfold ITIP.gs1ElementString
  dsimp only
  rw [show getIdx (i :: I) 0 = .ok i from rfl, ok_bind, show (i :: I).drop 1 = I from rfl, show i :: C ++ I = i :: (C ++ I) from rfl,
    checksum_dec hd, ok_bind, pure_ok, replaceUriEscapes_eq]
  simp
''')
u2=URI(pre,["C'","i' :: I'","A'","B'","S'"])
hy2=hyps+f"\n    (hC' : '.' ∉ C') (hI' : '.' ∉ i' :: I') (hA' : '.' ∉ A') (hB' : '.' ∉ B')\n    (hv : {X}.new ({u2}) = .ok y)\n    (hl : C.length = C'.length) (hlA : A.length = A'.length) (hlB : B.length = B'.length) (h : x.gs1ElementString = y.gs1ElementString)"
thm('ITIP: what the element string determines (piece and total having the same lengths, too).','C62_itip_determines',"(i i' : Char) (C I A B S C' I' A' B' S' : Str) (x y : ITIP)",hy2,
 "C = C' ∧ i :: I = i' :: I' ∧ A = A' ∧ B = B' ∧ unescapeWith uriEscapes S = unescapeWith uriEscapes S'",
 '''  obtain ⟨k, hk, e⟩ := C62_itip i C I A B S x hC hI hA hB hu
  obtain ⟨k', hk', e'⟩ := C62_itip i' C' I' A' B' S' y hC' hI' hA' hB' hv
  rw [e, e', Except.ok.injEq] at h
  simp only [List.append_assoc] at h
  rw [hlA, hlB] at hk
  obtain ⟨h1, h2⟩ := key_tail_inj hk hk' (List.append_cancel_left h)
  obtain ⟨h3, h4⟩ := List.append_inj h2 hlA
  obtain ⟨h5, h6⟩ := List.append_inj h4 hlB
  exact ⟨(body_inj hl h1).1, (body_inj hl h1).2, h3, h5, List.append_cancel_left h6⟩
''')
EX.append((X,'urn:epc:id:itip:9521141.012345.04.04.32a%2Fb','(8006)095211411234540404(21)32a/b'))
# SSCC
pre='urn:epc:id:sscc'
hyps=f"(hC : '.' ∉ C) (hu : SSCC.new ({URI(pre,['C','i :: I'])}) = .ok x)"
thm('SSCC: `(00)`, extension digit, company prefix, serial reference, check digit.','C62_sscc','(i : Char) (C I : Str) (x : SSCC)',hyps,
 '∃ k, KeyOf 18 (i :: (C ++ I)) k ∧ x.gs1ElementString = .ok (py "(00)" ++ k)',
 unify('SSCC',pre,['C','(i :: I)'],["C'","J"],"⟨⟨_, hC'⟩, _, hI'⟩","⟨hl, _⟩","uri2_inj hC hC'.no_dot")+'''  have hI := Dec.cons.1 hI'
  exact ⟨_, keyOf_check (Dec.cons.2 ⟨hI.1, Dec.append.2 ⟨hC', hI.2⟩⟩)
    (by simp only [List.length_append, List.length_cons] at hl ⊢; omega), rfl⟩
''')
thm('SSCC: what the element string determines.','C62_sscc_determines',"(i i' : Char) (C I C' I' : Str) (x y : SSCC)",
 hyps+f"\n    (hC' : '.' ∉ C') (hv : SSCC.new ({URI(pre,[chr(67)+chr(39),'i'+chr(39)+' :: I'+chr(39)])}) = .ok y)\n    (hl : C.length = C'.length) (h : x.gs1ElementString = y.gs1ElementString)",
 "C = C' ∧ i :: I = i' :: I'",
 '''  obtain ⟨k, hk, e⟩ := C62_sscc i C I x hC hu
  obtain ⟨k', hk', e'⟩ := C62_sscc i' C' I' y hC' hv
  rw [e, e', Except.ok.injEq] at h
  obtain rfl := List.append_cancel_left h
  exact body_inj hl (keyOf_inj hk hk')
''')
EX.append(('SSCC','urn:epc:id:sscc:9521141.1234567890','(00)195211412345678900'))
# key only
for X,l,g,n,u,s,nm in [('GSRN','gsrn','(8018)',18,'urn:epc:id:gsrn:9521141.1234567890','(8018)952114112345678906','service reference'),
   ('GSRNP','gsrnp','(8017)',18,'urn:epc:id:gsrnp:9521141.1234567890','(8017)952114112345678906','service reference'),
   ('PGLN','pgln','(417)',13,'urn:epc:id:pgln:9521141.89012','(417)9521141890127','party reference'),
   ('GSIN','gsin','(402)',17,'urn:epc:id:gsin:9521141.123456789','(402)95211411234567892','shipper reference')]:
    pre='urn:epc:id:'+l
    hyps=f"(hC : '.' ∉ C) (hu : {X}.new ({URI(pre,['C','I'])}) = .ok x)"
    thm(f'{X}: `{g}`, company prefix, {nm}, check digit.',f'C62_{l}',f'(C I : Str) (x : {X})',hyps,
     f'∃ k, KeyOf {n} (C ++ I) k ∧ x.gs1ElementString = .ok (py "{g}" ++ k)',
     unify(X,pre,['C','I'],["C'","J"],"⟨⟨_, hC'⟩, hI'⟩" if X=='PGLN' else "⟨⟨_, hC'⟩, _, hI'⟩","⟨hl, _⟩","uri2_inj hC hC'.no_dot")+
     '''  exact ⟨_, keyOf_check (Dec.append.2 ⟨hC', hI'⟩) (by simp only [List.length_append]; omega), rfl⟩
''')
    thm(f'{X}: what the element string determines.',f'C62_{l}_determines',f"(C I C' I' : Str) (x y : {X})",
     hyps+f"\n    (hC' : '.' ∉ C') (hv : {X}.new ({URI(pre,[chr(67)+chr(39),'I'+chr(39)])}) = .ok y)\n    (hl : C.length = C'.length) (h : x.gs1ElementString = y.gs1ElementString)",
     "C = C' ∧ I = I'",
     f'''  obtain ⟨k, hk, e⟩ := C62_{l} C I x hC hu
  obtain ⟨k', hk', e'⟩ := C62_{l} C' I' y hC' hv
  rw [e, e', Except.ok.injEq] at h
  obtain rfl := List.append_cancel_left h
  exact List.append_inj (keyOf_inj hk hk') hl
''')
    EX.append((X,u,s))
# key and serial
for X,l,g,g2,u,s,nm in [('SGLN','sgln','(414)','(254)','urn:epc:id:sgln:9521141.12345.32a%2Fb','(414)9521141123454(254)32a/b','location reference'),
   ('GRAI','grai','(8003)0','','urn:epc:id:grai:9521141.12345.32a%2Fb','(8003)0952114112345432a/b','asset type'),
   ('GDTI','gdti','(253)','','urn:epc:id:gdti:9521141.12345.ABCD%2F5','(253)9521141123454ABCD/5','document type'),
   ('SGCN','sgcn','(255)','','urn:epc:id:sgcn:9521141.67890.04711','(255)952114167890904711','coupon reference')]:
    pre='urn:epc:id:'+l
    ser='S' if X=='SGCN' else 'unescapeWith uriEscapes S'
    mid=f' ++ py "{g2}"' if g2 else ''
    hyps=f"(hC : '.' ∉ C) (hI : '.' ∉ I) (hu : {X}.new ({URI(pre,['C','I','S'])}) = .ok x)"
    pr=unify(X,pre,['C','I','S'],["C'","J","S'"],"⟨⟨_, hC'⟩, hI', _⟩","⟨hl, _⟩","uri3_inj hC hI hC'.no_dot hI'.no_dot")
    pr+='  refine ⟨_, keyOf_check (Dec.append.2 ⟨hC\', hI\'⟩) (by simp only [List.length_append]; omega), ?_⟩\n'
    if X!='SGCN': pr+='  rw [← replaceUriEscapes_eq]\n'
    pr+=f'  unfold {X}.gs1ElementString\n  simp\n'
    thm(f'{X}: `{g}`, company prefix, {nm}, check digit, {"`"+g2+"`, " if g2 else ""}serial.',f'C62_{l}',f'(C I S : Str) (x : {X})',hyps,
     f'∃ k, KeyOf 13 (C ++ I) k ∧ x.gs1ElementString = .ok (py "{g}" ++ k{mid} ++ {ser})',pr)
    thm(f'{X}: what the element string determines.',f'C62_{l}_determines',f"(C I S C' I' S' : Str) (x y : {X})",
     hyps+f"\n    (hC' : '.' ∉ C') (hI' : '.' ∉ I') (hv : {X}.new ({URI(pre,[chr(67)+chr(39),'I'+chr(39),'S'+chr(39)])}) = .ok y)\n    (hl : C.length = C'.length) (h : x.gs1ElementString = y.gs1ElementString)",
     f"C = C' ∧ I = I' ∧ {ser} = {ser}'",
     f'''  obtain ⟨k, hk, e⟩ := C62_{l} C I S x hC hI hu
  obtain ⟨k', hk', e'⟩ := C62_{l} C' I' S' y hC' hI' hv
  rw [e, e', Except.ok.injEq] at h
  simp only [List.append_assoc] at h
  obtain ⟨h1, h2⟩ := key_tail_inj hk hk' (List.append_cancel_left h)
  exact ⟨(List.append_inj h1 hl).1, (List.append_inj h1 hl).2, {'List.append_cancel_left h2' if g2 else 'h2'}⟩
''')
    EX.append((X,u,s))
# GIAI GINC
for X,l,g,u,s,nm,ser in [('GIAI','giai','(8004)','urn:epc:id:giai:9521141.12345a%2Fb:x','(8004)952114112345a/b','asset reference up to the first colon',"(S.takeWhile (· ≠ ':'))"),
   ('GINC','ginc','(401)','urn:epc:id:ginc:9521141.xyz%2F11','(401)9521141xyz/11','consignment reference','S')]:
    pre='urn:epc:id:'+l
    hyps=f"(hC : '.' ∉ C) (hu : {X}.new ({URI(pre,['C','S'])}) = .ok x)"
    pr=unify(X,pre,['C','S'],["C'","S'"],"⟨⟨_, hC'⟩, _⟩","_","uri2_inj hC hC'.no_dot")
    pr+='  rw [← replaceUriEscapes_eq]\n'
    if X=='GIAI': pr+="  rw [← headD_split_takeWhile]\n"
    pr+=f'  unfold {X}.gs1ElementString\n  simp\n'
    if X=='GIAI':
        o.append('''private theorem headD_split_takeWhile (s : Str) : (split ':' s).headD [] = s.takeWhile (· ≠ ':') := by
  obtain ⟨t, e, hn, ht⟩ := split_head_form ':' s
  generalize (split ':' s).headD [] = a at e hn
  subst e
  rw [List.takeWhile_append_of_pos (by intro c hc; simp; rintro rfl; exact hn hc)]
  rcases ht with rfl | ht
  · simp
  · cases t with
    | nil => cases ht
    | cons c t =>
      injection ht with ht
      subst ht
      simp

''')
    thm(f'{X} (no check digit): `{g}`, company prefix, {nm}.',f'C62_{l}',f'(C S : Str) (x : {X})',hyps,
     f'x.gs1ElementString = .ok (py "{g}" ++ C ++ unescapeWith uriEscapes {ser})',pr)
    thm(f'{X}: what the element string determines.',f'C62_{l}_determines',f"(C S C' S' : Str) (x y : {X})",
     hyps+f"\n    (hC' : '.' ∉ C') (hv : {X}.new ({URI(pre,[chr(67)+chr(39),'S'+chr(39)])}) = .ok y)\n    (hl : C.length = C'.length) (h : x.gs1ElementString = y.gs1ElementString)",
     f"C = C' ∧ unescapeWith uriEscapes {ser} = unescapeWith uriEscapes {ser.replace('S',chr(83)+chr(39))}",
     f'''  rw [C62_{l} C S x hC hu, C62_{l} C' S' y hC' hv, Except.ok.injEq] at h
  simp only [List.append_assoc] at h
  exact List.append_inj (List.append_cancel_left h) hl
''')
    EX.append((X,u,s))
# CPI
pre='urn:epc:id:cpi'
hyps=f"(hC : '.' ∉ C) (hD : '.' ∉ D) (hu : CPI.new ({URI(pre,['C','D','S'])}) = .ok x)"
thm('CPI: `(8010)`, company prefix, component/part reference, `(8011)`, serial.  In the URI the characters `#` and `/` of the reference are written `%23` and `%2F`.',
 'C62_cpi','(C D S : Str) (x : CPI)',hyps,
 '∃ raw, (raw ≠ [] ∧ ∀ c ∈ raw, c ∈ gs39) ∧ D = escape39 raw ∧ x.gs1ElementString = .ok (py "(8010)" ++ C ++ raw ++ py "(8011)" ++ S)',
 unify('CPI',pre,['C','D','S'],["C'","D'","S'"],"⟨⟨_, hC'⟩, hD', _⟩","_","uri3_inj hC hD hC'.no_dot (cpref_no_dot hD')")+
'''  obtain ⟨raw, h0, h1, rfl⟩ := (lang_cpref _).1 hD'
  refine ⟨raw, ⟨h0, h1⟩, rfl, ?_⟩
  unfold CPI.gs1ElementString
  dsimp only
  rw [replaceCpi_escape39 h1]
''')
thm('CPI: what the element string determines.','C62_cpi_determines',"(C D S C' D' S' : Str) (x y : CPI)",
 hyps+f"\n    (hC' : '.' ∉ C') (hD' : '.' ∉ D') (hv : CPI.new ({URI(pre,[chr(67)+chr(39),'D'+chr(39),'S'+chr(39)])}) = .ok y)\n    (hl : C.length = C'.length) (h : x.gs1ElementString = y.gs1ElementString)",
 "C = C' ∧ D = D' ∧ S = S'",
'''  obtain ⟨r, ⟨_, hr⟩, rfl, e⟩ := C62_cpi C D S x hC hD hu
  obtain ⟨r', ⟨_, hr'⟩, rfl, e'⟩ := C62_cpi C' D' S' y hC' hD' hv
  rw [e, e', Except.ok.injEq] at h
  simp only [List.append_assoc] at h
  obtain ⟨h1, h2⟩ := List.append_inj (List.append_cancel_left h) hl
  have hp : ∀ c ∈ gs39, c ≠ '(' := by decide
  have h2' : r ++ '(' :: (py "8011)" ++ S) = r' ++ '(' :: (py "8011)" ++ S') := h2
  obtain ⟨rfl, h3⟩ := append_sep_inj (fun hm => hp _ (hr _ hm) rfl) (fun hm => hp _ (hr' _ hm) rfl) h2'
  exact ⟨h1, rfl, List.append_cancel_left h3⟩
''')
EX.append(('CPI','urn:epc:id:cpi:9521141.11%2334.1','(8010)952114111#34(8011)1'))
o.append('/-! ### Non-vacuity -/\n\n')
for X,u,s in EX:
    o.append(f'example : (({X}.new (py "{u}")).toOption.map (·.gs1ElementString)) = some (.ok (py "{s}")) := by decide +kernel\n')
o.append('''
/-- Two different URIs with the same element string: lower-case escapes are not replaced, so the unescaped serials are equal. -/
example : ((SGTIN.new (py "urn:epc:id:sgtin:9521141.012345.a%252f")).toOption.map (·.gs1ElementString)) =
    ((SGTIN.new (py "urn:epc:id:sgtin:9521141.012345.a%2f")).toOption.map (·.gs1ElementString)) := by decide +kernel

/-- Without the hypothesis on the lengths the element string does not determine the company prefix. -/
example : ((SSCC.new (py "urn:epc:id:sscc:9521141.1234567890")).toOption.map (·.gs1ElementString)) =
    ((SSCC.new (py "urn:epc:id:sscc:95211412.134567890")).toOption.map (·.gs1ElementString)) := by decide +kernel

end Epc
''')
open('/verif/lean/Verif/Props/C62.lean','w').write(''.join(o))
