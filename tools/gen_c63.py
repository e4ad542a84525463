"""Generates Props/C63.lean: decimal digits of other scripts."""
o=['''/-
C63: decimal digits of other scripts mean what the ASCII digits mean.

The constructors accept decimal digits of every script in the numeric components (C14).  `asciiDigits` (Spec/Script.lean) writes every decimal
digit of a text as the ASCII digit of the same value.  For every accepted URI `u` with object `x`: `asciiDigits u` is made of ASCII characters and
accepted, its attributes are those of `x` rewritten in the same way, so are GS1 key, element string and tag URI, and the binary encoding is
the same.  So C56 and C57, which are stated for URIs of ASCII characters, determine the encodings of all accepted URIs.
Generated by tools/gen_c63.py.
-/
import Verif.Lemmas.Script
import Verif.Props.C12

set_option linter.unusedSimpArgs false

namespace Epc
open Spec Re

private theorem asc2 {q a b : Str} (hq : Ascii q) (ha : Ascii a) (hb : Ascii b) : Ascii (q ++ ':' :: (a ++ '.' :: b)) :=
  ascii_append.2 ⟨hq, ascii_cons.2 ⟨by decide, ascii_append.2 ⟨ha, ascii_cons.2 ⟨by decide, hb⟩⟩⟩⟩

private theorem asc3 {q a b c : Str} (hq : Ascii q) (ha : Ascii a) (hb : Ascii b) (hc : Ascii c) :
    Ascii (q ++ ':' :: (a ++ '.' :: (b ++ '.' :: c))) :=
  asc2 hq ha (ascii_append.2 ⟨hb, ascii_cons.2 ⟨by decide, hc⟩⟩)

private theorem asc5 {q a b c d e : Str} (hq : Ascii q) (ha : Ascii a) (hb : Ascii b) (hc : Ascii c) (hd : Ascii d) (he : Ascii e) :
    Ascii (q ++ ':' :: (a ++ '.' :: (b ++ '.' :: (c ++ '.' :: (d ++ '.' :: e))))) :=
  asc3 hq ha hb (ascii_append.2 ⟨hc, ascii_cons.2 ⟨by decide, ascii_append.2 ⟨hd, ascii_cons.2 ⟨by decide, he⟩⟩⟩⟩)

private theorem map_ok' {α β : Type} {f : α → β} {a : α} : (Except.ok a : Except Err α).map f = .ok (f a) := rfl

private theorem map_bind_ite {b : Except Err Bool} {s t : Str} (h : asciiDigits s = t) :
    (b >>= fun bad => if bad = true then Except.error Err.convert else pure t) =
      (b >>= fun bad => if bad = true then Except.error Err.convert else pure s).map asciiDigits := by
  subst h
  cases b with
  | error e => rfl
  | ok v => cases v <;> rfl

''']
PUSH='asciiDigits_append, asciiDigits_cons, asciiDigit_dot, asciiDigit_colon'
def fields(X,fs): return '⟨'+', '.join(f'asciiDigits x.{f}' for f in fs)+'⟩'
def nest(pre,parts):
    s=parts[-1]
    for p in reversed(parts[:-1]): s=f"({p} ++ '.' :: {s})"
    return f'py "{pre}" ++ \':\' :: {s}'

# kind per component: D = digits nonempty, d = digits possibly empty, N = numeral, S = gs3a3 text, G= giai asset, R = cpi ref, K = cage
classes=[
 ('SGTIN','sgtin','urn:epc:id:sgtin','D D S',['epcUri','companyPref','itemRef','serial','gtin14'],'tag key elem'),
 ('SSCC','sscc','urn:epc:id:sscc','D D',['epcUri','companyPref','serial','sscc'],'tag key elem'),
 ('SGLN','sgln','urn:epc:id:sgln','D d S',['epcUri','companyPref','locationRef','serial','gln'],'tag key elem'),
 ('GRAI','grai','urn:epc:id:grai','D d S',['epcUri','companyPref','assetType','serial','grai'],'tag key elem'),
 ('GDTI','gdti','urn:epc:id:gdti','D d S',['epcUri','companyPref','docType','serial','gdti'],'tag key elem'),
 ('GIAI','giai','urn:epc:id:giai','D G',['epcUri','companyPref','assetRef','giai'],'tag key elem'),
 ('GSRN','gsrn','urn:epc:id:gsrn','D D',['epcUri','companyPref','serviceRef','gsrn'],'tag key elem'),
 ('GSRNP','gsrnp','urn:epc:id:gsrnp','D D',['epcUri','companyPref','serviceRef','gsrnp'],'tag key elem'),
 ('SGCN','sgcn','urn:epc:id:sgcn','D d D',['epcUri','companyPref','couponRef','serial','gcn'],'tag key elem'),
 ('ITIP','itip','urn:epc:id:itip','D D D D S',['epcUri','companyPref','itemRef','piece','total','serial'],'tag elem'),
 ('CPI','cpi','urn:epc:id:cpi','D R N',['epcUri','companyPref','cpRef','serial'],'tag elem'),
 ('GID','gid','urn:epc:id:gid','N N N',['epcUri','manager','object','serial'],'tag0'),
 ('USDOD','usdod','urn:epc:id:usdod','K N',['epcUri','cage','serial'],'tag16'),
 ('PGLN','pgln','urn:epc:id:pgln','D d',['epcUri','companyPref','partyRef','pgln'],'key elem'),
 ('GSIN','gsin','urn:epc:id:gsin','D D',['epcUri','companyPref','shipperRef','gsin'],'key elem'),
 ('GINC','ginc','urn:epc:id:ginc','D S',['epcUri','ginc'],'key elem'),
 ('LGTIN','lgtin','urn:epc:class:lgtin','D D S',['epcUri','companyPref','itemRef','lot','gtin14'],'key elem'),
 ('UPUI','upui','urn:epc:id:upui','D d S',['epcUri','companyPref','itemRef','tpx'],'elem'),
]
EXS=[]
for X,l,pre,kinds,fs,has in classes:
    ks=kinds.split(); vs=['C','D','A','B','S'][:len(ks)] if len(ks)!=3 else ['C','D','S']
    if len(ks)==2: vs=['C','D']
    pats=[];news=[];wits=[]; pre_facts=''; asc=[]
    for k,v in zip(ks,vs):
        if k=='D': pats.append(f'⟨h{v}0, h{v}⟩'); news.append(f'asciiDigits {v}'); wits.append(f'⟨asciiDigits_ne_nil h{v}0, dec_asciiDigits h{v}⟩'); asc.append(f'ascii_of_dec h{v}')
        elif k=='d': pats.append(f'h{v}'); news.append(f'asciiDigits {v}'); wits.append(f'dec_asciiDigits h{v}'); asc.append(f'ascii_of_dec h{v}')
        elif k=='N': pats.append(f'h{v}'); news.append(f'asciiDigits {v}'); wits.append(f'num_asciiDigits h{v}'); asc.append(f'ascii_of_dec h{v}.dec')
        elif k in 'SG':
            pats.append(f'h{v}'); news.append(v); wits.append(f'h{v}')
            pre_facts+=f'  have a{v} : asciiDigits {v} = {v} := asciiDigits_ascii (gs3a3_ascii h{v})\n'
            if k=='S': pre_facts+=f'  have r{v} : asciiDigits (replaceUriEscapes {v}) = replaceUriEscapes {v} := asciiDigits_unescaped h{v}\n'
            else:
                pre_facts+=f"""  have hne : (split ':' {v}).headD [] ≠ [] := by
    intro e0
    have hv := hc.2.1
    rw [e0] at hv
    revert hv
    decide
  have hH := gs3a3_head h{v} hne
  have aH : asciiDigits ((split ':' {v}).headD []) = (split ':' {v}).headD [] := asciiDigits_ascii (gs3a3_ascii hH)
  have rH : asciiDigits (replaceUriEscapes ((split ':' {v}).headD [])) = replaceUriEscapes ((split ':' {v}).headD []) := asciiDigits_unescaped hH
"""
            asc.append(f'gs3a3_ascii h{v}')
        elif k=='R':
            pats.append(f'h{v}'); news.append(v); wits.append(f'h{v}')
            pre_facts+=f'''  have t{v} : Ascii {v} := by
    obtain ⟨raw, _, h1, rfl⟩ := (lang_cpref {v}).1 h{v}
    exact fun c hc => (escape39_mem h1 c hc).1
  have a{v} : asciiDigits {v} = {v} := asciiDigits_ascii t{v}
'''
            asc.append(f't{v}')
        elif k=='K':
            pats.append(f'h{v}'); news.append(v); wits.append(f'h{v}')
            pre_facts+=f'''  have t{v} : Ascii {v} := by
    intro c hc
    exact (isCage_facts (((lang_cage {v}).1 h{v}).2 c hc)).2.2.2.2
  have a{v} : asciiDigits {v} = {v} := asciiDigits_ascii t{v}
'''
            asc.append(f't{v}')
    hpat='⟨'+', '.join(pats)+'⟩'
    fb='(c : '+X+'.Coding) (f : Fin 8)' if 'tag' in has.split() else None
    concl=[f'Ascii (asciiDigits u)',f'{X}.new (asciiDigits u) = .ok y',f'y = {fields(X,fs)}']
    if 'key' in has: concl.append('y.gs1Key = x.gs1Key.map asciiDigits' if X in('SGTIN','LGTIN') else 'y.gs1Key = asciiDigits x.gs1Key')
    if 'elem' in has: concl.append('y.gs1ElementString = x.gs1ElementString.map asciiDigits')
    if 'tag' in has:
        b,a={'tag':(f'(c : {X}.Coding) (f : Fin 8)','c f'),'tag0':(f'(c : {X}.Coding)','c'),'tag16':(f'(c : {X}.Coding) (f : Fin 16)','c f')}[has.split()[0]]
        concl.append(f'∀ {b}, y.tagUri {a} = (x.tagUri {a}).map asciiDigits ∧ y.binary {a} = x.binary {a}')
    st=f'''/-- {X}. -/
theorem C63_{l} (u : Str) (x : {X}) (hu : {X}.new u = .ok x) :
    ∃ y, '''+' ∧\n      '.join(concl)+' := by\n'
    pf=f'''  obtain ⟨{', '.join(vs)}, {hpat}, hc, rfl, rfl⟩ := {X}.new_iff.1 hu
{pre_facts}'''
    uri=nest(pre,vs); nuri=nest(pre,news)
    facts=[f'a{v}' for k,v in zip(ks,vs) if k in 'SGRK']+[f'r{v}' for k,v in zip(ks,vs) if k=='S']+(['aH','rH'] if 'G' in ks else [])
    fx=', '.join(facts)
    pf+=f'''  have eu : asciiDigits ({uri}) = {nuri} := by
    simp only [{PUSH}{', '+fx if fx else ''}]
    rfl
  have hasc : Ascii ({nuri}) :=
    asc{len(vs)} (by decide) {' '.join('('+a+')' for a in asc)}
'''
    pf+=f'''  rw [eu]
  refine ⟨_, hasc, {X}.new_iff.2 ⟨{', '.join(news)}, ⟨{', '.join(wits)}⟩, by simpa only [length_asciiDigits, decVal_asciiDigits] using hc, rfl, rfl⟩, {', '.join(['?_']*(len(concl)-2))}⟩
'''
    KEYS='padLeft_asciiDigits, keyBody_asciiDigits, uCheck_keyBody_ad, uCheck_append_ad, asciiDigits_natStr'
    # structure equality
    pf+='  · rfl\n' if X=='GID' else f'''  · dsimp only
    simp only [← padLeft_asciiDigits, ← keyBody_asciiDigits, {PUSH}, uCheck_keyBody_ad, uCheck_append_ad, asciiDigits_natStr{', '+fx if fx else ''}]
'''
    if 'key' in has:
        if X in('SGTIN','LGTIN'):
            pf+=f'''  · show Except.ok (List.take 14 _) = Except.ok (asciiDigits (List.take 14 _))
    dsimp only
    rw [asciiDigits_take]
    simp only [← padLeft_asciiDigits, ← keyBody_asciiDigits, {PUSH}, uCheck_keyBody_ad, asciiDigits_natStr]
'''
        else:
            pf+=f'''  · unfold {X}.gs1Key
    dsimp only
    simp only [← keyBody_asciiDigits, {PUSH}, uCheck_keyBody_ad, uCheck_append_ad, asciiDigits_natStr{', '+fx if fx else ''}]
'''
    if 'elem' in has:
        if X in('ITIP','UPUI'):
            nilcase = '    | nil => exact absurd rfl hD0\n' if X=='ITIP' else '    | nil => rfl\n'
            lits={'ITIP':('(8006)','(21)'),'UPUI':('(01)','(235)')}[X]
            pf+=f'''  · unfold {X}.gs1ElementString
    cases D with
{nilcase}    | cons i I =>
      have hI := Dec.cons.1 hD
      have hd : Dec (i :: (C ++ I)) := Dec.cons.2 ⟨hI.1, Dec.append.2 ⟨hC, hI.2⟩⟩
      have hd' : Dec (asciiDigit i :: (asciiDigits C ++ asciiDigits I)) := by
        have := dec_asciiDigits hd
        rwa [asciiDigits_cons, asciiDigits_append] at this
      rw [asciiDigits_cons]
      dsimp only
      rw [show getIdx (i :: I) 0 = .ok i from rfl, show getIdx (asciiDigit i :: asciiDigits I) 0 = .ok (asciiDigit i) from rfl, ok_bind, ok_bind,
        show (i :: I).drop 1 = I from rfl, show (asciiDigit i :: asciiDigits I).drop 1 = asciiDigits I from rfl]
      simp only [List.cons_append]
      rw [checksum_dec hd, checksum_dec hd', ok_bind, ok_bind, uCheck_cons_ad, pure_ok, pure_ok, map_ok']
      simp only [{PUSH}, asciiDigits_natStr, {fx}]
      rfl
'''
        elif X=='CPI':
            pf+=f'''  · unfold CPI.gs1ElementString
    dsimp only
    rw [map_ok']
    have rD : asciiDigits (CPI.replaceCpiEscapes D) = CPI.replaceCpiEscapes D := by
      obtain ⟨raw, _, h1, rfl⟩ := (lang_cpref D).1 hD
      rw [replaceCpi_escape39 h1]
      have : ∀ c ∈ gs39, c.toNat < 128 := by decide
      exact asciiDigits_ascii fun c hc => this c (h1 c hc)
    simp only [{PUSH}, rD]
    rfl
'''
        else:
            pf+=f'''  · unfold {X}.gs1ElementString
    dsimp only
    rw [map_ok']
    simp only [← padLeft_asciiDigits, ← keyBody_asciiDigits, {PUSH}, uCheck_keyBody_ad, uCheck_append_ad, asciiDigits_natStr{', '+fx if fx else ''}]
    rfl
'''
    if 'tag' in has:
        intro='intro c f' if 'tag0' not in has else 'intro c'
        lit='''have ap : asciiDigits tagUriPrefix = tagUriPrefix := by decide
    have ac : asciiDigits c.value = c.value := by cases c <;> decide'''
        pf+=f'''  · {intro}
    {lit}
    constructor
'''
        filt='' if 'tag0' in has else ', asciiDigits_filterStr'
        simpt=f'simp only [{PUSH}, ap, ac{filt}{", "+fx if fx else ""}]'
        if X in ('SGTIN','SGLN','GRAI','GDTI','ITIP','GIAI','CPI'):
            badname='badAssetRef' if X=='GIAI' else 'badSerial'
            pf+=f'''    · unfold {X}.tagUri
      have hb : {X}.{badname} ⟨{', '.join(['_']*len(fs))}⟩ c = {X}.{badname} ⟨{', '.join(['_']*len(fs))}⟩ c := BAD
      dsimp only
      rw [hb]
      refine map_bind_ite ?_
      {simpt}
'''
            # replaced below
            a1=', '.join(['asciiDigits u0' if False else '_'])
        else:
            pf+=f'''    · unfold {X}.tagUri
      dsimp only
      rw [map_ok']
      {simpt}
'''
        enc={'GIAI':'encodePartitionTable_asciiDigits\'','CPI':'encodePartitionTable_asciiDigits\', strToBinary_asciiDigits','SGCN':'encodePartitionTable_asciiDigits, encodeNumericString_asciiDigits',
             'ITIP':'encodePartitionTable_asciiDigits, encodeFixedWidthInteger_asciiDigits','GID':'strToBinary_asciiDigits','USDOD':'strToBinary_asciiDigits'}.get(X,'encodePartitionTable_asciiDigits')
        pf+=f'''    · unfold {X}.binary
      dsimp only
      simp only [{enc}]
'''
    # fix BAD
    if 'BAD' in pf:
        i=pf.index('      have hb'); j=pf.index('\n',i)
        # badSerial only looks at serial (CPI: lengths)
        if X=='CPI':
            hb='''      have hb : CPI.badSerial ⟨py "urn:epc:id:cpi" ++ ':' :: (asciiDigits C ++ '.' :: (D ++ '.' :: asciiDigits S)), asciiDigits C, D, asciiDigits S⟩ c =
          CPI.badSerial ⟨py "urn:epc:id:cpi" ++ ':' :: (C ++ '.' :: (D ++ '.' :: S)), C, D, S⟩ c := by
        cases c
        all_goals
          unfold CPI.badSerial
          dsimp only
          simp only [pyInt_asciiDigits, length_asciiDigits]'''
            pf=pf[:i]+hb+pf[j:]
        elif X=='GIAI':
            hb=f'''      have hb : ∀ (a b : Str), GIAI.badAssetRef ⟨a, asciiDigits C, (split ':' D).headD [], b⟩ c =
          GIAI.badAssetRef ⟨{uri}, C, (split ':' D).headD [], C ++ replaceUriEscapes ((split ':' D).headD [])⟩ c := by
        intro a b
        cases c
        all_goals
          unfold GIAI.badAssetRef
          dsimp only
          simp only [length_asciiDigits]'''
            pf=pf[:i]+hb+pf[j:]
        else:
            pf=pf[:i]+f'      have hb : ∀ (y : {X}), y.serial = S → y.badSerial c = {X}.badSerial x0 c := BADX'+pf[j:]
            # simpler: badSerial reduces by cases on c
            i=pf.index('      have hb'); j=pf.index('      dsimp only\n',i)
            k=pf.index('      refine map_bind_ite',j)
            pf=pf[:i]+'      cases c\n      all_goals\n        dsimp only\n        refine map_bind_ite ?_\n        '+simpt+'\n'+pf[pf.index('\n',pf.index(simpt,k))+1:]
    o.append(st+pf+'\n')
o.append('''/-- ADI, BIC and IMOVN accept only ASCII characters. -/
theorem C63_ascii_only (u : Str) : ((∃ x, ADI.new u = .ok x) ∨ (∃ x, BIC.new u = .ok x) ∨ (∃ x, IMOVN.new u = .ok x)) → Ascii u := by
  rintro (h | h | h)
  · obtain ⟨G, p, s, hG, _, _, hp, _, _, _, hs, _, _, rfl⟩ := (C12_adi u).1 h
    have e : py "urn:epc:id:adi:" ++ joinWith '.' [G, escape39 p, escape39 s] =
        py "urn:epc:id:adi" ++ ':' :: (G ++ '.' :: (escape39 p ++ '.' :: escape39 s)) := by simp [joinWith]
    rw [e]
    exact asc3 (by decide) (fun c hc => (isCage_facts ((mem_cage c).1 (hG c hc))).2.2.2.2)
      (fun c hc => (escape39_mem (fun c hc => (hp c hc).1) c hc).1) (fun c hc => (escape39_mem hs c hc).1)
  · obtain ⟨o, c, d, _, ho, hc, _, hd, rfl⟩ := (C12_bic u).1 h
    have hb : ∀ c ∈ bicLetters, c.toNat < 128 := by decide
    have hj : ∀ c ∈ py "JUZ", c.toNat < 128 := by decide
    exact ascii_append.2 ⟨ascii_append.2 ⟨ascii_append.2 ⟨by decide, fun c hc => hb c (ho c hc)⟩, ascii_cons.2 ⟨hj c hc, fun _ h => by cases h⟩⟩,
      ascii_of_digits hd⟩
  · obtain ⟨d, _, hd, rfl⟩ := (C12_imovn u).1 h
    exact ascii_append.2 ⟨by decide, ascii_of_digits hd⟩

''')
EXS=[('SGTIN','urn:epc:id:sgtin:٩٥٢١١٤١.०12345.32a%2Fb','urn:epc:id:sgtin:9521141.012345.32a%2Fb'),('GID','urn:epc:id:gid:9٥٢.2.3','urn:epc:id:gid:952.2.3'),('SGCN','urn:epc:id:sgcn:٩٥٢١١٤١.67890.0471१','urn:epc:id:sgcn:9521141.67890.04711')]
o.append('''/-! ### Non-vacuity: accepted URIs with digits of other scripts, and what they are rewritten to -/

''')
for X,u,v in EXS:
    o.append(f'example : (({X}.new (py "{u}")).toOption.map (fun x => asciiDigits x.epcUri)) = some (py "{v}") := by decide +kernel\n')
o.append('''
/-- Two objects with different URIs and the same bits. -/
example : ((SGTIN.new (py "urn:epc:id:sgtin:٩521141.012345.1")).toOption.map (fun x => (x.binary .sgtin96 1).toOption)) =
    ((SGTIN.new (py "urn:epc:id:sgtin:9521141.012345.1")).toOption.map (fun x => (x.binary .sgtin96 1).toOption)) := by decide +kernel

end Epc
''')
open('/verif/lean/Verif/Props/C63.lean','w').write(''.join(o))
