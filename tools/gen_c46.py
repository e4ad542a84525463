"""Generates Props/C46.lean: gs1_element_string is available and well-formed."""
o=['''/-
C46: `gs1_element_string()` returns for every accepted object, and what it returns matches the element-string pattern of its class.

Besides the pattern (`Rx.…Elem`, the model of the regular expression) each theorem states the shape in plain terms: application
identifier, digits, then characters of the 82-character set `gs82`, with the bounds on their number.
The claim is false for UPUI (an accepted object can have an empty item reference, then `IndexError`) and for SGCN (a serial of
non-ASCII digits is accepted, but does not match the pattern); there it is proved under the missing hypothesis.
Generated by tools/gen_c46.py.
-/
import Verif.Lemmas.ElemParse

namespace Epc
open Spec Re

/-- The claim, for one class. -/
def C46Claim (X : Type) (new : Str → Except Err X) (elem : X → Except Err Str) (pat : Re) : Prop :=
  ∀ u x, new u = .ok x → ∃ s, elem x = .ok s ∧ pat.fullmatch s = true

/-- Digits (of any script), for the shapes below. -/
def AllDec (n : Nat) (d : Str) : Prop := (∀ a ∈ d, isDecimal a = true) ∧ d.length = n

/-- Between 1 and `n` characters of the 82-character set. -/
def Chars82 (n : Nat) (c : Str) : Prop := (∀ a ∈ c, a ∈ gs82) ∧ 1 ≤ c.length ∧ c.length ≤ n

''']
def st(X,l,shape,hyp='',suffix='',doc=None):
    return f'''/-- {doc or X}. -/
theorem C46_{l}{suffix} (u : Str) (x : {X}) {hyp}(hu : {X}.new u = .ok x) :
    ∃ s, x.gs1ElementString = .ok s ∧ Rx.{l}Elem.fullmatch s = true ∧ {shape} := by
'''
def ex(X,u,s):
    return f'''example : (({X}.new (py "{u}")).toOption.map (·.gs1ElementString)) = some (.ok (py "{s}")) := by decide +kernel

'''
for X,l,q,g2,m,u,s in [('SGTIN','sgtin','replaceUriEscapes S','(21)',20,'urn:epc:id:sgtin:9521141.012345.32a%2Fb','(01)09521141123454(21)32a/b'),
    ('LGTIN','lgtin','replaceUriEscapes S','(10)',20,'urn:epc:class:lgtin:9521141.012345.32a%2Fb','(01)09521141123454(10)32a/b')]:
    o.append(st(X,l,f'∃ d c, AllDec 14 d ∧ Chars82 {m} c ∧ s = py "(01)" ++ (d ++ (py "{g2}" ++ c))'))
    o.append(f'''  obtain ⟨C, I, S, ⟨⟨_, hC⟩, ⟨hI0, hI⟩, hS⟩, ⟨hl, _, _, h1, h2⟩, rfl, rfl⟩ := {X}.new_iff.1 hu
  have hc : Chars82 {m} (replaceUriEscapes S) := ⟨unescaped_gs82 hS, h1, h2⟩
  cases I with
  | nil => exact absurd rfl hI0
  | cons i I => ?_
  obtain ⟨k, hk, hkd⟩ := natStr_uCheck_single (keyBody C (i :: I))
  rw [List.length_cons] at hl
  have hI' := Dec.cons.1 hI
  have hd : AllDec 14 (i :: (C ++ (I ++ [k]))) := ⟨Dec.cons.2 ⟨hI'.1, Dec.append.2 ⟨hC, Dec.append.2 ⟨hI'.2, hkd⟩⟩⟩, by
    simp only [List.length_append, List.length_cons, List.length_nil]; omega⟩
  have hkey : padLeft '0' 14 (keyBody C (i :: I) ++ natStr (uCheck (keyBody C (i :: I)))) = i :: (C ++ (I ++ [k])) := by
    rw [hk]
    have e : keyBody C (i :: I) ++ [k] = i :: (C ++ (I ++ [k])) := by simp [keyBody]
    rw [e]; exact padLeft_of_le (by have := hd.2; omega)
  refine ⟨py "(01)" ++ (i :: (C ++ (I ++ [k])) ++ (py "{g2}" ++ replaceUriEscapes S)), ?_, ({X}.elem_lang _).2 ⟨_, _, hd, hc, rfl⟩, _, _, hd, hc, rfl⟩
  unfold {X}.gs1ElementString
  dsimp only
  rw [hkey]
  simp

''')
    o.append(ex(X,u,s))
o.append(st('UPUI','upui','∃ d c, AllDec 14 d ∧ Chars82 28 c ∧ s = py "(01)" ++ (d ++ (py "(235)" ++ c))','(hi : x.itemRef ≠ []) ','_partial','UPUI, for objects with an item reference'))
o.append('''  obtain ⟨C, I, S, ⟨⟨_, hC⟩, hI, hS⟩, ⟨hl, _, h1, h2⟩, rfl, rfl⟩ := UPUI.new_iff.1 hu
  dsimp only at hi
  have hc : Chars82 28 (replaceUriEscapes S) := ⟨unescaped_gs82 hS, h1, h2⟩
  cases I with
  | nil => exact absurd rfl hi
  | cons i I => ?_
  obtain ⟨k, hk, hkd⟩ := natStr_uCheck_single (i :: (C ++ I))
  rw [List.length_cons] at hl
  have hI' := Dec.cons.1 hI
  have hd : AllDec 14 (i :: (C ++ (I ++ [k]))) := ⟨Dec.cons.2 ⟨hI'.1, Dec.append.2 ⟨hC, Dec.append.2 ⟨hI'.2, hkd⟩⟩⟩, by
    simp only [List.length_append, List.length_cons, List.length_nil]; omega⟩
  refine ⟨py "(01)" ++ (i :: (C ++ (I ++ [k])) ++ (py "(235)" ++ replaceUriEscapes S)), ?_, (UPUI.elem_lang _).2 ⟨_, _, hd, hc, rfl⟩, _, _, hd, hc, rfl⟩
  unfold UPUI.gs1ElementString
  dsimp only
  rw [show getIdx (i :: I) 0 = .ok i from rfl, ok_bind, show (i :: I).drop 1 = I from rfl, show i :: C ++ I = i :: (C ++ I) from rfl,
    checksum_dec (Dec.cons.2 ⟨hI'.1, Dec.append.2 ⟨hC, hI'.2⟩⟩), ok_bind, hk, pure_ok]
  simp

/-- An accepted UPUI without item reference: `gs1_element_string()` raises `IndexError`. -/
theorem C46_upui_index (u : Str) (x : UPUI) (hi : x.itemRef = []) (_hu : UPUI.new u = .ok x) : x.gs1ElementString = .error .index := by
  unfold UPUI.gs1ElementString
  rw [hi]
  rfl

/-- Counterexample: `urn:epc:id:upui:9521141123456..1`. -/
theorem C46_upui_claim_false : ¬ C46Claim UPUI UPUI.new UPUI.gs1ElementString Rx.upuiElem := by
  intro h
  have key : (UPUI.new (py "urn:epc:id:upui:9521141123456..1")).map (fun x => decide (x.gs1ElementString = .error .index)) = .ok true := by
    decide +kernel
  obtain ⟨x, hx, hb⟩ := map_ok_iff.1 key
  obtain ⟨s, hs, _⟩ := h _ x hx
  rw [of_decide_eq_true hb] at hs
  cases hs

''')
o.append(ex('UPUI','urn:epc:id:upui:9521141.089456.51qIgY)%3C%26Jp3*j7(SDB','(01)09521141894569(235)51qIgY)<&Jp3*j7(SDB'))
o.append(st('ITIP','itip','∃ d c, AllDec 18 d ∧ Chars82 20 c ∧ s = py "(8006)" ++ (d ++ (py "(21)" ++ c))'))
o.append('''  obtain ⟨C, I, A, B, S, ⟨⟨_, hC⟩, ⟨hI0, hI⟩, ⟨_, hA⟩, ⟨_, hB⟩, hS⟩, ⟨hl, _, _, h1, h2⟩, rfl, rfl⟩ := ITIP.new_iff.1 hu
  have hc : Chars82 20 (replaceUriEscapes S) := ⟨unescaped_gs82 hS, h1, h2⟩
  cases I with
  | nil => exact absurd rfl hI0
  | cons i I => ?_
  obtain ⟨k, hk, hkd⟩ := natStr_uCheck_single (i :: (C ++ I))
  rw [List.length_cons] at hl
  have hI' := Dec.cons.1 hI
  have hd : AllDec 18 (i :: (C ++ (I ++ (k :: (A ++ B))))) :=
    ⟨Dec.cons.2 ⟨hI'.1, Dec.append.2 ⟨hC, Dec.append.2 ⟨hI'.2, Dec.cons.2 ⟨(Dec.cons.1 hkd).1, Dec.append.2 ⟨hA, hB⟩⟩⟩⟩⟩, by
    simp only [List.length_append, List.length_cons]; omega⟩
  refine ⟨py "(8006)" ++ (i :: (C ++ (I ++ (k :: (A ++ B)))) ++ (py "(21)" ++ replaceUriEscapes S)), ?_, (ITIP.elem_lang _).2 ⟨_, _, hd, hc, rfl⟩, _, _, hd, hc, rfl⟩
  unfold ITIP.gs1ElementString
  dsimp only
  rw [show getIdx (i :: I) 0 = .ok i from rfl, ok_bind, show (i :: I).drop 1 = I from rfl, show i :: C ++ I = i :: (C ++ I) from rfl,
    checksum_dec (Dec.cons.2 ⟨hI'.1, Dec.append.2 ⟨hC, hI'.2⟩⟩), ok_bind, hk, pure_ok]
  simp

''')
o.append(ex('ITIP','urn:epc:id:itip:9521141.012345.04.04.32a%2Fb','(8006)095211411234540404(21)32a/b'))
o.append(st('SSCC','sscc','∃ d, AllDec 18 d ∧ s = py "(00)" ++ d'))
o.append('''  obtain ⟨C, I, ⟨⟨_, hC⟩, hI0, hI⟩, ⟨hl, _⟩, rfl, rfl⟩ := SSCC.new_iff.1 hu
  cases I with
  | nil => exact absurd rfl hI0
  | cons i I => ?_
  obtain ⟨k, hk, hkd⟩ := natStr_uCheck_single (keyBody C (i :: I))
  rw [List.length_cons] at hl
  have hI' := Dec.cons.1 hI
  have hd : AllDec 18 (i :: (C ++ (I ++ [k]))) := ⟨Dec.cons.2 ⟨hI'.1, Dec.append.2 ⟨hC, Dec.append.2 ⟨hI'.2, hkd⟩⟩⟩, by
    simp only [List.length_append, List.length_cons, List.length_nil]; omega⟩
  refine ⟨py "(00)" ++ (i :: (C ++ (I ++ [k]))), ?_, (SSCC.elem_lang _).2 ⟨_, hd, rfl⟩, _, hd, rfl⟩
  unfold SSCC.gs1ElementString
  dsimp only
  rw [hk]
  simp [keyBody]

''')
o.append(ex('SSCC','urn:epc:id:sscc:9521141.1234567890','(00)195211412345678900'))
for X,l,pre,n,u,s in [('GSRN','gsrn','(8018)',18,'urn:epc:id:gsrn:9521141.1234567890','(8018)952114112345678906'),
   ('GSRNP','gsrnp','(8017)',18,'urn:epc:id:gsrnp:9521141.1234567890','(8017)952114112345678906'),
   ('PGLN','pgln','(417)',13,'urn:epc:id:pgln:9521141.89012','(417)9521141890127'),('GSIN','gsin','(402)',17,'urn:epc:id:gsin:9521141.123456789','(402)95211411234567892')]:
    pat = 'hI0, hI' if X!='PGLN' else 'hI'
    o.append(st(X,l,f'∃ d, AllDec {n} d ∧ s = py "{pre}" ++ d'))
    o.append(f'''  obtain ⟨C, I, ⟨⟨_, hC⟩, {pat}⟩, ⟨hl, _⟩, rfl, rfl⟩ := {X}.new_iff.1 hu
  obtain ⟨k, hk, hkd⟩ := natStr_uCheck_single (C ++ I)
  have hd : AllDec {n} (C ++ (I ++ [k])) := ⟨Dec.append.2 ⟨hC, Dec.append.2 ⟨hI, hkd⟩⟩, by
    simp only [List.length_append, List.length_cons, List.length_nil]; omega⟩
  refine ⟨py "{pre}" ++ (C ++ (I ++ [k])), ?_, ({X}.elem_lang _).2 ⟨_, hd, rfl⟩, _, hd, rfl⟩
  unfold {X}.gs1ElementString
  dsimp only
  rw [hk]
  simp

''')
    o.append(ex(X,u,s))
for X,l,pre,g2,m,u,s in [('SGLN','sgln','(414)','(254)',20,'urn:epc:id:sgln:9521141.12345.32a%2Fb','(414)9521141123454(254)32a/b'),
   ('GRAI','grai','(8003)0','',16,'urn:epc:id:grai:9521141.12345.32a%2Fb','(8003)0952114112345432a/b'),
   ('GDTI','gdti','(253)','',17,'urn:epc:id:gdti:9521141.12345.ABCD%2F5','(253)9521141123454ABCD/5')]:
    G=f'py "{g2}" ++ ' if g2 else ''
    o.append(st(X,l,f'∃ d c, AllDec 13 d ∧ Chars82 {m} c ∧ s = py "{pre}" ++ (d ++ ({G}c))'))
    o.append(f'''  obtain ⟨C, I, S, ⟨⟨_, hC⟩, hI, hS⟩, ⟨hl, _, _, h2⟩, rfl, rfl⟩ := {X}.new_iff.1 hu
  have hle := length_replaceUriEscapes_le S
  have hc : Chars82 {m} (replaceUriEscapes S) :=
    ⟨unescaped_gs82 hS, List.length_pos_iff.2 (replaceUriEscapes_ne_nil (gs3a3_ne_nil hS)), by omega⟩
  obtain ⟨k, hk, hkd⟩ := natStr_uCheck_single (C ++ I)
  have hd : AllDec 13 (C ++ (I ++ [k])) := ⟨Dec.append.2 ⟨hC, Dec.append.2 ⟨hI, hkd⟩⟩, by
    simp only [List.length_append, List.length_cons, List.length_nil]; omega⟩
  refine ⟨py "{pre}" ++ (C ++ (I ++ [k]) ++ ({G}replaceUriEscapes S)), ?_, ({X}.elem_lang _).2 ⟨_, _, hd, hc, rfl⟩, _, _, hd, hc, rfl⟩
  unfold {X}.gs1ElementString
  dsimp only
  rw [hk]
  simp

''')
    o.append(ex(X,u,s))
o.append(st('SGCN','sgcn','∃ d c, AllDec 13 d ∧ Chars82 12 c ∧ s = py "(255)" ++ (d ++ c)','(ha : Ascii x.serial) ','_partial','SGCN, for a serial of ASCII digits'))
o.append('''  obtain ⟨C, I, S, ⟨⟨_, hC⟩, hI, hS0, hS⟩, ⟨hl, h2, _⟩, rfl, rfl⟩ := SGCN.new_iff.1 hu
  dsimp only at ha
  have hc : Chars82 12 S := ⟨gs82_of_digits (digits_of_dec_ascii hS ha), List.length_pos_iff.2 hS0, h2⟩
  obtain ⟨k, hk, hkd⟩ := natStr_uCheck_single (C ++ I)
  have hd : AllDec 13 (C ++ (I ++ [k])) := ⟨Dec.append.2 ⟨hC, Dec.append.2 ⟨hI, hkd⟩⟩, by
    simp only [List.length_append, List.length_cons, List.length_nil]; omega⟩
  refine ⟨py "(255)" ++ (C ++ (I ++ [k]) ++ S), ?_, (SGCN.elem_lang _).2 ⟨_, _, hd, hc, rfl⟩, _, _, hd, hc, rfl⟩
  unfold SGCN.gs1ElementString
  dsimp only
  rw [hk]
  simp

/-- Counterexample: a serial of Arabic-Indic digits. -/
theorem C46_sgcn_claim_false : ¬ C46Claim SGCN SGCN.new SGCN.gs1ElementString Rx.sgcnElem := by
  intro h
  have key : (SGCN.new (py "urn:epc:id:sgcn:9521141.67890.٠٤")).map
      (fun x => decide (x.gs1ElementString = .ok (py "(255)9521141678909٠٤"))) = .ok true := by
    decide +kernel
  obtain ⟨x, hx, hb⟩ := map_ok_iff.1 key
  obtain ⟨s, hs, hm⟩ := h _ x hx
  rw [of_decide_eq_true hb] at hs
  cases hs
  exact absurd hm (by decide +kernel)

''')
o.append(ex('SGCN','urn:epc:id:sgcn:9521141.67890.04711','(255)952114167890904711'))
o.append(st('GIAI','giai','∃ d c, AllDec d.length d ∧ (6 ≤ d.length ∧ d.length ≤ 12) ∧ Chars82 24 c ∧ s = py "(8004)" ++ (d ++ c)'))
o.append('''  obtain ⟨C, S, ⟨⟨_, hC⟩, hS⟩, ⟨hl, hv, h2⟩, rfl, rfl⟩ := GIAI.new_iff.1 hu
  generalize hA : (split ':' S).headD [] = A at hv h2 ⊢
  have hmem : ∀ a ∈ A, a ∈ S := by
    intro a ha
    exact headD_split_mem (hA ▸ ha)
  have hA0 : A ≠ [] := by
    rintro rfl
    revert hv
    decide
  have hle := length_replaceUriEscapes_le A
  have hc : Chars82 24 (replaceUriEscapes A) := ⟨fun a ha => (mem_replaceUriEscapes ha).elim (fun h => gs3a3_gs82 hS a (hmem a h)) id,
    List.length_pos_iff.2 (replaceUriEscapes_ne_nil hA0), by omega⟩
  exact ⟨py "(8004)" ++ (C ++ replaceUriEscapes A), rfl, (GIAI.elem_lang _).2 ⟨_, _, ⟨hC, hl⟩, hc, rfl⟩, _, _, ⟨hC, rfl⟩, hl, hc, rfl⟩

''')
o.append(ex('GIAI','urn:epc:id:giai:9521141.12345a%2Fb','(8004)952114112345a/b'))
o.append(st('GINC','ginc','∃ d c, AllDec d.length d ∧ (6 ≤ d.length ∧ d.length ≤ 12) ∧ Chars82 24 c ∧ s = py "(401)" ++ (d ++ c)'))
o.append('''  obtain ⟨C, S, ⟨⟨_, hC⟩, hS⟩, ⟨hl, hv, h1, h2⟩, rfl, rfl⟩ := GINC.new_iff.1 hu
  have hc : Chars82 24 (replaceUriEscapes S) := ⟨unescaped_gs82 hS, by omega, by omega⟩
  exact ⟨py "(401)" ++ (C ++ replaceUriEscapes S), rfl, (GINC.elem_lang _).2 ⟨_, _, ⟨hC, hl⟩, hc, rfl⟩, _, _, ⟨hC, rfl⟩, hl, hc, rfl⟩

''')
o.append(ex('GINC','urn:epc:id:ginc:9521141.xyz%2F11','(401)9521141xyz/11'))
o.append(st('CPI','cpi','''∃ d r t, AllDec d.length d ∧ (6 ≤ d.length ∧ d.length ≤ 12) ∧
      ((∀ a ∈ r, a ∈ gs39) ∧ 1 ≤ r.length ∧ r.length ≤ 24) ∧ (AllDec t.length t ∧ 1 ≤ t.length ∧ t.length ≤ 12) ∧
      s = py "(8010)" ++ (d ++ (r ++ (py "(8011)" ++ t)))'''))
o.append('''  obtain ⟨C, D, S, ⟨⟨_, hC⟩, hD, hS⟩, ⟨h1, h2, h3⟩, rfl, rfl⟩ := CPI.new_iff.1 hu
  obtain ⟨raw, hne, hr, rfl⟩ := (lang_cpref D).1 hD
  have hlen : raw.length ≤ (escape39 raw).length := length_escape39_ge raw
  have hp : 1 ≤ S.length := List.length_pos_iff.2 hS.ne_nil
  have hp' : 1 ≤ raw.length := List.length_pos_iff.2 hne
  refine ⟨py "(8010)" ++ (C ++ (raw ++ (py "(8011)" ++ S))), ?_,
    (CPI.elem_lang _).2 ⟨C, raw, S, ⟨hC, h3⟩, ⟨hr, by omega⟩, ⟨hS.dec, hp, h2⟩, rfl⟩,
    C, raw, S, ⟨hC, rfl⟩, h3, ⟨hr, hp', by omega⟩, ⟨⟨hS.dec, rfl⟩, hp, h2⟩, rfl⟩
  unfold CPI.gs1ElementString
  dsimp only
  rw [replaceCpi_escape39 hr]
  simp

''')
o.append(ex('CPI','urn:epc:id:cpi:9521141.5PQ7%2FZ43.12345','(8010)95211415PQ7/Z43(8011)12345'))
o.append('end Epc\n')
open('/verif/lean/Verif/Props/C46.lean','w').write(''.join(o))
