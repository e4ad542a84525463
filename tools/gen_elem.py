"""Generates lean/Verif/Lemmas/ElemParse.lean: what from_gs1_element_string accepts, class by class."""

HEAD = '''/-
What `from_gs1_element_string` does, class by class: `elem_lang` gives the strings the class's pattern matches, `from_iff` the
strings and company prefix lengths for which an object is returned, and how the URI of that object is made of the parts.
Generated by /verif/tools/gen_elem.py.
-/
import Verif.Lemmas.Elem
import Verif.Lemmas.Six
import Verif.Lemmas.Frame

set_option linter.unusedSimpArgs false

namespace Epc
open Spec Re

'''

out = [HEAD]

def block(X, body):
    out.append(f'namespace {X}\n\n{body}\nend {X}\n\n')

# class, rx, first group, second group, digits, chars, kind of cut, how the parts are found
# cut 'key': first digit belongs to the reference; 'plain': prefix then reference
A = [
 ('SGTIN', 'sgtin', 'urn:epc:id:sgtin', '01', '21', 14, 20, 'key', 'split', 2),
 ('LGTIN', 'lgtin', 'urn:epc:class:lgtin', '01', '10', 14, 20, 'key', 'split', 2),
 ('UPUI', 'upui', 'urn:epc:id:upui', '01', '235', 14, 28, 'key', 'slice', (4, 18, 23)),
 ('SGLN', 'sgln', 'urn:epc:id:sgln', '414', '254', 13, 20, 'plain', 'split', 3),
]
Bt = [
 ('SSCC', 'sscc', 'urn:epc:id:sscc', '00', 18, 'key', 'split', 2),
 ('GSRN', 'gsrn', 'urn:epc:id:gsrn', '8018', 18, 'plain', 'drop', 6),
 ('GSRNP', 'gsrnp', 'urn:epc:id:gsrnp', '8017', 18, 'plain', 'drop', 6),
 ('PGLN', 'pgln', 'urn:epc:id:pgln', '417', 13, 'plain', 'drop', 5),
]
Ct = [
 ('GRAI', 'grai', 'urn:epc:id:grai', '(8003)0', 13, 16, (7, 20)),
 ('GDTI', 'gdti', 'urn:epc:id:gdti', '(253)', 13, 17, (5, 18)),
 ('SGCN', 'sgcn', 'urn:epc:id:sgcn', '(255)', 13, 12, (5, 18)),
]

def cutparts(cut, N):
    if cut == 'key':
        return dict(bind='i C I k', d='i :: (C ++ (I ++ [k]))', dd='i :: d', I='i :: I', len=f'C.length + I.length = {N-2}',
            clamp=f'clampIdx {N} (1 + n) = C.length + 1', ref='i :: I')
    return dict(bind='C I k', d='C ++ (I ++ [k])', dd='d', I='I', len=f'C.length + I.length = {N-1}',
        clamp=f'clampIdx {N} n = C.length', ref='I')

CHARS = lambda m: f'(∀ a ∈ c, a ∈ gs82) ∧ 1 ≤ c.length ∧ c.length ≤ {m}'

def fromeq(X, rx, urn, s, hyps, lang, find, N, cut, serial, extra=''):
    """from_eq: evaluation of fromGs1ElementString on a matching string."""
    if cut == 'key':
        C = 'sliceI (i :: d) 1 (1 + n)'
        I = '(i :: sliceI (i :: d) (1 + n) (-1))'
        b = '{i : Char} {d c : Str}' if serial else '{i : Char} {d : Str}'
        hd = f'(hd : Dec (i :: d)) (hl : (i :: d).length = {N})'
    else:
        C = 'sliceToI d n'; I = 'sliceI d n (-1)'
        b = '{d c : Str}' if serial else '{d : Str}'
        hd = f'(hd : Dec d) (hl : d.length = {N})'
    tail = f"({C} ++ '.' :: ({I} ++ '.' :: escape c))" if serial else f"({C} ++ '.' :: {I})"
    return C, I, b, hd, tail

def gen_A(X, rx, urn, g1, g2, N, m, cut, how, arg):
    serial = True
    C, I, b, hd, tail = fromeq(X, rx, urn, None, None, None, None, N, cut, True)
    P = cutparts(cut, N)
    dd = P['dd']
    S = f'py "({g1})" ++ ({dd} ++ (py "({g2})" ++ c))'
    grp = how == 'split'
    hg = f' (hg : ¬ HasGroup {arg} c)' if grp else ''
    t = f'''theorem elem_lang (s : Str) : Rx.{rx}Elem.fullmatch s = true ↔
    ∃ d c, (Dec d ∧ d.length = {N}) ∧ ({CHARS(m)}) ∧ s = py "({g1})" ++ (d ++ (py "({g2})" ++ c)) :=
  (fullmatch_iff _ _).trans (lang_elemA _ _ _ (by decide) _)

theorem from_eq {b} (n : Int) {hd} (hc : {CHARS(m)}){hg} :
    fromGs1ElementString ({S}) n =
      new (py "{urn}" ++ ':' :: {tail}) := by
  have hm : Rx.{rx}Elem.fullmatch ({S}) = true := (elem_lang _).2 ⟨_, c, ⟨hd, hl⟩, hc, rfl⟩
'''
    if grp:
        t += f'''  have hs : splitNoCap (parenLen {arg}) ({S}) = [[], {dd}, c] :=
    (splitNoCap_two (k := {arg}) (m := py "{g1}") (m' := py "{g2}") (c := c) rfl (by decide) rfl (by decide) hd.no_paren).trans
      (by rw [splitNoCap_noGroup hg])
  unfold fromGs1ElementString
  rw [guard_true hm, ok_bind, hs, ← revertUriEscapes_eq{', Int.add_comm 1 n' if cut=='key' else ''}]
'''
    else:
        lo, hi, dr = arg
        t += f'''  have h1 : slice ({S}) {lo} {hi} = {dd} := slice_append rfl (by rw [hl]; rfl)
  have h2 : ({S}).drop {dr} = c := drop_append3 (by rw [hl]; rfl)
  unfold fromGs1ElementString
  rw [guard_true hm, ok_bind, h1, h2, ← revertUriEscapes_eq]
'''
    if cut == 'key':
        t += f'''  show new (_ ++ _ ++ _ ++ _) = _
  simp
'''
    else:
        t += '''  show new (_ ++ _ ++ _ ++ _) = _
  simp
'''
    if grp:
        t += f'''
theorem from_group {b} (n : Int) {hd} (hc : {CHARS(m)}) (hg : HasGroup {arg} c) :
    fromGs1ElementString ({S}) n = .error .value := by
  have hm : Rx.{rx}Elem.fullmatch ({S}) = true := (elem_lang _).2 ⟨_, c, ⟨hd, hl⟩, hc, rfl⟩
  obtain ⟨a, b, l, e⟩ := splitNoCap_hasGroup (gs82_no_nl hc.1) hg
  have hs : splitNoCap (parenLen {arg}) ({S}) = [] :: ({dd}) :: a :: b :: l :=
    (splitNoCap_two (k := {arg}) (m := py "{g1}") (m' := py "{g2}") (c := c) rfl (by decide) rfl (by decide) hd.no_paren).trans
      (by rw [e])
  unfold fromGs1ElementString
  rw [guard_true hm, ok_bind, hs]
  rfl
'''
    t += from_iff(X, urn, N, cut, f'({CHARS(m)})', (f'¬ HasGroup {arg} c' if grp else None), f'py "({g1})" ++ ({P["d"]} ++ (py "({g2})" ++ c))', True)
    block(X, t)

def from_iff(X, urn, N, cut, chars, group, s, serial):
    P = cutparts(cut, N)
    uri = f"py \"{urn}\" ++ ':' :: (C ++ '.' :: (({P['ref']}) ++ '.' :: escape c))" if serial else f"py \"{urn}\" ++ ':' :: (C ++ '.' :: ({P['ref']}))"
    conds = [f"(Dec ({P['d']}) ∧ {P['len']})"]
    if serial: conds.append(chars)
    if group: conds.append(group)
    conds += [P['clamp'], f's = {s}', f'new ({uri}) = .ok x']
    binders = P['bind'] + (' c' if serial else '')
    hcs = (', hc' if serial else '') + (', hg' if group else '')
    args = ' hd hl' + (' hc' if serial else '') + (' hg' if group else '')
    t = f'''
theorem from_iff (s : Str) (n : Int) (x : {X}) : fromGs1ElementString s n = .ok x ↔
    ∃ {binders}, {" ∧ ".join(conds)} := by
  constructor
  · intro h
    have hm : Rx.{X.lower()}Elem.fullmatch s = true := by
      unfold fromGs1ElementString at h
      exact (guard_bind_ok.1 h).1
    obtain ⟨d, {"c, " if serial else ""}⟨hd, hl⟩, {"hc, " if serial else ""}rfl⟩ := (elem_lang s).1 hm
'''
    if group:
        if cut == 'key':
            t += f'''    cases d with
    | nil => simp at hl
    | cons i d => ?_
    by_cases hg : {group}
    rotate_left
    · rw [from_group n hd hl hc (Classical.not_not.1 hg)] at h; cases h
'''
        else:
            t += f'''    by_cases hg : {group}
    rotate_left
    · rw [from_group n hd hl hc (Classical.not_not.1 hg)] at h; cases h
'''
    elif cut == 'key':
        t += '''    cases d with
    | nil => simp at hl
    | cons i d => ?_
'''
    t += f'''    rw [from_eq n{args}] at h
'''
    inj = 'uri3_inj' if serial else 'uri2_inj'
    nsub = ("', I', S', ⟨⟨_, h1⟩, h2, _⟩, h3, e, _" if serial else "', I', ⟨⟨_, h1⟩, h2⟩, h3, e, _")
    # new_iff components: C', I' both Dec possibly with ne
    if cut == 'key':
        Cs = 'sliceI (i :: d) 1 (1 + n)'; Is = '(i :: sliceI (i :: d) (1 + n) (-1))'
        dC = 'dec_slice hd _ _'; dI = "(Dec.cons.2 ⟨hd i List.mem_cons_self, dec_slice hd _ _⟩)"
    else:
        Cs = 'sliceToI d n'; Is = 'sliceI d n (-1)'
        dC = 'hd.take _'; dI = 'dec_slice hd _ _'
    h2dec = {'SGTIN':'h2.2','LGTIN':'h2.2','UPUI':'h2','SGLN':'h2','SSCC':'h2.2','GSRN':'h2.2','GSRNP':'h2.2','PGLN':'h2','GRAI':'h2','GDTI':'h2','SGCN':'h2'}[X]
    if serial:
        t += f'''    have hlen : ({Cs}).length + ({Is}).length = {N-1} := by
      obtain ⟨C', I', S', ⟨⟨_, h1⟩, h2, _⟩, h3, e, _⟩ := new_iff.1 h
      obtain ⟨e1, e2, _⟩ := uri3_inj (Dec.no_dot ({dC})) (Dec.no_dot ({dI})) h1.no_dot (Dec.no_dot {h2dec}) e
      have := h3.1
      rw [← e1, ← e2] at this
      exact this
'''
    else:
        t += f'''    have hlen : ({Cs}).length + ({Is}).length = {N-1} := by
      obtain ⟨C', I', ⟨⟨_, h1⟩, h2⟩, h3, e, _⟩ := new_iff.1 h
      obtain ⟨e1, e2⟩ := uri2_inj (Dec.no_dot ({dC})) h1.no_dot e
      have := h3.1
      rw [← e1, ← e2] at this
      exact this
'''
    lem = f'cut_key hl (by decide) hlen' if cut == 'key' else 'cut_plain hl hlen'
    if cut == 'key':
        t += f'''    obtain ⟨⟨k, hk⟩, hn⟩ := {lem}
    refine ⟨i, _, _, k, {"c, " if serial else ""}⟨by rw [← hk]; exact hd, ?_⟩{hcs}, hn, by rw [← hk], h⟩
    rw [List.length_cons] at hlen; omega
'''
    else:
        t += f'''    obtain ⟨⟨k, hk⟩, hn⟩ := {lem}
    refine ⟨_, _, k, {"c, " if serial else ""}⟨by rw [← hk]; exact hd, hlen⟩{hcs}, hn, by rw [← hk], h⟩
'''
    b = ', '.join(binders.split())
    t += f'''  · rintro ⟨{b}, ⟨hd, hlen⟩{hcs}, hn, rfl, h⟩
    have hl : ({P['d']}).length = {N} := by
      simp only [List.length_append, List.length_cons, List.length_nil]; omega
'''
    if cut == 'key':
        t += f'''    have hcut := uncut_key (i := i) (C := C) (D := I) (k := k) (n := n) (by rw [hlen]; exact hn)
    rw [from_eq n{args}, hcut.1, hcut.2]
    exact h
'''
    else:
        t += f'''    have hcut := uncut_plain (C := C) (D := I) (k := k) (n := n) (by rw [hlen]; exact hn)
    rw [from_eq n{args}, hcut.1, hcut.2]
    exact h
'''
    return t

def gen_B(X, rx, urn, g1, N, cut, how, arg):
    C, I, b, hd, tail = fromeq(X, rx, urn, None, None, None, None, N, cut, False)
    P = cutparts(cut, N); dd = P['dd']
    S = f'py "({g1})" ++ ({dd})'
    t = f'''theorem elem_lang (s : Str) : Rx.{rx}Elem.fullmatch s = true ↔ ∃ d, (Dec d ∧ d.length = {N}) ∧ s = py "({g1})" ++ d :=
  (fullmatch_iff _ _).trans (lang_elemB _ _ _)

theorem from_eq {b} (n : Int) {hd} :
    fromGs1ElementString ({S}) n = new (py "{urn}" ++ ':' :: {tail}) := by
  have hm : Rx.{rx}Elem.fullmatch ({S}) = true := (elem_lang _).2 ⟨_, ⟨hd, hl⟩, rfl⟩
'''
    if how == 'split':
        t += f'''  have hs : splitNoCap (parenLen {arg}) ({S}) = [[], {dd}] :=
    (splitNoCap_group (k := {arg}) (m := py "{g1}") (t := {dd}) rfl (by decide)).trans
      (by
        have := splitNoCap_append (k := {arg}) (s := []) hd.no_paren
        rw [List.append_nil] at this
        rw [this]
        simp [splitNoCap, splitNoCapGo])
  unfold fromGs1ElementString
  rw [guard_true hm, ok_bind, hs, Int.add_comm 1 n]
  show new (_ ++ _ ++ _) = _
  simp
'''
    else:
        t += f'''  have h1 : ({S}).drop {arg} = {dd} := rfl
  unfold fromGs1ElementString
  rw [guard_true hm, ok_bind, h1]
  show new (_ ++ _ ++ _) = _
  simp
'''
    t += from_iff(X, urn, N, cut, None, None, f'py "({g1})" ++ ({P["d"]})', False)
    block(X, t)

def gen_C(X, rx, urn, g1, N, m, sl):
    C, I, b, hd, tail = fromeq(X, rx, urn, None, None, None, None, N, 'plain', True)
    P = cutparts('plain', N)
    S = f'py "{g1}" ++ (d ++ c)'
    t = f'''theorem elem_lang (s : Str) : Rx.{rx}Elem.fullmatch s = true ↔
    ∃ d c, (Dec d ∧ d.length = {N}) ∧ ({CHARS(m)}) ∧ s = py "{g1}" ++ (d ++ c) :=
  (fullmatch_iff _ _).trans (lang_elemC _ _ (by decide) _)

theorem from_eq {b} (n : Int) {hd} (hc : {CHARS(m)}) :
    fromGs1ElementString ({S}) n = new (py "{urn}" ++ ':' :: {tail}) := by
  have hm : Rx.{rx}Elem.fullmatch ({S}) = true := (elem_lang _).2 ⟨_, c, ⟨hd, hl⟩, hc, rfl⟩
  have h1 : slice ({S}) {sl[0]} {sl[1]} = d := slice_append rfl (by rw [hl]; rfl)
  have h2 : ({S}).drop {sl[1]} = c := drop_append2 (by rw [hl]; rfl)
  unfold fromGs1ElementString
  rw [guard_true hm, ok_bind, h1, h2, ← revertUriEscapes_eq]
  show new (_ ++ _ ++ _ ++ _) = _
  simp
'''
    t += from_iff(X, urn, N, 'plain', f'({CHARS(m)})', None, f'py "{g1}" ++ ({P["d"]} ++ c)', True)
    block(X, t)

for r in A: gen_A(*r)
for r in Bt: gen_B(*r)
for r in Ct: gen_C(*r)
out.append(open('/verif/tools/elem_tail.lean.in').read())

def gen_D(X, rx, urn, g1, k):
    L = len(g1)
    block(X, f'''theorem elem_lang (s : Str) : Rx.{rx}Elem.fullmatch s = true ↔
    ∃ d c, (Dec d ∧ 6 ≤ d.length ∧ d.length ≤ 12) ∧ ({CHARS(24)}) ∧ s = py "{g1}" ++ (d ++ c) :=
  (fullmatch_iff _ _).trans (lang_elemD _ (by decide) _)

theorem from_eq {{s : Str}} (n : Int) (hm : Rx.{rx}Elem.fullmatch s = true) :
    fromGs1ElementString s n =
      new (py "{urn}" ++ ':' :: (sliceI s ({L} : Nat) ({L} + n) ++ '.' :: escape (sliceFromI s ({L} + n)))) := by
  unfold fromGs1ElementString
  rw [guard_true hm, ok_bind, ← revertUriEscapes_eq]
  show new (_ ++ _ ++ _) = _
  simp

theorem from_iff (s : Str) (n : Int) (x : {X}) : fromGs1ElementString s n = .ok x ↔
    ∃ C c, Rx.{rx}Elem.fullmatch s = true ∧ clampIdx s.length ({L} + n) = {L} + C.length ∧ s = py "{g1}" ++ (C ++ c) ∧
      new (py "{urn}" ++ ':' :: (C ++ '.' :: escape c)) = .ok x := by
  constructor
  · intro h
    have hm : Rx.{rx}Elem.fullmatch s = true := by
      unfold fromGs1ElementString at h
      exact (guard_bind_ok.1 h).1
    obtain ⟨d, c, hd, hc, rfl⟩ := (elem_lang s).1 hm
    rw [from_eq n hm] at h
    have hne : sliceI (py "{g1}" ++ (d ++ c)) ({L} : Nat) ({L} + n) ≠ [] := by
      intro e
      rw [e] at h
      obtain ⟨C', S', ⟨⟨h0, h1⟩, _⟩, _, e', _⟩ := new_iff.1 h
      have e'' := List.append_cancel_left e'
      cases C' with
      | nil => exact h0 rfl
      | cons a C' =>
        have h2 := h1 a List.mem_cons_self
        simp only [List.nil_append, List.cons_append, List.cons.injEq, true_and] at e''
        rw [← e''.1] at h2
        revert h2; decide +kernel
    have hcut := cut_body (p := py "{g1}") (b := d ++ c) (k := {L}) rfl hne
    exact ⟨_, _, hm, hcut.2, hcut.1, h⟩
  · rintro ⟨C, c, hm, hn, rfl, h⟩
    have hcut := uncut_body (p := py "{g1}") (C := C) (r := c) (k := {L}) rfl hn
    rw [from_eq n hm, hcut.1, hcut.2]
    exact h
''')
gen_D('GIAI', 'giai', 'urn:epc:id:giai', '(8004)', 6)
gen_D('GINC', 'ginc', 'urn:epc:id:ginc', '(401)', 5)
out.append(open('/verif/tools/elem_cpi.lean.in').read())
out.append('end Epc\n')
open('/verif/lean/Verif/Lemmas/ElemParse.lean','w').write(''.join(out))
