"""Generate lean/Verif/Lemmas/New.lean: what each constructor accepts."""
P = {'padded': '({0} ≠ [] ∧ Dec {0})', 'paddedOrEmpty': 'Dec {0}', 'gs3a3': 'Lang Rx.gs3a3 {0}', 'numeric': 'Num {0}',
     'cpref': 'Lang Rx.cpref {0}', 'cage': 'Lang Rx.cage {0}', 'adiPart': 'Lang (.star Rx.adiChar) {0}',
     'adiSerial': 'Lang (.seq (opt (lit (py "%23"))) (plus Rx.adiChar)) {0}'}
out = []
def body(vs):
    r = vs[-1]
    for v in reversed(vs[:-1]):
        r = f"{v} ++ '.' :: ({r})" if r != vs[-1] else f"{v} ++ '.' :: {r}"
    return r
def uri(q, vs):
    return f'py "{q}" ++ \':\' :: ({body(vs)})'

def scheme(cls, rx, rxbody, q, comps, new_eq, binder, rhs, iff_cond, iff_x, extra_hyps='', guards=True):
    vs = [v for v, _ in comps]
    V = ' '.join(vs)
    U = uri(q, vs)
    preds = ' ∧ '.join(P[p].format(v) for v, p in comps)
    hv = ', '.join('h' + v for v in vs)
    lem = {2: 'lang_dotted2', 3: 'lang_dotted3', 5: 'lang_itip'}[len(vs)]
    out.append(f'''
/-! ### {cls} -/

namespace {cls}

theorem new_nomatch {{u : Str}} (h : Rx.{rx}.fullmatch u = false) : new u = .error .convert := by
  unfold new; rw [guard_false h]; rfl

theorem shape {{u : Str}} : Rx.{rx}.fullmatch u = true ↔ ∃ {V}, {preds} ∧
    u = {U} := by
  rw [fullmatch_iff]
  unfold Rx.{rx}{rxbody}
  rw [lang_lit_seq]
  simp only [{lem}, lang_padded, lang_paddedOrEmpty, lang_numeric]
  constructor
  · rintro ⟨t, rfl, {', '.join(vs)}, rfl, {hv}⟩
    exact ⟨{', '.join(vs)}, {hv}, rfl⟩
  · rintro ⟨{', '.join(vs)}, {hv}, rfl⟩
    exact ⟨_, rfl, {', '.join(vs)}, rfl, {hv}⟩

theorem new_eq {{{V} : Str}} {' '.join(f"(h{v} : {P[p].format(v)})" for v, p in comps)} :
    new ({U}) = (do
{rhs.replace("URI", U)}) := by
  have hm : Rx.{rx}.fullmatch ({U}) = true :=
    shape.2 ⟨{', '.join(vs)}, {hv}, rfl⟩
{new_eq}

theorem new_iff {{u : Str}} {{x : {cls}}} : new u = .ok x ↔ ∃ {V}, ({preds}) ∧
    ({iff_cond}) ∧
    u = {U} ∧
    x = {iff_x} := by
  constructor
  · intro h
    cases hm : Rx.{rx}.fullmatch u with
    | false => rw [new_nomatch hm] at h; cases h
    | true =>
      obtain ⟨{', '.join(vs)}, {hv}, rfl⟩ := shape.1 hm
      rw [new_eq {' '.join('h' + v for v in vs)}] at h
      simp only [unit_bind_ok, guard_ok_iff, pure_ok, Except.ok.injEq, decide_eq_true_eq, List.length_append, Nat.add_assoc] at h
      refine ⟨{', '.join(vs)}, ⟨{hv}⟩, ?_, rfl, ?_⟩
      · simp_all
      · simp_all
  · rintro ⟨{', '.join(vs)}, ⟨{hv}⟩, hc, rfl, rfl⟩
    rw [new_eq {' '.join('h' + v for v in vs)}]
    simp only [unit_bind_ok, guard_ok_iff, pure_ok, Except.ok.injEq, decide_eq_true_eq, List.length_append, Nat.add_assoc]
    simp_all

theorem new_error {{u : Str}} {{e : Err}} (h : new u = .error e) : e = .convert{' ∨ ∃ ' + V + ', (' + preds + ') ∧ u = ' + U + ' ∧ verifyGs3a3 ' + vs[-1] + ' = .error e' if 'verify' in rhs else ''} := by
  cases hm : Rx.{rx}.fullmatch u with
  | false => rw [new_nomatch hm] at h; injection h with h; {'exact .inl h.symm' if 'verify' in rhs else 'exact h.symm'}
  | true =>
    obtain ⟨{', '.join(vs)}, {hv}, rfl⟩ := shape.1 hm
    rw [new_eq {' '.join('h' + v for v in vs)}] at h
''' + (f'''    cases hver : verifyGs3a3 {vs[-1]} with
    | error e' =>
      by_cases hee : e' = e
      · subst hee; exact .inr ⟨{', '.join(vs)}, ⟨{hv}⟩, rfl, hver⟩
      · left
        clear hm
        simp only [hver, guard_bind_error, error_bind, ok_bind, pure_ok, reduceCtorEq, and_false, or_false, Except.error.injEq, hee] at h
        try exact h.2
    | ok a =>
      left
      clear hm
      simp only [hver, guard_bind_error, error_bind, ok_bind, pure_ok, reduceCtorEq, and_false, or_false] at h
      grind
''' if 'verify' in rhs else '''    clear hm
    simp only [guard_bind_error, ok_bind, pure_ok, reduceCtorEq, and_false, or_false, and_self] at h
    grind
''') + f'''
end {cls}
''')

keychk = 'keyBody C I ++ natStr (uCheck (keyBody C I))'
R3 = '{0}'
two = lambda total: f"""      guardConvert (decide ((C ++ D).length = {total} ∧ 6 ≤ C.length ∧ C.length ≤ 12))"""
twoi = lambda total: f"C.length + D.length = {total} ∧ 6 ≤ C.length ∧ C.length ≤ 12"

# SGTIN
scheme('SGTIN', 'sgtinUri', ' Rx.sgtinBody', 'urn:epc:id:sgtin', [('C', 'padded'), ('I', 'padded'), ('S', 'gs3a3')],
'''  unfold new
  rw [guard_true hm, ok_bind, getPart4 rfl, ok_bind,
    head_colon2 hC.2.no_colon hI.2.no_colon, split_append_sep hC.2.no_dot, split_append_sep hI.2.no_dot, getPart_ok rfl, ok_bind,
    getPart_ok rfl, ok_bind, uriBody_eq rfl, serial_of_body2 hC.2.no_dot hI.2.no_dot]
  cases I with
  | nil => exact absurd rfl hI.1
  | cons i I =>
    have hk := dec_keyBody hC.2 hI.2
    have e : i :: C ++ (i :: I).drop 1 = keyBody C (i :: I) := rfl
    have hg : getIdx (i :: I) 0 = .ok i := rfl
    simp only [hg, ok_bind, e, checksum_dec hk]
    rw [zfill_dec (Dec.append.2 ⟨hk, dec_natStr _⟩)]''', '',
f'''      guardConvert (decide ((C ++ I).length = 13 ∧ 6 ≤ C.length ∧ C.length ≤ 12))
      verifyGs3a3 S
      guardConvert (decide (1 ≤ (replaceUriEscapes S).length ∧ (replaceUriEscapes S).length ≤ 20))
      return ⟨URI, C, I, S, padLeft '0' 14 ({keychk})⟩''',
'C.length + I.length = 13 ∧ (6 ≤ C.length ∧ C.length ≤ 12) ∧ verifyGs3a3 S = .ok () ∧ 1 ≤ (replaceUriEscapes S).length ∧ (replaceUriEscapes S).length ≤ 20',
f"⟨u, C, I, S, padLeft '0' 14 ({keychk})⟩")

# SSCC
scheme('SSCC', 'ssccUri', ' Rx.ssccBody', 'urn:epc:id:sscc', [('C', 'padded'), ('I', 'padded')],
'''  unfold new
  rw [guard_true hm, ok_bind, last_split (noDot_noColon hC.2 hI.2), split2 hC.2.no_dot hI.2.no_dot]
  cases I with
  | nil => exact absurd rfl hI.1
  | cons i I =>
    have hk := dec_keyBody hC.2 hI.2
    have e : i :: C ++ (i :: I).drop 1 = keyBody C (i :: I) := rfl
    have hg : getIdx (i :: I) 0 = .ok i := rfl
    simp only [unpack2, hg, ok_bind, e, checksum_dec hk]''', '',
f'''      guardConvert (decide ((C ++ I).length = 17 ∧ 6 ≤ C.length ∧ C.length ≤ 12))
      return ⟨URI, C, I, {keychk}⟩''',
'C.length + I.length = 17 ∧ 6 ≤ C.length ∧ C.length ≤ 12', f"⟨u, C, I, {keychk}⟩")

cd = 'C ++ D ++ natStr (uCheck (C ++ D))'
for cls, p2, total in [('GSRN', 'padded', 17), ('GSRNP', 'padded', 17), ('PGLN', 'paddedOrEmpty', 12)]:
    l = cls.lower()
    hD = 'hD.2' if p2 == 'padded' else 'hD'
    scheme(cls, l + 'Uri', f' Rx.{"gsrn" if cls == "GSRNP" else l}Body', 'urn:epc:id:' + l, [('C', 'padded'), ('D', p2)],
f'''  unfold new
  rw [guard_true hm, ok_bind, getPart4_noColon rfl (noDot_noColon hC.2 {hD}), ok_bind, split2 hC.2.no_dot {hD}.no_dot]
  simp only [unpack2, ok_bind, checksum_dec (Dec.append.2 ⟨hC.2, {hD}⟩)]''', '',
f'''      guardConvert (decide ((C ++ D).length = {total} ∧ 6 ≤ C.length ∧ C.length ≤ 12))
      return ⟨URI, C, D, {cd}⟩''',
f'C.length + D.length = {total} ∧ 6 ≤ C.length ∧ C.length ≤ 12', f"⟨u, C, D, {cd}⟩")

# GSIN
scheme('GSIN', 'gsinUri', ' Rx.gsinBody', 'urn:epc:id:gsin', [('C', 'padded'), ('D', 'padded')],
f'''  unfold new
  rw [guard_true hm, ok_bind, getPart4_noColon rfl (noDot_noColon hC.2 hD.2), ok_bind, split2 hC.2.no_dot hD.2.no_dot]
  simp only [unpack2, ok_bind]
  by_cases hg : (C ++ D).length = 16 ∧ 6 ≤ C.length ∧ C.length ≤ 12
  · rw [guard_true (by simp only [decide_eq_true_eq]; exact hg), ok_bind, ok_bind,
      gsin_checksum_dec (Dec.append.2 ⟨hC.2, hD.2⟩) (by rw [hg.1])]
    rfl
  · rw [guard_false (by simp only [decide_eq_false_iff_not]; exact hg)]
    rfl''', '',
f'''      guardConvert (decide ((C ++ D).length = 16 ∧ 6 ≤ C.length ∧ C.length ≤ 12))
      return ⟨URI, C, D, {cd}⟩''',
f'C.length + D.length = 16 ∧ 6 ≤ C.length ∧ C.length ≤ 12', f"⟨u, C, D, {cd}⟩")

# SGLN
scheme('SGLN', 'sglnUri', ' Rx.sglnBody', 'urn:epc:id:sgln', [('C', 'padded'), ('D', 'paddedOrEmpty'), ('S', 'gs3a3')],
'''  unfold new
  rw [guard_true hm, ok_bind, getPart4 rfl, ok_bind, head_colon2 hC.2.no_colon hD.no_colon,
    unpack2_take hC.2.no_dot hD.no_dot, ok_bind, uriBody_eq rfl, serial_of_body2 hC.2.no_dot hD.no_dot]
  simp only [checksum_dec (Dec.append.2 ⟨hC.2, hD⟩), ok_bind]''', '',
f'''      guardConvert (decide ((C ++ D).length = 12 ∧ (6 ≤ C.length ∧ C.length ≤ 12) ∧ (replaceUriEscapes S).length ≤ 20))
      verifyGs3a3 S
      return ⟨URI, C, D, S, {cd}⟩''',
'C.length + D.length = 12 ∧ (6 ≤ C.length ∧ C.length ≤ 12) ∧ verifyGs3a3 S = .ok () ∧ (replaceUriEscapes S).length ≤ 20',
f"⟨u, C, D, S, {cd}⟩")

for cls, mx, g in [('GRAI', 16, '(C ++ D).length = 12 ∧ (6 ≤ C.length ∧ C.length ≤ 12) ∧ S.length ≤ 16'),
                ('GDTI', 17, '(C ++ D).length = 12 ∧ S.length ≤ 17 ∧ (6 ≤ C.length ∧ C.length ≤ 12)')]:
    l = cls.lower()
    scheme(cls, l + 'Uri', f' Rx.{l}Body', 'urn:epc:id:' + l, [('C', 'padded'), ('D', 'paddedOrEmpty'), ('S', 'gs3a3')],
'''  unfold new
  rw [guard_true hm, ok_bind, getPart4 rfl, head_colon2 hC.2.no_colon hD.no_colon, uriBody_eq rfl,
    serial_of_body2 hC.2.no_dot hD.no_dot]
  simp only [ok_bind, unpack2_take hC.2.no_dot hD.no_dot, checksum_dec (Dec.append.2 ⟨hC.2, hD⟩)]''', '',
f'''      verifyGs3a3 S
      guardConvert (decide ({g}))
      return ⟨URI, C, D, S, {cd} ++ replaceUriEscapes S⟩''',
f'C.length + D.length = 12 ∧ (6 ≤ C.length ∧ C.length ≤ 12) ∧ verifyGs3a3 S = .ok () ∧ S.length ≤ {mx}',
f"⟨u, C, D, S, {cd} ++ replaceUriEscapes S⟩")

# GIAI
scheme('GIAI', 'giaiUri', ' Rx.giaiBody', 'urn:epc:id:giai', [('C', 'padded'), ('S', 'gs3a3')],
'''  unfold new
  rw [guard_true hm, ok_bind, getPart4 rfl, ok_bind, head_colon1 hC.2.no_colon, split_append_sep hC.2.no_dot]
  simp only [unpack1s, ok_bind, joinWith_split]''', '',
f'''      guardConvert (decide ((6 ≤ C.length ∧ C.length ≤ 12) ∧ (C ++ (split ':' S).headD []).length ≤ 30))
      verifyGs3a3 ((split ':' S).headD [])
      return ⟨URI, C, (split ':' S).headD [], C ++ replaceUriEscapes ((split ':' S).headD [])⟩''',
"(6 ≤ C.length ∧ C.length ≤ 12) ∧ verifyGs3a3 ((split ':' S).headD []) = .ok () ∧ C.length + ((split ':' S).headD []).length ≤ 30",
f"⟨u, C, (split ':' S).headD [], C ++ replaceUriEscapes ((split ':' S).headD [])⟩")
out[-1] = out[-1].replace("verifyGs3a3 S = .error e", "verifyGs3a3 ((split ':' S).headD []) = .error e").replace("cases hver : verifyGs3a3 S", "cases hver : verifyGs3a3 ((split ':' S).headD [])")

# GINC
scheme('GINC', 'gincUri', ' Rx.gincBody', 'urn:epc:id:ginc', [('C', 'padded'), ('S', 'gs3a3')],
'''  unfold new
  rw [guard_true hm, ok_bind, uriBody_eq rfl, split_append_sep hC.2.no_dot]
  simp only [unpack1s, ok_bind, joinWith_split]''', '',
f'''      verifyGs3a3 S
      guardConvert (decide (6 ≤ C.length ∧ C.length ≤ 12))
      guardConvert (decide ((replaceUriEscapes S).length ≠ 0))
      guardConvert (decide ((C ++ replaceUriEscapes S).length ≤ 30))
      return ⟨URI, C ++ replaceUriEscapes S⟩''',
"(6 ≤ C.length ∧ C.length ≤ 12) ∧ verifyGs3a3 S = .ok () ∧ (replaceUriEscapes S).length ≠ 0 ∧ C.length + (replaceUriEscapes S).length ≤ 30",
f"⟨u, C ++ replaceUriEscapes S⟩")

# SGCN
scheme('SGCN', 'sgcnUri', ' Rx.sgcnBody', 'urn:epc:id:sgcn', [('C', 'padded'), ('D', 'paddedOrEmpty'), ('S', 'padded')],
'''  unfold new
  rw [guard_true hm, ok_bind, getPart4_noColon rfl (noColon3 hC.2.no_colon hD.no_colon hS.2.no_colon), ok_bind,
    split3 hC.2.no_dot hD.no_dot hS.2.no_dot]
  simp only [unpack3, ok_bind, checksum_dec (Dec.append.2 ⟨hC.2, hD⟩)]''', '',
f'''      guardConvert (decide ((C ++ D).length = 12 ∧ S.length ≤ 12 ∧ (6 ≤ C.length ∧ C.length ≤ 12)))
      return ⟨URI, C, D, S, {cd} ++ S⟩''',
'C.length + D.length = 12 ∧ S.length ≤ 12 ∧ (6 ≤ C.length ∧ C.length ≤ 12)', f"⟨u, C, D, S, {cd} ++ S⟩")

# CPI
scheme('CPI', 'cpiUri', ' Rx.cpiBody', 'urn:epc:id:cpi', [('C', 'padded'), ('D', 'cpref'), ('S', 'numeric')],
'''  unfold new
  rw [guard_true hm, ok_bind, getPart4_noColon rfl (noColon3 hC.2.no_colon (cpref_no_colon hD) hS.dec.no_colon), ok_bind,
    split3 hC.2.no_dot (cpref_no_dot hD) hS.dec.no_dot]
  simp only [unpack3, ok_bind]''', '',
f'''      guardConvert (decide ((C ++ D).length ≤ 30 ∧ S.length ≤ 12 ∧ (6 ≤ C.length ∧ C.length ≤ 12)))
      return ⟨URI, C, D, S⟩''',
'C.length + D.length ≤ 30 ∧ S.length ≤ 12 ∧ (6 ≤ C.length ∧ C.length ≤ 12)', f"⟨u, C, D, S⟩")

# GID
scheme('GID', 'gidUri', ' Rx.gidBody', 'urn:epc:id:gid', [('C', 'numeric'), ('D', 'numeric'), ('S', 'numeric')],
'''  unfold new
  rw [guard_true hm, ok_bind, getPart4_noColon rfl (noColon3 hC.dec.no_colon hD.dec.no_colon hS.dec.no_colon), ok_bind,
    split3 hC.dec.no_dot hD.dec.no_dot hS.dec.no_dot]
  have hz : (decide (S.length > 1) && S.head? == some '0') = false := by
    have := hS.no_zero
    simpa only [Bool.and_eq_false_iff, decide_eq_false_iff_not, beq_eq_false_iff_ne, Decidable.not_and_iff_not_or_not] using this
  simp only [unpack3, ok_bind]
  rw [pyInt_decimal hC.dec hC.ne_nil, ok_bind, decide_lt_pow]
  rw [pyInt_decimal hD.dec hD.ne_nil, ok_bind, decide_lt_pow]
  rw [pyInt_decimal hS.dec hS.ne_nil, ok_bind, decide_lt_pow, hz, Bool.not_false, Bool.and_true]''', '',
f'''      guardConvert (decide (decVal C < 2 ^ 28))
      guardConvert (decide (decVal D < 2 ^ 24))
      guardConvert (decide (decVal S < 2 ^ 36))
      return ⟨URI, C, D, S⟩''',
'decVal C < 2 ^ 28 ∧ decVal D < 2 ^ 24 ∧ decVal S < 2 ^ 36', f"⟨u, C, D, S⟩")

# USDOD
scheme('USDOD', 'usdodUri', ' Rx.usdodBody', 'urn:epc:id:usdod', [('C', 'cage'), ('S', 'numeric')],
'''  unfold new
  rw [guard_true hm, ok_bind, getPart4_noColon rfl (noColon2 (cage_no_colon hC) hS.dec.no_colon), ok_bind,
    split2 (cage_no_dot hC) hS.dec.no_dot]
  have hz : (decide (S.length > 1) && S.head? == some '0') = false := by
    have := hS.no_zero
    simpa only [Bool.and_eq_false_iff, decide_eq_false_iff_not, beq_eq_false_iff_ne, Decidable.not_and_iff_not_or_not] using this
  simp only [unpack2, ok_bind]
  rw [pyInt_decimal hS.dec hS.ne_nil, ok_bind, decide_lt_pow, hz, Bool.not_false, Bool.and_true]''', '',
f'''      guardConvert (decide (decVal S < 2 ^ 36))
      return ⟨URI, C, S⟩''',
'decVal S < 2 ^ 36', f"⟨u, C, S⟩")

# ADI
scheme('ADI', 'adiUri', ' Rx.adiBody', 'urn:epc:id:adi', [('C', 'cage'), ('D', 'adiPart'), ('S', 'adiSerial')],
'''  unfold new
  rw [guard_true hm, ok_bind, getPart4_noColon rfl (noColon3 (cage_no_colon hC) (adiPart_no_colon hD) (adiSerial_no_colon hS)), ok_bind,
    split3 (cage_no_dot hC) (adiPart_no_dot hD) (adiSerial_no_dot hS)]
  simp only [unpack3, ok_bind]''', '',
f'''      guardConvert (decide ((replaceAll (py "%2F") (py "/") D).length ≤ 32))
      guardConvert (decide (1 ≤ (replaceAll (py "%23") (py "#") (replaceAll (py "%2F") (py "/") S)).length ∧
        (replaceAll (py "%23") (py "#") (replaceAll (py "%2F") (py "/") S)).length ≤ 30))
      return ⟨URI, C, D, S⟩''',
'(replaceAll (py "%2F") (py "/") D).length ≤ 32 ∧ 1 ≤ (replaceAll (py "%23") (py "#") (replaceAll (py "%2F") (py "/") S)).length ∧ (replaceAll (py "%23") (py "#") (replaceAll (py "%2F") (py "/") S)).length ≤ 30',
 f"⟨u, C, D, S⟩")

# UPUI
scheme('UPUI', 'upuiUri', ' Rx.upuiBody', 'urn:epc:id:upui', [('C', 'padded'), ('I', 'paddedOrEmpty'), ('S', 'gs3a3')],
'''  unfold new
  rw [guard_true hm, ok_bind, uriBody_eq rfl, split_append_sep hC.2.no_dot, split_append_sep hI.no_dot]
  simp only [unpack2s, ok_bind, joinWith_split]''', '',
f'''      verifyGs3a3 S
      guardConvert (decide (1 ≤ (replaceUriEscapes S).length ∧ (replaceUriEscapes S).length ≤ 28))
      guardConvert (decide ((C ++ I).length = 13))
      return ⟨URI, C, I, replaceUriEscapes S⟩''',
'C.length + I.length = 13 ∧ verifyGs3a3 S = .ok () ∧ 1 ≤ (replaceUriEscapes S).length ∧ (replaceUriEscapes S).length ≤ 28',
f"⟨u, C, I, replaceUriEscapes S⟩")

# LGTIN
scheme('LGTIN', 'lgtinClass', '', 'urn:epc:class:lgtin', [('C', 'padded'), ('I', 'padded'), ('S', 'gs3a3')],
'''  unfold new
  rw [guard_true hm, ok_bind, uriBody_eq rfl, split_append_sep hC.2.no_dot, split_append_sep hI.2.no_dot]
  simp only [unpack2s, ok_bind, joinWith_split]
  cases I with
  | nil => exact absurd rfl hI.1
  | cons i I =>
    have hk := dec_keyBody hC.2 hI.2
    have e : i :: C ++ (i :: I).drop 1 = keyBody C (i :: I) := rfl
    have hg : getIdx (i :: I) 0 = .ok i := rfl
    simp only [hg, ok_bind, e, checksum_dec hk]
    rw [zfill_dec (Dec.append.2 ⟨hk, dec_natStr _⟩)]''', '',
f'''      verifyGs3a3 S
      guardConvert (decide (6 ≤ C.length ∧ C.length ≤ 12))
      guardConvert (decide ((C ++ I).length = 13))
      guardConvert (decide (1 ≤ (replaceUriEscapes S).length ∧ (replaceUriEscapes S).length ≤ 20))
      return ⟨URI, C, I, replaceUriEscapes S, padLeft '0' 14 ({keychk})⟩''',
'C.length + I.length = 13 ∧ (6 ≤ C.length ∧ C.length ≤ 12) ∧ verifyGs3a3 S = .ok () ∧ 1 ≤ (replaceUriEscapes S).length ∧ (replaceUriEscapes S).length ≤ 20',
f"⟨u, C, I, replaceUriEscapes S, padLeft '0' 14 ({keychk})⟩")

# ITIP
scheme('ITIP', 'itipUri', '', 'urn:epc:id:itip', [('C', 'padded'), ('I', 'padded'), ('A', 'padded'), ('B', 'padded'), ('S', 'gs3a3')],
'''  unfold new
  rw [guard_true hm, ok_bind, uriBody_eq rfl, split_append_sep hC.2.no_dot, split_append_sep hI.2.no_dot,
    split_append_sep hA.2.no_dot, split_append_sep hB.2.no_dot]
  simp only [unpack4s, ok_bind, joinWith_split]''', '',
f'''      verifyGs3a3 S
      guardConvert (decide ((C ++ I ++ A ++ B).length = 17 ∧
        (1 ≤ (replaceUriEscapes S).length ∧ (replaceUriEscapes S).length ≤ 20) ∧ (6 ≤ C.length ∧ C.length ≤ 12)))
      return ⟨URI, C, I, A, B, S⟩''',
'C.length + (I.length + (A.length + B.length)) = 17 ∧ (6 ≤ C.length ∧ C.length ≤ 12) ∧ verifyGs3a3 S = .ok () ∧ 1 ≤ (replaceUriEscapes S).length ∧ (replaceUriEscapes S).length ≤ 20',
f"⟨u, C, I, A, B, S⟩")

head = '''/-
What each constructor accepts: for every scheme class, the shape of the URIs its pattern matches (`shape`), the checks the
constructor does on such a URI (`new_eq`), a characterisation of the accepted URIs and the resulting object (`new_iff`), and of the
exceptions (`new_error`).  Generated by /verif/tools/gen_new.py.
-/
import Verif.Lemmas.Uri
import Verif.Model.Parsers

set_option linter.unusedSimpArgs false

namespace Epc
open Spec Re

/-- Indicator or extension digit first, then the company prefix, then the rest of the reference. -/
def keyBody (C I : Str) : Str := I.take 1 ++ (C ++ I.drop 1)

theorem decide_lt_pow (n b k : Nat) : decide ((n : Int) < ((b ^ k : Nat) : Int)) = decide (n < b ^ k) := by
  simp only [Int.ofNat_lt]

theorem dec_keyBody {C I : Str} (hC : Dec C) (hI : Dec I) : Dec (keyBody C I) :=
  Dec.append.2 ⟨hI.take 1, Dec.append.2 ⟨hC, hI.drop 1⟩⟩

theorem length_keyBody (C I : Str) : (keyBody C I).length = C.length + I.length := by
  simp only [keyBody, List.length_append, List.length_take, List.length_drop]; omega

theorem gsin_checksum_dec {s : Str} (h : Dec s) (hl : s.length % 2 = 0) : GSIN.checksum s = .ok (uCheck s) := by
  unfold GSIN.checksum
  rw [mapM_digitInt_dec h, ok_bind]
  have hw := wsum_eq (decDigits s)
  rw [length_decDigits, if_pos hl] at hw
  unfold uCheck
  rw [hw]; rfl

theorem cpref_no_dot {s : Str} (h : Lang Rx.cpref s) : '.' ∉ s := by
  obtain ⟨raw, _, hr, rfl⟩ := (lang_cpref s).1 h
  exact escape39_no_dot hr
theorem cpref_no_colon {s : Str} (h : Lang Rx.cpref s) : ':' ∉ s := by
  obtain ⟨raw, _, hr, rfl⟩ := (lang_cpref s).1 h
  exact escape39_no_colon hr
theorem adiPart_no_dot {s : Str} (h : Lang (.star Rx.adiChar) s) : '.' ∉ s := by
  obtain ⟨raw, hr, rfl⟩ := (lang_adiPart s).1 h
  exact escape39_no_dot (fun c hc => (hr c hc).1)
theorem adiPart_no_colon {s : Str} (h : Lang (.star Rx.adiChar) s) : ':' ∉ s := by
  obtain ⟨raw, hr, rfl⟩ := (lang_adiPart s).1 h
  exact escape39_no_colon (fun c hc => (hr c hc).1)
theorem adiSerial_no_dot {s : Str} (h : Lang (.seq (opt (lit (py "%23"))) (plus Rx.adiChar)) s) : '.' ∉ s := by
  obtain ⟨raw, _, hr, _, rfl⟩ := (lang_adiSerial s).1 h
  exact escape39_no_dot hr
theorem adiSerial_no_colon {s : Str} (h : Lang (.seq (opt (lit (py "%23"))) (plus Rx.adiChar)) s) : ':' ∉ s := by
  obtain ⟨raw, _, hr, _, rfl⟩ := (lang_adiSerial s).1 h
  exact escape39_no_colon hr
theorem cage_no_dot {s : Str} (h : Lang Rx.cage s) : '.' ∉ s := by
  intro hm
  have := ((lang_cage s).1 h).2 _ hm
  revert this; decide
theorem cage_no_colon {s : Str} (h : Lang Rx.cage s) : ':' ∉ s := by
  intro hm
  have := ((lang_cage s).1 h).2 _ hm
  revert this; decide
theorem noColon2 {a b : Str} (ha : ':' ∉ a) (hb : ':' ∉ b) : ':' ∉ a ++ '.' :: b := by simp [ha, hb]

theorem lang_itip (s : Str) : Lang Rx.itipBody s ↔
    ∃ C I A B S, s = C ++ '.' :: (I ++ '.' :: (A ++ '.' :: (B ++ '.' :: S))) ∧ (C ≠ [] ∧ Dec C) ∧ (I ≠ [] ∧ Dec I) ∧
      (A ≠ [] ∧ Dec A) ∧ (B ≠ [] ∧ Dec B) ∧ Lang Rx.gs3a3 S := by
  have e : Lang Rx.itipBody s ↔ Lang (Rx.dotted2 Rx.padded (Rx.dotted2 Rx.padded (Rx.dotted2 Rx.padded
    (Rx.dotted2 Rx.padded Rx.gs3a3)))) s := Iff.rfl
  rw [e]
  simp only [lang_dotted2, lang_padded]
  constructor
  · rintro ⟨C, t, rfl, hC, I, t, rfl, hI, A, t, rfl, hA, B, S, rfl, hB, hS⟩
    exact ⟨C, I, A, B, S, rfl, hC, hI, hA, hB, hS⟩
  · rintro ⟨C, I, A, B, S, rfl, hC, hI, hA, hB, hS⟩
    exact ⟨C, _, rfl, hC, I, _, rfl, hI, A, _, rfl, hA, B, S, rfl, hB, hS⟩
'''
open('/verif/lean/Verif/Lemmas/New.lean', 'w').write(head + ''.join(out) + '\nend Epc\n')
