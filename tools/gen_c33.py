"""Generates Props/C33.lean, C34.lean, C35.lean and C45.lean: GS1 keys."""
hdr='''import Verif.Lemmas.Key

namespace Epc
open Spec

'''
# ---------------------------------------------------------------- C33
o=['''/-
C33: GS1 keys have the right length and a valid check digit, and contain the company prefix.

`KeyOf n body k` (Spec/Key.lean): `k` is `body` followed by one digit, has `n` digits, and the GS1 weighted sum of its digits is a
multiple of 10.  The constructors accept decimal digits of any script; if the components are ASCII, the key is made of ASCII digits
(last part of `KeyOf`).
Generated by tools/gen_c33.py.
-/
''',hdr]
for X,l,n,f in [('SGTIN','sgtin',14,'itemRef'),('LGTIN','lgtin',14,'itemRef')]:
    o.append(f'''/-- {X}: indicator digit, company prefix, item reference, check digit. -/
theorem C33_{l} (u : Str) (x : {X}) (hu : {X}.new u = .ok x) :
    ∃ i I k, x.itemRef = i :: I ∧ x.gs1Key = .ok k ∧ KeyOf 14 (i :: (x.companyPref ++ I)) k := by
  obtain ⟨i, I, e, hk⟩ := {X}.key hu
  refine ⟨i, I, x.gtin14, e, ?_, hk⟩
  show Except.ok (x.gtin14.take 14) = _
  rw [List.take_of_length_le (Nat.le_of_eq hk.2.1)]

''')
o.append('''/-- SSCC: extension digit, company prefix, serial reference, check digit. -/
theorem C33_sscc (u : Str) (x : SSCC) (hu : SSCC.new u = .ok x) :
    ∃ i I, x.serial = i :: I ∧ KeyOf 18 (i :: (x.companyPref ++ I)) x.gs1Key := by
  obtain ⟨C, I, ⟨⟨_, hC⟩, hI0, hI⟩, ⟨hl, _⟩, rfl, rfl⟩ := SSCC.new_iff.1 hu
  cases I with
  | nil => exact absurd rfl hI0
  | cons i I =>
    rw [List.length_cons] at hl
    have hI' := Dec.cons.1 hI
    exact ⟨i, I, rfl, keyOf_check (Dec.cons.2 ⟨hI'.1, Dec.append.2 ⟨hC, hI'.2⟩⟩) (by simp; omega)⟩

''')
for X,l,n,f in [('GSRN','gsrn',18,'serviceRef'),('GSRNP','gsrnp',18,'serviceRef'),('GSIN','gsin',17,'shipperRef'),('PGLN','pgln',13,'partyRef')]:
    pat = 'hI0, hI' if X!='PGLN' else 'hI'
    o.append(f'''/-- {X}: company prefix, reference, check digit. -/
theorem C33_{l} (u : Str) (x : {X}) (hu : {X}.new u = .ok x) : KeyOf {n} (x.companyPref ++ x.{f}) x.gs1Key := by
  obtain ⟨C, I, ⟨⟨_, hC⟩, {pat}⟩, ⟨hl, _⟩, rfl, rfl⟩ := {X}.new_iff.1 hu
  exact keyOf_check (Dec.append.2 ⟨hC, hI⟩) (by simp; omega)

''')
o.append('''/-- SGLN: company prefix, location reference, check digit. -/
theorem C33_sgln (u : Str) (x : SGLN) (hu : SGLN.new u = .ok x) : KeyOf 13 (x.companyPref ++ x.locationRef) x.gs1Key := by
  obtain ⟨C, I, S, ⟨⟨_, hC⟩, hI, _⟩, ⟨hl, _⟩, rfl, rfl⟩ := SGLN.new_iff.1 hu
  exact keyOf_check (Dec.append.2 ⟨hC, hI⟩) (by simp; omega)

''')
for X,l,f in [('GRAI','grai','assetType'),('GDTI','gdti','docType')]:
    o.append(f'''/-- {X}: company prefix, reference, check digit, then the unescaped serial. -/
theorem C33_{l} (u : Str) (x : {X}) (hu : {X}.new u = .ok x) :
    ∃ k rest, x.gs1Key = k ++ rest ∧ KeyOf 13 (x.companyPref ++ x.{f}) k ∧ ∀ raw, x.serial = escape raw → rest = raw := by
  obtain ⟨C, I, S, ⟨⟨_, hC⟩, hI, _⟩, ⟨hl, _⟩, rfl, rfl⟩ := {X}.new_iff.1 hu
  refine ⟨_, _, rfl, keyOf_check (Dec.append.2 ⟨hC, hI⟩) (by simp; omega), ?_⟩
  intro raw hr
  dsimp only at hr
  rw [hr, replaceUriEscapes_escape]

''')
o.append('''/-- SGCN: company prefix, coupon reference, check digit, then the serial. -/
theorem C33_sgcn (u : Str) (x : SGCN) (hu : SGCN.new u = .ok x) :
    ∃ k, x.gs1Key = k ++ x.serial ∧ KeyOf 13 (x.companyPref ++ x.couponRef) k := by
  obtain ⟨C, I, S, ⟨⟨_, hC⟩, hI, _⟩, ⟨hl, _⟩, rfl, rfl⟩ := SGCN.new_iff.1 hu
  exact ⟨_, rfl, keyOf_check (Dec.append.2 ⟨hC, hI⟩) (by simp; omega)⟩

/-- GIAI (no check digit): company prefix and unescaped asset reference. -/
theorem C33_giai (u : Str) (x : GIAI) (hu : GIAI.new u = .ok x) :
    ∃ rest, x.gs1Key = x.companyPref ++ rest ∧ rest ≠ [] ∧ x.gs1Key.length ≤ 30 ∧ ∀ raw, x.assetRef = escape raw → rest = raw := by
  obtain ⟨C, S, ⟨⟨_, hC⟩, _⟩, ⟨_, hv, hl⟩, rfl, rfl⟩ := GIAI.new_iff.1 hu
  refine ⟨_, rfl, ?_, ?_, ?_⟩
  · apply replaceUriEscapes_ne_nil
    intro e
    rw [e] at hv
    revert hv
    decide
  · have := length_replaceUriEscapes_le ((split ':' S).headD [])
    show (C ++ _).length ≤ 30
    rw [List.length_append]; omega
  · intro raw hr
    dsimp only at hr
    rw [hr, replaceUriEscapes_escape]

/-- GINC (no check digit): company prefix and unescaped consignment reference, read off the URI. -/
theorem C33_ginc (C raw : Str) (x : GINC) (hC : '.' ∉ C) (hu : GINC.new (py "urn:epc:id:ginc:" ++ C ++ '.' :: escape raw) = .ok x) :
    x.gs1Key = C ++ raw ∧ x.gs1Key.length ≤ 30 := by
  obtain ⟨C', S, ⟨⟨_, hC'⟩, hS⟩, ⟨hl, _, _, h2⟩, e, rfl⟩ := GINC.new_iff.1 hu
  have e' : py "urn:epc:id:ginc" ++ ':' :: (C ++ '.' :: escape raw) = py "urn:epc:id:ginc" ++ ':' :: (C' ++ '.' :: S) := by
    rw [← e]; simp
  obtain ⟨rfl, rfl⟩ := uri2_inj hC hC'.no_dot e'
  refine ⟨?_, ?_⟩
  · show C ++ _ = _
    rw [replaceUriEscapes_escape]
  · show (C ++ _).length ≤ 30
    rw [List.length_append]; exact h2

/-! ### Non-vacuity -/

''')
for X,u,k in [('SSCC','urn:epc:id:sscc:9521141.1234567890','195211412345678900'),('GSRN','urn:epc:id:gsrn:9521141.1234567890','952114112345678906'),
  ('GSRNP','urn:epc:id:gsrnp:9521141.1234567890','952114112345678906'),('GSIN','urn:epc:id:gsin:9521141.123456789','95211411234567892'),
  ('PGLN','urn:epc:id:pgln:9521141.89012','9521141890127'),('SGLN','urn:epc:id:sgln:9521141.12345.32a%2Fb','9521141123454'),
  ('GRAI','urn:epc:id:grai:9521141.12345.32a%2Fb','952114112345432a/b'),('GDTI','urn:epc:id:gdti:9521141.12345.ABCD%2F5','9521141123454ABCD/5'),
  ('SGCN','urn:epc:id:sgcn:9521141.67890.04711','952114167890904711'),('GIAI','urn:epc:id:giai:9521141.12345a%2Fb','952114112345a/b'),
  ('GINC','urn:epc:id:ginc:9521141.xyz%2F11','9521141xyz/11')]:
    o.append(f'example : (({X}.new (py "{u}")).toOption.map (·.gs1Key)) = some (py "{k}") := by decide +kernel\n')
for X,u,k in [('SGTIN','urn:epc:id:sgtin:9521141.012345.32a%2Fb','09521141123454'),('LGTIN','urn:epc:class:lgtin:9521141.012345.32a%2Fb','09521141123454')]:
    o.append(f'example : (({X}.new (py "{u}")).toOption.map (·.gs1Key)) = some (.ok (py "{k}")) := by decide +kernel\n')
o.append('\nend Epc\n')
open('/verif/lean/Verif/Props/C33.lean','w').write(''.join(o))
# ---------------------------------------------------------------- C34
o=['''/-
C34: shorter GTINs are returned exactly when they exist.

For every accepted SGTIN or LGTIN with GTIN-14 `g` and every GTIN type `t` (8, 12, 13 or 14 digits): `gs1_key(gtin_type=t)` returns `k`
exactly if `g` is `k` padded with zeros on the left, `k` then has the wanted length, and otherwise it raises `ConvertException`.
Generated by tools/gen_c33.py.
-/
''',hdr,'''/-- The number of digits of a GTIN type. -/
def gtinLength : GtinType → Nat
  | .gtin8 => 8
  | .gtin12 => 12
  | .gtin13 => 13
  | .gtin14 => 14

''']
for X,l in [('SGTIN','sgtin'),('LGTIN','lgtin')]:
    u = 'urn:epc:id:sgtin' if X=='SGTIN' else 'urn:epc:class:lgtin'
    o.append(f'''/-- {X}. -/
theorem C34_{l} (u : Str) (x : {X}) (t : GtinType) (hu : {X}.new u = .ok x) :
    ∃ g, x.gs1Key = .ok g ∧ g.length = 14 ∧
      (∀ k, x.gs1Key t = .ok k ↔ g = List.replicate (14 - gtinLength t) '0' ++ k) ∧
      (∀ k, x.gs1Key t = .ok k → k.length = gtinLength t) ∧
      ((∀ k, g ≠ List.replicate (14 - gtinLength t) '0' ++ k) → x.gs1Key t = .error .convert) := by
  obtain ⟨i, I, _, hk⟩ := {X}.key hu
  have hl := hk.2.1
  have hg : x.gs1Key = .ok x.gtin14 := by
    show Except.ok (x.gtin14.take 14) = _
    rw [List.take_of_length_le (Nat.le_of_eq hl)]
  have ht : t.toNat = gtinLength t := by cases t <;> rfl
  have ht' : gtinLength t ≤ 14 := by cases t <;> decide
  have hkey : x.gs1Key t = if t ≠ .gtin14 ∧ startsWith x.gtin14 (List.replicate (14 - gtinLength t) '0') = false then .error .convert
      else .ok (slice x.gtin14 (14 - gtinLength t) 14) := by
    rw [← ht]; rfl
  have hsl : slice x.gtin14 (14 - gtinLength t) 14 = x.gtin14.drop (14 - gtinLength t) := by
    have := slice_to_length x.gtin14 (14 - gtinLength t)
    rwa [hl] at this
  have hiff : ∀ k, x.gs1Key t = .ok k ↔ x.gtin14 = List.replicate (14 - gtinLength t) '0' ++ k := by
    intro k
    rw [hkey, hsl]
    by_cases h : startsWith x.gtin14 (List.replicate (14 - gtinLength t) '0') = true
    · rw [if_neg (by rw [h]; simp)]
      obtain ⟨r, hr⟩ := startsWith_iff.1 h
      rw [hr, drop_append_eq (by simp)]
      constructor
      · intro h; injection h with h; rw [h]
      · intro h; rw [List.append_cancel_left h]
    · have h' := Bool.eq_false_iff.2 h
      constructor
      · intro hk'
        by_cases h14 : t = .gtin14
        · subst h14
          exact absurd (startsWith_iff.2 ⟨x.gtin14, rfl⟩) h
        · rw [if_pos ⟨h14, h'⟩] at hk'
          cases hk'
      · intro e
        exact absurd (startsWith_iff.2 ⟨k, e⟩) h
  refine ⟨x.gtin14, hg, hl, hiff, ?_, ?_⟩
  · intro k hk'
    have e := (hiff k).1 hk'
    rw [e] at hl
    simp at hl
    omega
  · intro hno
    rw [hkey]
    rw [if_pos]
    have h' : startsWith x.gtin14 (List.replicate (14 - gtinLength t) '0') = false := by
      rw [Bool.eq_false_iff]
      intro h
      obtain ⟨r, hr⟩ := startsWith_iff.1 h
      exact hno r hr
    refine ⟨?_, h'⟩
    rintro rfl
    exact hno x.gtin14 rfl

example : (({X}.new (py "{u}:9521141.012345.1")).toOption.map (·.gs1Key .gtin13)) = some (.ok (py "9521141123454")) := by decide +kernel
example : (({X}.new (py "{u}:9521141.112345.1")).toOption.map (·.gs1Key .gtin13)) = some (.error .convert) := by decide +kernel
example : (({X}.new (py "{u}:0000001.012345.1")).toOption.map (·.gs1Key .gtin8)) = some (.ok (py "01123456")) := by decide +kernel

''')
o.append('end Epc\n')
open('/verif/lean/Verif/Props/C34.lean','w').write(''.join(o))
# ---------------------------------------------------------------- C35
o=['''/-
C35: SGTIN from a GTIN and a serial.
Generated by tools/gen_c33.py.
-/
''',hdr,'''/-- An accepted SGTIN is rebuilt from its GTIN, its serial and the length of its company prefix. -/
theorem C35_rebuild (u : Str) (x : SGTIN) (hu : SGTIN.new u = .ok x) :
    ∃ g, x.gtin = .ok g ∧ SGTIN.fromGtinPlusSerial g x.serial x.companyPref.length = .ok x := by
  obtain ⟨i, I, e, hk⟩ := SGTIN.key hu
  have hl := hk.2.1
  refine ⟨x.gtin14, ?_, ?_⟩
  · show Except.ok (x.gtin14.take 14) = _
    rw [List.take_of_length_le (Nat.le_of_eq hl)]
  obtain ⟨⟨c, ec⟩, _, hd, _⟩ := hk
  have hd' : Dec x.gtin14 := (uDigits_iff _).1 hd
  have hlen : x.companyPref.length + I.length + 2 = 14 := by
    rw [ec] at hl; simp at hl; omega
  unfold SGTIN.fromGtinPlusSerial
  dsimp only
  rw [zfill_dec hd', padLeft_of_le (by omega), ec]
  have hcut := uncut_key (i := i) (C := x.companyPref) (D := I) (k := c) (n := (x.companyPref.length : Int)) (clampIdx_one_add (by omega))
  rw [show i :: (x.companyPref ++ I) ++ [c] = i :: (x.companyPref ++ (I ++ [c])) by simp]
  rw [hcut.1, hcut.2, show getIdx (i :: (x.companyPref ++ (I ++ [c]))) 0 = .ok i from rfl, ok_bind]
  obtain ⟨C, I', S, _, _, rfl, rfl⟩ := SGTIN.new_iff.1 hu
  dsimp only at e ⊢
  subst e
  rw [← hu]
  congr 1
  simp

/-- Whatever GTIN of at most 14 digits, serial and company prefix length are passed: if an object is returned, its GTIN is the
given one (padded with zeros to 14 digits) with the check digit put right, and it is the given one if its check digit is right. -/
theorem C35_gtin (g s : Str) (n : Int) (y : SGTIN) (hg : Digits g) (hl : g.length ≤ 14) (h : SGTIN.fromGtinPlusSerial g s n = .ok y) :
    ∃ t, y.gtin = .ok t ∧ Corrected [] 13 (List.replicate (14 - g.length) '0' ++ g) t ∧
      (CheckDigitOk (List.replicate (14 - g.length) '0' ++ g) → t = List.replicate (14 - g.length) '0' ++ g) := by
  unfold SGTIN.fromGtinPlusSerial at h
  dsimp only at h
  rw [zfill_dec (dec_of_digits hg), show padLeft '0' 14 g = List.replicate (14 - g.length) '0' ++ g from rfl] at h
  generalize hG : List.replicate (14 - g.length) '0' ++ g = G at h ⊢
  have hGd : Digits G := by
    rw [← hG]
    intro c hc
    rcases List.mem_append.1 hc with hc | hc
    · rw [(List.mem_replicate.1 hc).2]; decide
    · exact hg c hc
  have hGl : G.length = 14 := by rw [← hG, List.length_append, List.length_replicate]; omega
  have hGdec := dec_of_digits hGd
  cases G with
  | nil => cases hGl
  | cons i d => ?_
  rw [show getIdx (i :: d) 0 = .ok i from rfl, ok_bind] at h
  have h0 : SGTIN.new (py "urn:epc:id:sgtin" ++ ':' :: (sliceI (i :: d) 1 (1 + n) ++ '.' ::
      ((i :: sliceI (i :: d) (1 + n) (-1)) ++ '.' :: s))) = .ok y := by
    rw [← h]; congr 1; simp
  obtain ⟨C', I', S', ⟨⟨_, h1⟩, ⟨_, h2⟩, _⟩, h3, e, ey⟩ := SGTIN.new_iff.1 h0
  have hi := (Dec.cons.1 hGdec).1
  have hinj := uri3_inj (Dec.no_dot (dec_slice hGdec _ _)) (Dec.no_dot (Dec.cons.2 ⟨hi, dec_slice hGdec _ _⟩)) h1.no_dot
    h2.no_dot e
  have e1 : sliceI (i :: d) 1 (1 + n) = C' := hinj.1
  have e2 : i :: sliceI (i :: d) (1 + n) (-1) = I' := hinj.2.1
  have e3 : s = S' := hinj.2.2
  clear hinj
  have hsum : (sliceI (i :: d) 1 (1 + n)).length + (i :: sliceI (i :: d) (1 + n) (-1)).length = 13 := by
    rw [e1, e2]; exact h3.1
  obtain ⟨⟨k, hcut⟩, _⟩ := cut_key (N := 13) hGl (by decide) hsum
  generalize sliceI (i :: d) 1 (1 + n) = C at h0 e1 e2 e ey hsum hcut
  generalize sliceI (i :: d) (1 + n) (-1) = I at h0 e1 e2 e ey hsum hcut
  subst e1 e2 e3 ey
  rw [List.length_cons] at hsum
  obtain ⟨i', I'', e', hk⟩ := SGTIN.key h0
  dsimp only at e' hk
  injection e' with ei eI
  subst ei eI
  have hkl := hk.2.1
  have hkc := hk
  have hcor := corrected (p := []) (body := i :: (C ++ I)) (rest := []) (s := i :: d) (k := k) (n := 13)
    (t := i :: (C ++ I) ++ natStr (uCheck (i :: (C ++ I)))) (by simp; omega)
    (by rw [show i :: (C ++ I) ++ [k] = i :: d by rw [hcut]; simp]; exact hGdec) (ascii_of_digits hGd)
    (by rw [hcut]; simp) (by simp)
  have hty : padLeft '0' 14 (keyBody C (i :: I) ++ natStr (uCheck (keyBody C (i :: I)))) = i :: (C ++ I) ++ natStr (uCheck (i :: (C ++ I))) := by
    rw [show keyBody C (i :: I) = i :: (C ++ I) from rfl]
    exact padLeft_of_le (by rw [List.length_append, length_natStr_uCheck]; simp; omega)
  rw [hty] at hkl
  refine ⟨_, ?_, hcor.1, ?_⟩
  · show Except.ok (slice _ 0 14) = _
    rw [hty]
    show Except.ok (List.take 14 _) = _
    rw [List.take_of_length_le (Nat.le_of_eq hkl)]
  · intro hok
    refine hcor.2 ?_
    rw [show (i :: d).drop ([] : Str).length = i :: d from rfl, List.take_of_length_le (by omega)]
    exact hok

/-- The wrong check digit 0 is put right. -/
example : ((SGTIN.fromGtinPlusSerial (py "9521141123450") (py "32a") 7).toOption.map (·.gtin)) = some (.ok (py "09521141123454")) := by decide +kernel

example : ((SGTIN.fromGtinPlusSerial (py "09521141123454") (py "32a%2Fb") 7).toOption.map (·.epcUri)) =
    some (py "urn:epc:id:sgtin:9521141.012345.32a%2Fb") := by decide +kernel

end Epc
''']
open('/verif/lean/Verif/Props/C35.lean','w').write(''.join(o))
# ---------------------------------------------------------------- C45
o=['''/-
C45: GS1 keys do not depend on the serial, and determine company prefix and reference.
Generated by tools/gen_c33.py.
-/
''',hdr]
for X,l in [('SGTIN','sgtin'),('LGTIN','lgtin')]:
    u = 'urn:epc:id:sgtin' if X=='SGTIN' else 'urn:epc:class:lgtin'
    o.append(f'''/-- {X}: same company prefix and item reference, same key, for every GTIN type. -/
theorem C45_{l} (u v : Str) (x y : {X}) (hu : {X}.new u = .ok x) (hv : {X}.new v = .ok y)
    (hp : x.companyPref = y.companyPref) (hi : x.itemRef = y.itemRef) (t : GtinType) : x.gs1Key t = y.gs1Key t := by
  obtain ⟨C, I, S, _, _, _, rfl⟩ := {X}.new_iff.1 hu
  obtain ⟨C', I', S', _, _, _, rfl⟩ := {X}.new_iff.1 hv
  dsimp only at hp hi
  subst hp hi
  rfl

/-- {X}: equal keys and equally long company prefixes, same company prefix and item reference. -/
theorem C45_{l}_conv (u v : Str) (x y : {X}) (hu : {X}.new u = .ok x) (hv : {X}.new v = .ok y)
    (hk : x.gs1Key = y.gs1Key) (hl : x.companyPref.length = y.companyPref.length) :
    x.companyPref = y.companyPref ∧ x.itemRef = y.itemRef := by
  obtain ⟨i, I, e, kx⟩ := {X}.key hu
  obtain ⟨j, J, e', ky⟩ := {X}.key hv
  have h1 : x.gs1Key = .ok x.gtin14 := by
    show Except.ok (x.gtin14.take 14) = _
    rw [List.take_of_length_le (Nat.le_of_eq kx.2.1)]
  have h2 : y.gs1Key = .ok y.gtin14 := by
    show Except.ok (y.gtin14.take 14) = _
    rw [List.take_of_length_le (Nat.le_of_eq ky.2.1)]
  rw [h1, h2] at hk
  injection hk with hk
  rw [hk] at kx
  have hb := keyOf_body_inj kx ky
  injection hb with hi hb
  obtain ⟨hp, hI⟩ := List.append_inj hb hl
  exact ⟨hp, by rw [e, e', hi, hI]⟩

example : (({X}.new (py "{u}:9521141.012345.A1")).toOption.map (·.gs1Key)) =
    (({X}.new (py "{u}:9521141.012345.zz")).toOption.map (·.gs1Key)) := by decide +kernel

''')
o.append('''/-- SGLN: same company prefix and location reference, same key. -/
theorem C45_sgln (u v : Str) (x y : SGLN) (hu : SGLN.new u = .ok x) (hv : SGLN.new v = .ok y)
    (hp : x.companyPref = y.companyPref) (hi : x.locationRef = y.locationRef) : x.gs1Key = y.gs1Key := by
  obtain ⟨C, I, S, _, _, _, rfl⟩ := SGLN.new_iff.1 hu
  obtain ⟨C', I', S', _, _, _, rfl⟩ := SGLN.new_iff.1 hv
  dsimp only at hp hi
  subst hp hi
  rfl

/-- SGLN: equal keys and equally long company prefixes, same company prefix and location reference. -/
theorem C45_sgln_conv (u v : Str) (x y : SGLN) (hu : SGLN.new u = .ok x) (hv : SGLN.new v = .ok y)
    (hk : x.gs1Key = y.gs1Key) (hl : x.companyPref.length = y.companyPref.length) :
    x.companyPref = y.companyPref ∧ x.locationRef = y.locationRef := by
  obtain ⟨C, I, S, ⟨⟨_, hC⟩, hI, _⟩, ⟨h1, _⟩, rfl, rfl⟩ := SGLN.new_iff.1 hu
  obtain ⟨C', I', S', ⟨⟨_, hC'⟩, hI', _⟩, ⟨h2, _⟩, rfl, rfl⟩ := SGLN.new_iff.1 hv
  dsimp only at hl ⊢
  have hk' : C ++ I ++ natStr (uCheck (C ++ I)) = C' ++ I' ++ natStr (uCheck (C' ++ I')) := hk
  have hb := (List.append_inj' hk' (by rw [length_natStr_uCheck, length_natStr_uCheck])).1
  exact List.append_inj hb hl

example : ((SGLN.new (py "urn:epc:id:sgln:9521141.12345.A1")).toOption.map (·.gs1Key)) =
    ((SGLN.new (py "urn:epc:id:sgln:9521141.12345.zz")).toOption.map (·.gs1Key)) := by decide +kernel

end Epc
''')
open('/verif/lean/Verif/Props/C45.lean','w').write(''.join(o))
