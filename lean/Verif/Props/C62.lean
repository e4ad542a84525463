/-
C62: the text of the GS1 element string of every accepted object, and what it determines.

For the URI `urn:epc:id:<scheme>:<prefix>.<reference>.<serial>` the first theorem of each class gives the element string character by character:
application identifier, key with its check digit (`KeyOf`, Spec/Key.lean), application identifier, and the serial with the escapes of TDS
replaced (`unescapeWith uriEscapes`, Spec/Serial.lean).  There is no restriction to serials in canonical form.
The second theorem says that two objects of the class whose company prefixes have the same length and whose element strings are equal
have the same company prefix, the same reference and, unescaped, the same serial.
Generated by tools/gen_c62.py.
-/
import Verif.Lemmas.Key
import Verif.Lemmas.ElemParse
import Verif.Lemmas.Unescape
import Verif.Lemmas.SerialText

namespace Epc
open Spec Re

/-- Two keys of the same length are equal only if what is in front of the check digit is. -/
private theorem keyOf_inj {n : Nat} {b b' k : Str} (h : KeyOf n b k) (h' : KeyOf n b' k) : b = b' := by
  obtain ⟨c, e⟩ := h.1
  obtain ⟨c', e'⟩ := h'.1
  rw [e] at e'
  exact (List.append_inj' e' rfl).1

/-- Equal texts that start with a key. -/
private theorem key_tail_inj {n : Nat} {b b' k k' s s' : Str} (h : KeyOf n b k) (h' : KeyOf n b' k') (e : k ++ s = k' ++ s') : b = b' ∧ s = s' := by
  obtain ⟨e1, e2⟩ := List.append_inj e (by rw [h.2.1, h'.2.1])
  subst e1
  exact ⟨keyOf_inj h h', e2⟩

/-- The indicator digit in front. -/
private theorem body_inj {i i' : Char} {C C' I I' : Str} (hl : C.length = C'.length) (e : i :: (C ++ I) = i' :: (C' ++ I')) : C = C' ∧ i :: I = i' :: I' := by
  injection e with e1 e2
  obtain ⟨e3, e4⟩ := List.append_inj e2 hl
  rw [e1, e3, e4]
  exact ⟨rfl, rfl⟩

/-- SGTIN: `(01)`, GTIN (indicator digit, company prefix, item reference, check digit), `(21)`, serial. -/
theorem C62_sgtin (i : Char) (C I S : Str) (x : SGTIN)
    (hC : '.' ∉ C) (hI : '.' ∉ i :: I) (hu : SGTIN.new (py "urn:epc:id:sgtin:" ++ C ++ '.' :: i :: I ++ '.' :: S) = .ok x) :
    ∃ k, KeyOf 14 (i :: (C ++ I)) k ∧ x.gs1ElementString = .ok (py "(01)" ++ k ++ py "(21)" ++ unescapeWith uriEscapes S) := by
  obtain ⟨C', J, S', ⟨⟨_, hC'⟩, ⟨_, hI'⟩, _⟩, ⟨hl, _⟩, e, rfl⟩ := SGTIN.new_iff.1 hu
  have e' : py "urn:epc:id:sgtin" ++ ':' :: (C ++ '.' :: ((i :: I) ++ '.' :: S)) = py "urn:epc:id:sgtin" ++ ':' :: (C' ++ '.' :: (J ++ '.' :: S')) := by
    rw [← e]; simp
  obtain ⟨rfl, rfl, rfl⟩ := uri3_inj hC hI hC'.no_dot hI'.no_dot e'
  have hI := Dec.cons.1 hI'
  have hd : Dec (i :: (C ++ I)) := Dec.cons.2 ⟨hI.1, Dec.append.2 ⟨hC', hI.2⟩⟩
  have hk : KeyOf 14 (i :: (C ++ I)) (i :: (C ++ I) ++ natStr (uCheck (i :: (C ++ I)))) :=
    keyOf_check hd (by simp only [List.length_append, List.length_cons] at hl ⊢; omega)
  refine ⟨_, hk, ?_⟩
  have hpad : padLeft '0' 14 (keyBody C (i :: I) ++ natStr (uCheck (keyBody C (i :: I)))) = i :: (C ++ I) ++ natStr (uCheck (i :: (C ++ I))) :=
    padLeft_of_le (Nat.le_of_eq hk.2.1.symm)
  unfold SGTIN.gs1ElementString
  dsimp only
  rw [hpad, replaceUriEscapes_eq]

/-- SGTIN: what the element string determines. -/
theorem C62_sgtin_determines (i i' : Char) (C I S C' I' S' : Str) (x y : SGTIN)
    (hC : '.' ∉ C) (hI : '.' ∉ i :: I) (hu : SGTIN.new (py "urn:epc:id:sgtin:" ++ C ++ '.' :: i :: I ++ '.' :: S) = .ok x)
    (hC' : '.' ∉ C') (hI' : '.' ∉ i' :: I') (hv : SGTIN.new (py "urn:epc:id:sgtin:" ++ C' ++ '.' :: i' :: I' ++ '.' :: S') = .ok y)
    (hl : C.length = C'.length) (h : x.gs1ElementString = y.gs1ElementString) :
    C = C' ∧ i :: I = i' :: I' ∧ unescapeWith uriEscapes S = unescapeWith uriEscapes S' := by
  obtain ⟨k, hk, e⟩ := C62_sgtin i C I S x hC hI hu
  obtain ⟨k', hk', e'⟩ := C62_sgtin i' C' I' S' y hC' hI' hv
  rw [e, e', Except.ok.injEq] at h
  simp only [List.append_assoc] at h
  obtain ⟨h1, h2⟩ := key_tail_inj hk hk' (List.append_cancel_left h)
  exact ⟨(body_inj hl h1).1, (body_inj hl h1).2, List.append_cancel_left h2⟩

/-- LGTIN: `(01)`, GTIN, `(10)`, lot. -/
theorem C62_lgtin (i : Char) (C I S : Str) (x : LGTIN)
    (hC : '.' ∉ C) (hI : '.' ∉ i :: I) (hu : LGTIN.new (py "urn:epc:class:lgtin:" ++ C ++ '.' :: i :: I ++ '.' :: S) = .ok x) :
    ∃ k, KeyOf 14 (i :: (C ++ I)) k ∧ x.gs1ElementString = .ok (py "(01)" ++ k ++ py "(10)" ++ unescapeWith uriEscapes S) := by
  obtain ⟨C', J, S', ⟨⟨_, hC'⟩, ⟨_, hI'⟩, _⟩, ⟨hl, _⟩, e, rfl⟩ := LGTIN.new_iff.1 hu
  have e' : py "urn:epc:class:lgtin" ++ ':' :: (C ++ '.' :: ((i :: I) ++ '.' :: S)) = py "urn:epc:class:lgtin" ++ ':' :: (C' ++ '.' :: (J ++ '.' :: S')) := by
    rw [← e]; simp
  obtain ⟨rfl, rfl, rfl⟩ := uri3_inj hC hI hC'.no_dot hI'.no_dot e'
  have hI := Dec.cons.1 hI'
  have hd : Dec (i :: (C ++ I)) := Dec.cons.2 ⟨hI.1, Dec.append.2 ⟨hC', hI.2⟩⟩
  have hk : KeyOf 14 (i :: (C ++ I)) (i :: (C ++ I) ++ natStr (uCheck (i :: (C ++ I)))) :=
    keyOf_check hd (by simp only [List.length_append, List.length_cons] at hl ⊢; omega)
  refine ⟨_, hk, ?_⟩
  have hpad : padLeft '0' 14 (keyBody C (i :: I) ++ natStr (uCheck (keyBody C (i :: I)))) = i :: (C ++ I) ++ natStr (uCheck (i :: (C ++ I))) :=
    padLeft_of_le (Nat.le_of_eq hk.2.1.symm)
  unfold LGTIN.gs1ElementString
  dsimp only
  rw [hpad, replaceUriEscapes_eq]

/-- LGTIN: what the element string determines. -/
theorem C62_lgtin_determines (i i' : Char) (C I S C' I' S' : Str) (x y : LGTIN)
    (hC : '.' ∉ C) (hI : '.' ∉ i :: I) (hu : LGTIN.new (py "urn:epc:class:lgtin:" ++ C ++ '.' :: i :: I ++ '.' :: S) = .ok x)
    (hC' : '.' ∉ C') (hI' : '.' ∉ i' :: I') (hv : LGTIN.new (py "urn:epc:class:lgtin:" ++ C' ++ '.' :: i' :: I' ++ '.' :: S') = .ok y)
    (hl : C.length = C'.length) (h : x.gs1ElementString = y.gs1ElementString) :
    C = C' ∧ i :: I = i' :: I' ∧ unescapeWith uriEscapes S = unescapeWith uriEscapes S' := by
  obtain ⟨k, hk, e⟩ := C62_lgtin i C I S x hC hI hu
  obtain ⟨k', hk', e'⟩ := C62_lgtin i' C' I' S' y hC' hI' hv
  rw [e, e', Except.ok.injEq] at h
  simp only [List.append_assoc] at h
  obtain ⟨h1, h2⟩ := key_tail_inj hk hk' (List.append_cancel_left h)
  exact ⟨(body_inj hl h1).1, (body_inj hl h1).2, List.append_cancel_left h2⟩

/-- UPUI: `(01)`, GTIN, `(235)`, third-party-controlled serial (an object without item reference raises, C46_upui_index). -/
theorem C62_upui (i : Char) (C I S : Str) (x : UPUI)
    (hC : '.' ∉ C) (hI : '.' ∉ i :: I) (hu : UPUI.new (py "urn:epc:id:upui:" ++ C ++ '.' :: i :: I ++ '.' :: S) = .ok x) :
    ∃ k, KeyOf 14 (i :: (C ++ I)) k ∧ x.gs1ElementString = .ok (py "(01)" ++ k ++ py "(235)" ++ unescapeWith uriEscapes S) := by
  obtain ⟨C', J, S', ⟨⟨_, hC'⟩, hI', _⟩, ⟨hl, _⟩, e, rfl⟩ := UPUI.new_iff.1 hu
  have e' : py "urn:epc:id:upui" ++ ':' :: (C ++ '.' :: ((i :: I) ++ '.' :: S)) = py "urn:epc:id:upui" ++ ':' :: (C' ++ '.' :: (J ++ '.' :: S')) := by
    rw [← e]; simp
  obtain ⟨rfl, rfl, rfl⟩ := uri3_inj hC hI hC'.no_dot hI'.no_dot e'
  have hI := Dec.cons.1 hI'
  have hd : Dec (i :: (C ++ I)) := Dec.cons.2 ⟨hI.1, Dec.append.2 ⟨hC', hI.2⟩⟩
  have hk : KeyOf 14 (i :: (C ++ I)) (i :: (C ++ I) ++ natStr (uCheck (i :: (C ++ I)))) :=
    keyOf_check hd (by simp only [List.length_append, List.length_cons] at hl ⊢; omega)
  refine ⟨_, hk, ?_⟩
  unfold UPUI.gs1ElementString
  dsimp only
  rw [show getIdx (i :: I) 0 = .ok i from rfl, ok_bind, show (i :: I).drop 1 = I from rfl, show i :: C ++ I = i :: (C ++ I) from rfl,
    checksum_dec hd, ok_bind, pure_ok, replaceUriEscapes_eq]
  simp

/-- UPUI: what the element string determines. -/
theorem C62_upui_determines (i i' : Char) (C I S C' I' S' : Str) (x y : UPUI)
    (hC : '.' ∉ C) (hI : '.' ∉ i :: I) (hu : UPUI.new (py "urn:epc:id:upui:" ++ C ++ '.' :: i :: I ++ '.' :: S) = .ok x)
    (hC' : '.' ∉ C') (hI' : '.' ∉ i' :: I') (hv : UPUI.new (py "urn:epc:id:upui:" ++ C' ++ '.' :: i' :: I' ++ '.' :: S') = .ok y)
    (hl : C.length = C'.length) (h : x.gs1ElementString = y.gs1ElementString) :
    C = C' ∧ i :: I = i' :: I' ∧ unescapeWith uriEscapes S = unescapeWith uriEscapes S' := by
  obtain ⟨k, hk, e⟩ := C62_upui i C I S x hC hI hu
  obtain ⟨k', hk', e'⟩ := C62_upui i' C' I' S' y hC' hI' hv
  rw [e, e', Except.ok.injEq] at h
  simp only [List.append_assoc] at h
  obtain ⟨h1, h2⟩ := key_tail_inj hk hk' (List.append_cancel_left h)
  exact ⟨(body_inj hl h1).1, (body_inj hl h1).2, List.append_cancel_left h2⟩

/-- ITIP: `(8006)`, GTIN, piece, total, `(21)`, serial. -/
theorem C62_itip (i : Char) (C I A B S : Str) (x : ITIP)
    (hC : '.' ∉ C) (hI : '.' ∉ i :: I) (hA : '.' ∉ A) (hB : '.' ∉ B)
    (hu : ITIP.new (py "urn:epc:id:itip:" ++ C ++ '.' :: i :: I ++ '.' :: A ++ '.' :: B ++ '.' :: S) = .ok x) :
    ∃ k, KeyOf (18 - A.length - B.length) (i :: (C ++ I)) k ∧
      x.gs1ElementString = .ok (py "(8006)" ++ k ++ A ++ B ++ py "(21)" ++ unescapeWith uriEscapes S) := by
  obtain ⟨C', J, A', B', S', ⟨⟨_, hC'⟩, ⟨_, hI'⟩, ⟨_, hA'⟩, ⟨_, hB'⟩, _⟩, ⟨hl, _⟩, e, rfl⟩ := ITIP.new_iff.1 hu
  have e' : py "urn:epc:id:itip" ++ ':' :: (C ++ '.' :: ((i :: I) ++ '.' :: (A ++ '.' :: (B ++ '.' :: S)))) = py "urn:epc:id:itip" ++ ':' :: (C' ++ '.' :: (J ++ '.' :: (A' ++ '.' :: (B' ++ '.' :: S')))) := by
    rw [← e]; simp
  obtain ⟨rfl, rfl, e''⟩ := uri3_inj hC hI hC'.no_dot hI'.no_dot e'
  obtain ⟨rfl, e3⟩ := append_sep_inj hA hA'.no_dot e''
  obtain ⟨rfl, rfl⟩ := append_sep_inj hB hB'.no_dot e3
  have hI := Dec.cons.1 hI'
  have hd : Dec (i :: (C ++ I)) := Dec.cons.2 ⟨hI.1, Dec.append.2 ⟨hC', hI.2⟩⟩
  refine ⟨_, keyOf_check hd (by simp only [List.length_append, List.length_cons] at hl ⊢; omega), ?_⟩
  unfold ITIP.gs1ElementString
  dsimp only
  rw [show getIdx (i :: I) 0 = .ok i from rfl, ok_bind, show (i :: I).drop 1 = I from rfl, show i :: C ++ I = i :: (C ++ I) from rfl,
    checksum_dec hd, ok_bind, pure_ok, replaceUriEscapes_eq]
  simp

/-- ITIP: what the element string determines (piece and total having the same lengths, too). -/
theorem C62_itip_determines (i i' : Char) (C I A B S C' I' A' B' S' : Str) (x y : ITIP)
    (hC : '.' ∉ C) (hI : '.' ∉ i :: I) (hA : '.' ∉ A) (hB : '.' ∉ B)
    (hu : ITIP.new (py "urn:epc:id:itip:" ++ C ++ '.' :: i :: I ++ '.' :: A ++ '.' :: B ++ '.' :: S) = .ok x)
    (hC' : '.' ∉ C') (hI' : '.' ∉ i' :: I') (hA' : '.' ∉ A') (hB' : '.' ∉ B')
    (hv : ITIP.new (py "urn:epc:id:itip:" ++ C' ++ '.' :: i' :: I' ++ '.' :: A' ++ '.' :: B' ++ '.' :: S') = .ok y)
    (hl : C.length = C'.length) (hlA : A.length = A'.length) (hlB : B.length = B'.length) (h : x.gs1ElementString = y.gs1ElementString) :
    C = C' ∧ i :: I = i' :: I' ∧ A = A' ∧ B = B' ∧ unescapeWith uriEscapes S = unescapeWith uriEscapes S' := by
  obtain ⟨k, hk, e⟩ := C62_itip i C I A B S x hC hI hA hB hu
  obtain ⟨k', hk', e'⟩ := C62_itip i' C' I' A' B' S' y hC' hI' hA' hB' hv
  rw [e, e', Except.ok.injEq] at h
  simp only [List.append_assoc] at h
  rw [hlA, hlB] at hk
  obtain ⟨h1, h2⟩ := key_tail_inj hk hk' (List.append_cancel_left h)
  obtain ⟨h3, h4⟩ := List.append_inj h2 hlA
  obtain ⟨h5, h6⟩ := List.append_inj h4 hlB
  exact ⟨(body_inj hl h1).1, (body_inj hl h1).2, h3, h5, List.append_cancel_left h6⟩

/-- SSCC: `(00)`, extension digit, company prefix, serial reference, check digit. -/
theorem C62_sscc (i : Char) (C I : Str) (x : SSCC)
    (hC : '.' ∉ C) (hu : SSCC.new (py "urn:epc:id:sscc:" ++ C ++ '.' :: i :: I) = .ok x) :
    ∃ k, KeyOf 18 (i :: (C ++ I)) k ∧ x.gs1ElementString = .ok (py "(00)" ++ k) := by
  obtain ⟨C', J, ⟨⟨_, hC'⟩, _, hI'⟩, ⟨hl, _⟩, e, rfl⟩ := SSCC.new_iff.1 hu
  have e' : py "urn:epc:id:sscc" ++ ':' :: (C ++ '.' :: (i :: I)) = py "urn:epc:id:sscc" ++ ':' :: (C' ++ '.' :: J) := by
    rw [← e]; simp
  obtain ⟨rfl, rfl⟩ := uri2_inj hC hC'.no_dot e'
  have hI := Dec.cons.1 hI'
  exact ⟨_, keyOf_check (Dec.cons.2 ⟨hI.1, Dec.append.2 ⟨hC', hI.2⟩⟩)
    (by simp only [List.length_append, List.length_cons] at hl ⊢; omega), rfl⟩

/-- SSCC: what the element string determines. -/
theorem C62_sscc_determines (i i' : Char) (C I C' I' : Str) (x y : SSCC)
    (hC : '.' ∉ C) (hu : SSCC.new (py "urn:epc:id:sscc:" ++ C ++ '.' :: i :: I) = .ok x)
    (hC' : '.' ∉ C') (hv : SSCC.new (py "urn:epc:id:sscc:" ++ C' ++ '.' :: i' :: I') = .ok y)
    (hl : C.length = C'.length) (h : x.gs1ElementString = y.gs1ElementString) :
    C = C' ∧ i :: I = i' :: I' := by
  obtain ⟨k, hk, e⟩ := C62_sscc i C I x hC hu
  obtain ⟨k', hk', e'⟩ := C62_sscc i' C' I' y hC' hv
  rw [e, e', Except.ok.injEq] at h
  obtain rfl := List.append_cancel_left h
  exact body_inj hl (keyOf_inj hk hk')

/-- GSRN: `(8018)`, company prefix, service reference, check digit. -/
theorem C62_gsrn (C I : Str) (x : GSRN)
    (hC : '.' ∉ C) (hu : GSRN.new (py "urn:epc:id:gsrn:" ++ C ++ '.' :: I) = .ok x) :
    ∃ k, KeyOf 18 (C ++ I) k ∧ x.gs1ElementString = .ok (py "(8018)" ++ k) := by
  obtain ⟨C', J, ⟨⟨_, hC'⟩, _, hI'⟩, ⟨hl, _⟩, e, rfl⟩ := GSRN.new_iff.1 hu
  have e' : py "urn:epc:id:gsrn" ++ ':' :: (C ++ '.' :: I) = py "urn:epc:id:gsrn" ++ ':' :: (C' ++ '.' :: J) := by
    rw [← e]; simp
  obtain ⟨rfl, rfl⟩ := uri2_inj hC hC'.no_dot e'
  exact ⟨_, keyOf_check (Dec.append.2 ⟨hC', hI'⟩) (by simp only [List.length_append]; omega), rfl⟩

/-- GSRN: what the element string determines. -/
theorem C62_gsrn_determines (C I C' I' : Str) (x y : GSRN)
    (hC : '.' ∉ C) (hu : GSRN.new (py "urn:epc:id:gsrn:" ++ C ++ '.' :: I) = .ok x)
    (hC' : '.' ∉ C') (hv : GSRN.new (py "urn:epc:id:gsrn:" ++ C' ++ '.' :: I') = .ok y)
    (hl : C.length = C'.length) (h : x.gs1ElementString = y.gs1ElementString) :
    C = C' ∧ I = I' := by
  obtain ⟨k, hk, e⟩ := C62_gsrn C I x hC hu
  obtain ⟨k', hk', e'⟩ := C62_gsrn C' I' y hC' hv
  rw [e, e', Except.ok.injEq] at h
  obtain rfl := List.append_cancel_left h
  exact List.append_inj (keyOf_inj hk hk') hl

/-- GSRNP: `(8017)`, company prefix, service reference, check digit. -/
theorem C62_gsrnp (C I : Str) (x : GSRNP)
    (hC : '.' ∉ C) (hu : GSRNP.new (py "urn:epc:id:gsrnp:" ++ C ++ '.' :: I) = .ok x) :
    ∃ k, KeyOf 18 (C ++ I) k ∧ x.gs1ElementString = .ok (py "(8017)" ++ k) := by
  obtain ⟨C', J, ⟨⟨_, hC'⟩, _, hI'⟩, ⟨hl, _⟩, e, rfl⟩ := GSRNP.new_iff.1 hu
  have e' : py "urn:epc:id:gsrnp" ++ ':' :: (C ++ '.' :: I) = py "urn:epc:id:gsrnp" ++ ':' :: (C' ++ '.' :: J) := by
    rw [← e]; simp
  obtain ⟨rfl, rfl⟩ := uri2_inj hC hC'.no_dot e'
  exact ⟨_, keyOf_check (Dec.append.2 ⟨hC', hI'⟩) (by simp only [List.length_append]; omega), rfl⟩

/-- GSRNP: what the element string determines. -/
theorem C62_gsrnp_determines (C I C' I' : Str) (x y : GSRNP)
    (hC : '.' ∉ C) (hu : GSRNP.new (py "urn:epc:id:gsrnp:" ++ C ++ '.' :: I) = .ok x)
    (hC' : '.' ∉ C') (hv : GSRNP.new (py "urn:epc:id:gsrnp:" ++ C' ++ '.' :: I') = .ok y)
    (hl : C.length = C'.length) (h : x.gs1ElementString = y.gs1ElementString) :
    C = C' ∧ I = I' := by
  obtain ⟨k, hk, e⟩ := C62_gsrnp C I x hC hu
  obtain ⟨k', hk', e'⟩ := C62_gsrnp C' I' y hC' hv
  rw [e, e', Except.ok.injEq] at h
  obtain rfl := List.append_cancel_left h
  exact List.append_inj (keyOf_inj hk hk') hl

/-- PGLN: `(417)`, company prefix, party reference, check digit. -/
theorem C62_pgln (C I : Str) (x : PGLN)
    (hC : '.' ∉ C) (hu : PGLN.new (py "urn:epc:id:pgln:" ++ C ++ '.' :: I) = .ok x) :
    ∃ k, KeyOf 13 (C ++ I) k ∧ x.gs1ElementString = .ok (py "(417)" ++ k) := by
  obtain ⟨C', J, ⟨⟨_, hC'⟩, hI'⟩, ⟨hl, _⟩, e, rfl⟩ := PGLN.new_iff.1 hu
  have e' : py "urn:epc:id:pgln" ++ ':' :: (C ++ '.' :: I) = py "urn:epc:id:pgln" ++ ':' :: (C' ++ '.' :: J) := by
    rw [← e]; simp
  obtain ⟨rfl, rfl⟩ := uri2_inj hC hC'.no_dot e'
  exact ⟨_, keyOf_check (Dec.append.2 ⟨hC', hI'⟩) (by simp only [List.length_append]; omega), rfl⟩

/-- PGLN: what the element string determines. -/
theorem C62_pgln_determines (C I C' I' : Str) (x y : PGLN)
    (hC : '.' ∉ C) (hu : PGLN.new (py "urn:epc:id:pgln:" ++ C ++ '.' :: I) = .ok x)
    (hC' : '.' ∉ C') (hv : PGLN.new (py "urn:epc:id:pgln:" ++ C' ++ '.' :: I') = .ok y)
    (hl : C.length = C'.length) (h : x.gs1ElementString = y.gs1ElementString) :
    C = C' ∧ I = I' := by
  obtain ⟨k, hk, e⟩ := C62_pgln C I x hC hu
  obtain ⟨k', hk', e'⟩ := C62_pgln C' I' y hC' hv
  rw [e, e', Except.ok.injEq] at h
  obtain rfl := List.append_cancel_left h
  exact List.append_inj (keyOf_inj hk hk') hl

/-- GSIN: `(402)`, company prefix, shipper reference, check digit. -/
theorem C62_gsin (C I : Str) (x : GSIN)
    (hC : '.' ∉ C) (hu : GSIN.new (py "urn:epc:id:gsin:" ++ C ++ '.' :: I) = .ok x) :
    ∃ k, KeyOf 17 (C ++ I) k ∧ x.gs1ElementString = .ok (py "(402)" ++ k) := by
  obtain ⟨C', J, ⟨⟨_, hC'⟩, _, hI'⟩, ⟨hl, _⟩, e, rfl⟩ := GSIN.new_iff.1 hu
  have e' : py "urn:epc:id:gsin" ++ ':' :: (C ++ '.' :: I) = py "urn:epc:id:gsin" ++ ':' :: (C' ++ '.' :: J) := by
    rw [← e]; simp
  obtain ⟨rfl, rfl⟩ := uri2_inj hC hC'.no_dot e'
  exact ⟨_, keyOf_check (Dec.append.2 ⟨hC', hI'⟩) (by simp only [List.length_append]; omega), rfl⟩

/-- GSIN: what the element string determines. -/
theorem C62_gsin_determines (C I C' I' : Str) (x y : GSIN)
    (hC : '.' ∉ C) (hu : GSIN.new (py "urn:epc:id:gsin:" ++ C ++ '.' :: I) = .ok x)
    (hC' : '.' ∉ C') (hv : GSIN.new (py "urn:epc:id:gsin:" ++ C' ++ '.' :: I') = .ok y)
    (hl : C.length = C'.length) (h : x.gs1ElementString = y.gs1ElementString) :
    C = C' ∧ I = I' := by
  obtain ⟨k, hk, e⟩ := C62_gsin C I x hC hu
  obtain ⟨k', hk', e'⟩ := C62_gsin C' I' y hC' hv
  rw [e, e', Except.ok.injEq] at h
  obtain rfl := List.append_cancel_left h
  exact List.append_inj (keyOf_inj hk hk') hl

/-- SGLN: `(414)`, company prefix, location reference, check digit, `(254)`, serial. -/
theorem C62_sgln (C I S : Str) (x : SGLN)
    (hC : '.' ∉ C) (hI : '.' ∉ I) (hu : SGLN.new (py "urn:epc:id:sgln:" ++ C ++ '.' :: I ++ '.' :: S) = .ok x) :
    ∃ k, KeyOf 13 (C ++ I) k ∧ x.gs1ElementString = .ok (py "(414)" ++ k ++ py "(254)" ++ unescapeWith uriEscapes S) := by
  obtain ⟨C', J, S', ⟨⟨_, hC'⟩, hI', _⟩, ⟨hl, _⟩, e, rfl⟩ := SGLN.new_iff.1 hu
  have e' : py "urn:epc:id:sgln" ++ ':' :: (C ++ '.' :: (I ++ '.' :: S)) = py "urn:epc:id:sgln" ++ ':' :: (C' ++ '.' :: (J ++ '.' :: S')) := by
    rw [← e]; simp
  obtain ⟨rfl, rfl, rfl⟩ := uri3_inj hC hI hC'.no_dot hI'.no_dot e'
  refine ⟨_, keyOf_check (Dec.append.2 ⟨hC', hI'⟩) (by simp only [List.length_append]; omega), ?_⟩
  rw [← replaceUriEscapes_eq]
  unfold SGLN.gs1ElementString
  simp

/-- SGLN: what the element string determines. -/
theorem C62_sgln_determines (C I S C' I' S' : Str) (x y : SGLN)
    (hC : '.' ∉ C) (hI : '.' ∉ I) (hu : SGLN.new (py "urn:epc:id:sgln:" ++ C ++ '.' :: I ++ '.' :: S) = .ok x)
    (hC' : '.' ∉ C') (hI' : '.' ∉ I') (hv : SGLN.new (py "urn:epc:id:sgln:" ++ C' ++ '.' :: I' ++ '.' :: S') = .ok y)
    (hl : C.length = C'.length) (h : x.gs1ElementString = y.gs1ElementString) :
    C = C' ∧ I = I' ∧ unescapeWith uriEscapes S = unescapeWith uriEscapes S' := by
  obtain ⟨k, hk, e⟩ := C62_sgln C I S x hC hI hu
  obtain ⟨k', hk', e'⟩ := C62_sgln C' I' S' y hC' hI' hv
  rw [e, e', Except.ok.injEq] at h
  simp only [List.append_assoc] at h
  obtain ⟨h1, h2⟩ := key_tail_inj hk hk' (List.append_cancel_left h)
  exact ⟨(List.append_inj h1 hl).1, (List.append_inj h1 hl).2, List.append_cancel_left h2⟩

/-- GRAI: `(8003)0`, company prefix, asset type, check digit, serial. -/
theorem C62_grai (C I S : Str) (x : GRAI)
    (hC : '.' ∉ C) (hI : '.' ∉ I) (hu : GRAI.new (py "urn:epc:id:grai:" ++ C ++ '.' :: I ++ '.' :: S) = .ok x) :
    ∃ k, KeyOf 13 (C ++ I) k ∧ x.gs1ElementString = .ok (py "(8003)0" ++ k ++ unescapeWith uriEscapes S) := by
  obtain ⟨C', J, S', ⟨⟨_, hC'⟩, hI', _⟩, ⟨hl, _⟩, e, rfl⟩ := GRAI.new_iff.1 hu
  have e' : py "urn:epc:id:grai" ++ ':' :: (C ++ '.' :: (I ++ '.' :: S)) = py "urn:epc:id:grai" ++ ':' :: (C' ++ '.' :: (J ++ '.' :: S')) := by
    rw [← e]; simp
  obtain ⟨rfl, rfl, rfl⟩ := uri3_inj hC hI hC'.no_dot hI'.no_dot e'
  refine ⟨_, keyOf_check (Dec.append.2 ⟨hC', hI'⟩) (by simp only [List.length_append]; omega), ?_⟩
  rw [← replaceUriEscapes_eq]
  unfold GRAI.gs1ElementString
  simp

/-- GRAI: what the element string determines. -/
theorem C62_grai_determines (C I S C' I' S' : Str) (x y : GRAI)
    (hC : '.' ∉ C) (hI : '.' ∉ I) (hu : GRAI.new (py "urn:epc:id:grai:" ++ C ++ '.' :: I ++ '.' :: S) = .ok x)
    (hC' : '.' ∉ C') (hI' : '.' ∉ I') (hv : GRAI.new (py "urn:epc:id:grai:" ++ C' ++ '.' :: I' ++ '.' :: S') = .ok y)
    (hl : C.length = C'.length) (h : x.gs1ElementString = y.gs1ElementString) :
    C = C' ∧ I = I' ∧ unescapeWith uriEscapes S = unescapeWith uriEscapes S' := by
  obtain ⟨k, hk, e⟩ := C62_grai C I S x hC hI hu
  obtain ⟨k', hk', e'⟩ := C62_grai C' I' S' y hC' hI' hv
  rw [e, e', Except.ok.injEq] at h
  simp only [List.append_assoc] at h
  obtain ⟨h1, h2⟩ := key_tail_inj hk hk' (List.append_cancel_left h)
  exact ⟨(List.append_inj h1 hl).1, (List.append_inj h1 hl).2, h2⟩

/-- GDTI: `(253)`, company prefix, document type, check digit, serial. -/
theorem C62_gdti (C I S : Str) (x : GDTI)
    (hC : '.' ∉ C) (hI : '.' ∉ I) (hu : GDTI.new (py "urn:epc:id:gdti:" ++ C ++ '.' :: I ++ '.' :: S) = .ok x) :
    ∃ k, KeyOf 13 (C ++ I) k ∧ x.gs1ElementString = .ok (py "(253)" ++ k ++ unescapeWith uriEscapes S) := by
  obtain ⟨C', J, S', ⟨⟨_, hC'⟩, hI', _⟩, ⟨hl, _⟩, e, rfl⟩ := GDTI.new_iff.1 hu
  have e' : py "urn:epc:id:gdti" ++ ':' :: (C ++ '.' :: (I ++ '.' :: S)) = py "urn:epc:id:gdti" ++ ':' :: (C' ++ '.' :: (J ++ '.' :: S')) := by
    rw [← e]; simp
  obtain ⟨rfl, rfl, rfl⟩ := uri3_inj hC hI hC'.no_dot hI'.no_dot e'
  refine ⟨_, keyOf_check (Dec.append.2 ⟨hC', hI'⟩) (by simp only [List.length_append]; omega), ?_⟩
  rw [← replaceUriEscapes_eq]
  unfold GDTI.gs1ElementString
  simp

/-- GDTI: what the element string determines. -/
theorem C62_gdti_determines (C I S C' I' S' : Str) (x y : GDTI)
    (hC : '.' ∉ C) (hI : '.' ∉ I) (hu : GDTI.new (py "urn:epc:id:gdti:" ++ C ++ '.' :: I ++ '.' :: S) = .ok x)
    (hC' : '.' ∉ C') (hI' : '.' ∉ I') (hv : GDTI.new (py "urn:epc:id:gdti:" ++ C' ++ '.' :: I' ++ '.' :: S') = .ok y)
    (hl : C.length = C'.length) (h : x.gs1ElementString = y.gs1ElementString) :
    C = C' ∧ I = I' ∧ unescapeWith uriEscapes S = unescapeWith uriEscapes S' := by
  obtain ⟨k, hk, e⟩ := C62_gdti C I S x hC hI hu
  obtain ⟨k', hk', e'⟩ := C62_gdti C' I' S' y hC' hI' hv
  rw [e, e', Except.ok.injEq] at h
  simp only [List.append_assoc] at h
  obtain ⟨h1, h2⟩ := key_tail_inj hk hk' (List.append_cancel_left h)
  exact ⟨(List.append_inj h1 hl).1, (List.append_inj h1 hl).2, h2⟩

/-- SGCN: `(255)`, company prefix, coupon reference, check digit, serial. -/
theorem C62_sgcn (C I S : Str) (x : SGCN)
    (hC : '.' ∉ C) (hI : '.' ∉ I) (hu : SGCN.new (py "urn:epc:id:sgcn:" ++ C ++ '.' :: I ++ '.' :: S) = .ok x) :
    ∃ k, KeyOf 13 (C ++ I) k ∧ x.gs1ElementString = .ok (py "(255)" ++ k ++ S) := by
  obtain ⟨C', J, S', ⟨⟨_, hC'⟩, hI', _⟩, ⟨hl, _⟩, e, rfl⟩ := SGCN.new_iff.1 hu
  have e' : py "urn:epc:id:sgcn" ++ ':' :: (C ++ '.' :: (I ++ '.' :: S)) = py "urn:epc:id:sgcn" ++ ':' :: (C' ++ '.' :: (J ++ '.' :: S')) := by
    rw [← e]; simp
  obtain ⟨rfl, rfl, rfl⟩ := uri3_inj hC hI hC'.no_dot hI'.no_dot e'
  refine ⟨_, keyOf_check (Dec.append.2 ⟨hC', hI'⟩) (by simp only [List.length_append]; omega), ?_⟩
  unfold SGCN.gs1ElementString
  simp

/-- SGCN: what the element string determines. -/
theorem C62_sgcn_determines (C I S C' I' S' : Str) (x y : SGCN)
    (hC : '.' ∉ C) (hI : '.' ∉ I) (hu : SGCN.new (py "urn:epc:id:sgcn:" ++ C ++ '.' :: I ++ '.' :: S) = .ok x)
    (hC' : '.' ∉ C') (hI' : '.' ∉ I') (hv : SGCN.new (py "urn:epc:id:sgcn:" ++ C' ++ '.' :: I' ++ '.' :: S') = .ok y)
    (hl : C.length = C'.length) (h : x.gs1ElementString = y.gs1ElementString) :
    C = C' ∧ I = I' ∧ S = S' := by
  obtain ⟨k, hk, e⟩ := C62_sgcn C I S x hC hI hu
  obtain ⟨k', hk', e'⟩ := C62_sgcn C' I' S' y hC' hI' hv
  rw [e, e', Except.ok.injEq] at h
  simp only [List.append_assoc] at h
  obtain ⟨h1, h2⟩ := key_tail_inj hk hk' (List.append_cancel_left h)
  exact ⟨(List.append_inj h1 hl).1, (List.append_inj h1 hl).2, h2⟩

private theorem headD_split_takeWhile (s : Str) : (split ':' s).headD [] = s.takeWhile (· ≠ ':') := by
  obtain ⟨t, e, hn, ht⟩ := split_head_form ':' s
  generalize (split ':' s).headD [] = a at e hn
  subst e
  rw [List.takeWhile_append_of_pos (by intro c hc; simp; rintro rfl; exact hn hc)]
  rcases ht with rfl | ht
  · simp
  · cases t with
    | nil => cases ht
    | cons c t =>
      injection ht with ht
      subst ht
      simp

/-- GIAI (no check digit): `(8004)`, company prefix, asset reference up to the first colon. -/
theorem C62_giai (C S : Str) (x : GIAI)
    (hC : '.' ∉ C) (hu : GIAI.new (py "urn:epc:id:giai:" ++ C ++ '.' :: S) = .ok x) :
    x.gs1ElementString = .ok (py "(8004)" ++ C ++ unescapeWith uriEscapes (S.takeWhile (· ≠ ':'))) := by
  obtain ⟨C', S', ⟨⟨_, hC'⟩, _⟩, _, e, rfl⟩ := GIAI.new_iff.1 hu
  have e' : py "urn:epc:id:giai" ++ ':' :: (C ++ '.' :: S) = py "urn:epc:id:giai" ++ ':' :: (C' ++ '.' :: S') := by
    rw [← e]; simp
  obtain ⟨rfl, rfl⟩ := uri2_inj hC hC'.no_dot e'
  rw [← replaceUriEscapes_eq]
  rw [← headD_split_takeWhile]
  unfold GIAI.gs1ElementString
  simp

/-- GIAI: what the element string determines. -/
theorem C62_giai_determines (C S C' S' : Str) (x y : GIAI)
    (hC : '.' ∉ C) (hu : GIAI.new (py "urn:epc:id:giai:" ++ C ++ '.' :: S) = .ok x)
    (hC' : '.' ∉ C') (hv : GIAI.new (py "urn:epc:id:giai:" ++ C' ++ '.' :: S') = .ok y)
    (hl : C.length = C'.length) (h : x.gs1ElementString = y.gs1ElementString) :
    C = C' ∧ unescapeWith uriEscapes (S.takeWhile (· ≠ ':')) = unescapeWith uriEscapes (S'.takeWhile (· ≠ ':')) := by
  rw [C62_giai C S x hC hu, C62_giai C' S' y hC' hv, Except.ok.injEq] at h
  simp only [List.append_assoc] at h
  exact List.append_inj (List.append_cancel_left h) hl

/-- GINC (no check digit): `(401)`, company prefix, consignment reference. -/
theorem C62_ginc (C S : Str) (x : GINC)
    (hC : '.' ∉ C) (hu : GINC.new (py "urn:epc:id:ginc:" ++ C ++ '.' :: S) = .ok x) :
    x.gs1ElementString = .ok (py "(401)" ++ C ++ unescapeWith uriEscapes S) := by
  obtain ⟨C', S', ⟨⟨_, hC'⟩, _⟩, _, e, rfl⟩ := GINC.new_iff.1 hu
  have e' : py "urn:epc:id:ginc" ++ ':' :: (C ++ '.' :: S) = py "urn:epc:id:ginc" ++ ':' :: (C' ++ '.' :: S') := by
    rw [← e]; simp
  obtain ⟨rfl, rfl⟩ := uri2_inj hC hC'.no_dot e'
  rw [← replaceUriEscapes_eq]
  unfold GINC.gs1ElementString
  simp

/-- GINC: what the element string determines. -/
theorem C62_ginc_determines (C S C' S' : Str) (x y : GINC)
    (hC : '.' ∉ C) (hu : GINC.new (py "urn:epc:id:ginc:" ++ C ++ '.' :: S) = .ok x)
    (hC' : '.' ∉ C') (hv : GINC.new (py "urn:epc:id:ginc:" ++ C' ++ '.' :: S') = .ok y)
    (hl : C.length = C'.length) (h : x.gs1ElementString = y.gs1ElementString) :
    C = C' ∧ unescapeWith uriEscapes S = unescapeWith uriEscapes S' := by
  rw [C62_ginc C S x hC hu, C62_ginc C' S' y hC' hv, Except.ok.injEq] at h
  simp only [List.append_assoc] at h
  exact List.append_inj (List.append_cancel_left h) hl

/-- CPI: `(8010)`, company prefix, component/part reference, `(8011)`, serial.  In the URI the characters `#` and `/` of the reference are written `%23` and `%2F`. -/
theorem C62_cpi (C D S : Str) (x : CPI)
    (hC : '.' ∉ C) (hD : '.' ∉ D) (hu : CPI.new (py "urn:epc:id:cpi:" ++ C ++ '.' :: D ++ '.' :: S) = .ok x) :
    ∃ raw, (raw ≠ [] ∧ ∀ c ∈ raw, c ∈ gs39) ∧ D = escape39 raw ∧ x.gs1ElementString = .ok (py "(8010)" ++ C ++ raw ++ py "(8011)" ++ S) := by
  obtain ⟨C', D', S', ⟨⟨_, hC'⟩, hD', _⟩, _, e, rfl⟩ := CPI.new_iff.1 hu
  have e' : py "urn:epc:id:cpi" ++ ':' :: (C ++ '.' :: (D ++ '.' :: S)) = py "urn:epc:id:cpi" ++ ':' :: (C' ++ '.' :: (D' ++ '.' :: S')) := by
    rw [← e]; simp
  obtain ⟨rfl, rfl, rfl⟩ := uri3_inj hC hD hC'.no_dot (cpref_no_dot hD') e'
  obtain ⟨raw, h0, h1, rfl⟩ := (lang_cpref _).1 hD'
  refine ⟨raw, ⟨h0, h1⟩, rfl, ?_⟩
  unfold CPI.gs1ElementString
  dsimp only
  rw [replaceCpi_escape39 h1]

/-- CPI: what the element string determines. -/
theorem C62_cpi_determines (C D S C' D' S' : Str) (x y : CPI)
    (hC : '.' ∉ C) (hD : '.' ∉ D) (hu : CPI.new (py "urn:epc:id:cpi:" ++ C ++ '.' :: D ++ '.' :: S) = .ok x)
    (hC' : '.' ∉ C') (hD' : '.' ∉ D') (hv : CPI.new (py "urn:epc:id:cpi:" ++ C' ++ '.' :: D' ++ '.' :: S') = .ok y)
    (hl : C.length = C'.length) (h : x.gs1ElementString = y.gs1ElementString) :
    C = C' ∧ D = D' ∧ S = S' := by
  obtain ⟨r, ⟨_, hr⟩, rfl, e⟩ := C62_cpi C D S x hC hD hu
  obtain ⟨r', ⟨_, hr'⟩, rfl, e'⟩ := C62_cpi C' D' S' y hC' hD' hv
  rw [e, e', Except.ok.injEq] at h
  simp only [List.append_assoc] at h
  obtain ⟨h1, h2⟩ := List.append_inj (List.append_cancel_left h) hl
  have hp : ∀ c ∈ gs39, c ≠ '(' := by decide
  have h2' : r ++ '(' :: (py "8011)" ++ S) = r' ++ '(' :: (py "8011)" ++ S') := h2
  obtain ⟨rfl, h3⟩ := append_sep_inj (fun hm => hp _ (hr _ hm) rfl) (fun hm => hp _ (hr' _ hm) rfl) h2'
  exact ⟨h1, rfl, List.append_cancel_left h3⟩

/-! ### Non-vacuity -/

example : ((SGTIN.new (py "urn:epc:id:sgtin:9521141.012345.a%2f%2F%25")).toOption.map (·.gs1ElementString)) = some (.ok (py "(01)09521141123454(21)a%2f/%")) := by decide +kernel
example : ((LGTIN.new (py "urn:epc:class:lgtin:9521141.012345.32a%2Fb")).toOption.map (·.gs1ElementString)) = some (.ok (py "(01)09521141123454(10)32a/b")) := by decide +kernel
example : ((UPUI.new (py "urn:epc:id:upui:9521141.089456.51qIgY)%3C%26Jp3*j7(SDB")).toOption.map (·.gs1ElementString)) = some (.ok (py "(01)09521141894569(235)51qIgY)<&Jp3*j7(SDB")) := by decide +kernel
example : ((ITIP.new (py "urn:epc:id:itip:9521141.012345.04.04.32a%2Fb")).toOption.map (·.gs1ElementString)) = some (.ok (py "(8006)095211411234540404(21)32a/b")) := by decide +kernel
example : ((SSCC.new (py "urn:epc:id:sscc:9521141.1234567890")).toOption.map (·.gs1ElementString)) = some (.ok (py "(00)195211412345678900")) := by decide +kernel
example : ((GSRN.new (py "urn:epc:id:gsrn:9521141.1234567890")).toOption.map (·.gs1ElementString)) = some (.ok (py "(8018)952114112345678906")) := by decide +kernel
example : ((GSRNP.new (py "urn:epc:id:gsrnp:9521141.1234567890")).toOption.map (·.gs1ElementString)) = some (.ok (py "(8017)952114112345678906")) := by decide +kernel
example : ((PGLN.new (py "urn:epc:id:pgln:9521141.89012")).toOption.map (·.gs1ElementString)) = some (.ok (py "(417)9521141890127")) := by decide +kernel
example : ((GSIN.new (py "urn:epc:id:gsin:9521141.123456789")).toOption.map (·.gs1ElementString)) = some (.ok (py "(402)95211411234567892")) := by decide +kernel
example : ((SGLN.new (py "urn:epc:id:sgln:9521141.12345.32a%2Fb")).toOption.map (·.gs1ElementString)) = some (.ok (py "(414)9521141123454(254)32a/b")) := by decide +kernel
example : ((GRAI.new (py "urn:epc:id:grai:9521141.12345.32a%2Fb")).toOption.map (·.gs1ElementString)) = some (.ok (py "(8003)0952114112345432a/b")) := by decide +kernel
example : ((GDTI.new (py "urn:epc:id:gdti:9521141.12345.ABCD%2F5")).toOption.map (·.gs1ElementString)) = some (.ok (py "(253)9521141123454ABCD/5")) := by decide +kernel
example : ((SGCN.new (py "urn:epc:id:sgcn:9521141.67890.04711")).toOption.map (·.gs1ElementString)) = some (.ok (py "(255)952114167890904711")) := by decide +kernel
example : ((GIAI.new (py "urn:epc:id:giai:9521141.12345a%2Fb:x")).toOption.map (·.gs1ElementString)) = some (.ok (py "(8004)952114112345a/b")) := by decide +kernel
example : ((GINC.new (py "urn:epc:id:ginc:9521141.xyz%2F11")).toOption.map (·.gs1ElementString)) = some (.ok (py "(401)9521141xyz/11")) := by decide +kernel
example : ((CPI.new (py "urn:epc:id:cpi:9521141.11%2334.1")).toOption.map (·.gs1ElementString)) = some (.ok (py "(8010)952114111#34(8011)1")) := by decide +kernel

/-- Two different URIs with the same element string: lower-case escapes are not replaced, so the unescaped serials are equal. -/
example : ((SGTIN.new (py "urn:epc:id:sgtin:9521141.012345.a%252f")).toOption.map (·.gs1ElementString)) =
    ((SGTIN.new (py "urn:epc:id:sgtin:9521141.012345.a%2f")).toOption.map (·.gs1ElementString)) := by decide +kernel

/-- Without the hypothesis on the lengths the element string does not determine the company prefix. -/
example : ((SSCC.new (py "urn:epc:id:sscc:9521141.1234567890")).toOption.map (·.gs1ElementString)) =
    ((SSCC.new (py "urn:epc:id:sscc:95211412.134567890")).toOption.map (·.gs1ElementString)) := by decide +kernel

end Epc
