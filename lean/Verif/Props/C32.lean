/-
C32: GS1 element strings round-trip.

For an accepted object, `gs1_element_string()` followed by `from_gs1_element_string(…, length of the company prefix)` gives the same
object back.  "Canonical components" means that the serial is the URI escape of the raw text that stands in the element string.

The claim is false in general: SGTIN, LGTIN and SGLN split the element string with a regular expression at every parenthesised group
of two (three) characters, so that a serial which contains such a group is refused with a `ValueError`; GIAI cuts its asset
reference at a colon; ITIP assumes two-digit piece and total numbers.
`HasGroup k raw`: the text contains a parenthesised group of `k` characters.
Generated by tools/gen_c32.py.
-/
import Verif.Lemmas.ElemParse

namespace Epc
open Spec Re

/-- SGTIN: the object comes back, unless the serial contains a parenthesised group of two characters; then `ValueError`. -/
theorem C32_sgtin_partial (u : Str) (x : SGTIN) (raw : Str) (hu : SGTIN.new u = .ok x) (hs : x.serial = escape raw) :
    ∃ s, x.gs1ElementString = .ok s ∧
      (¬ HasGroup 2 raw → SGTIN.fromGs1ElementString s x.companyPref.length = .ok x) ∧
      (HasGroup 2 raw → ∀ n, SGTIN.fromGs1ElementString s n = .error .value) := by
  obtain ⟨C, I, S, ⟨⟨_, hC⟩, ⟨hI0, hI⟩, hS⟩, ⟨hl, _, _, h1, h2⟩, rfl, rfl⟩ := SGTIN.new_iff.1 hu
  dsimp only at hs ⊢
  subst hs
  rw [replaceUriEscapes_escape] at h1 h2
  have hr := gs82_of_escape hS rfl
  cases I with
  | nil => exact absurd rfl hI0
  | cons i I => ?_
  obtain ⟨k, hk, hkd⟩ := natStr_uCheck_single (keyBody C (i :: I))
  rw [List.length_cons] at hl
  have hI' := Dec.cons.1 hI
  have hd : Dec (i :: (C ++ (I ++ [k]))) := Dec.cons.2 ⟨hI'.1, Dec.append.2 ⟨hC, Dec.append.2 ⟨hI'.2, hkd⟩⟩⟩
  have hlen : (i :: (C ++ (I ++ [k]))).length = 14 := by
    simp only [List.length_append, List.length_cons, List.length_nil]; omega
  have hkey : padLeft '0' 14 (keyBody C (i :: I) ++ natStr (uCheck (keyBody C (i :: I)))) = i :: (C ++ (I ++ [k])) := by
    rw [hk]
    have e : keyBody C (i :: I) ++ [k] = i :: (C ++ (I ++ [k])) := by simp [keyBody]
    rw [e]; exact padLeft_of_le (by omega)
  refine ⟨py "(01)" ++ (i :: (C ++ (I ++ [k])) ++ (py "(21)" ++ raw)), ?_, ?_, ?_⟩
  · unfold SGTIN.gs1ElementString
    dsimp only
    rw [hkey, replaceUriEscapes_escape]
    simp
  · intro hg
    exact (SGTIN.from_iff _ _ _).2 ⟨i, C, I, k, raw, ⟨hd, by omega⟩, ⟨hr, h1, h2⟩, hg, clampIdx_one_add (by omega), rfl, hu⟩
  · intro hg n
    exact SGTIN.from_group n hd hlen ⟨hr, h1, h2⟩ hg

/-- LGTIN: the same with the lot number; `u` is the URI with the canonical escape of the lot. -/
theorem C32_lgtin_partial (u : Str) (x : LGTIN) (hu : LGTIN.new u = .ok x)
    (hs : u = py "urn:epc:class:lgtin:" ++ x.companyPref ++ '.' :: x.itemRef ++ '.' :: escape x.lot) :
    ∃ s, x.gs1ElementString = .ok s ∧
      (¬ HasGroup 2 x.lot → LGTIN.fromGs1ElementString s x.companyPref.length = .ok x) ∧
      (HasGroup 2 x.lot → ∀ n, LGTIN.fromGs1ElementString s n = .error .value) := by
  obtain ⟨C, I, S, ⟨⟨_, hC⟩, ⟨hI0, hI⟩, hS⟩, ⟨hl, _, _, h1, h2⟩, e, rfl⟩ := LGTIN.new_iff.1 hu
  dsimp only at hs ⊢
  have hS' := unescaped_gs82 hS
  generalize hraw : replaceUriEscapes S = raw at *
  cases I with
  | nil => exact absurd rfl hI0
  | cons i I => ?_
  obtain ⟨k, hk, hkd⟩ := natStr_uCheck_single (keyBody C (i :: I))
  rw [List.length_cons] at hl
  have hI' := Dec.cons.1 hI
  have hd : Dec (i :: (C ++ (I ++ [k]))) := Dec.cons.2 ⟨hI'.1, Dec.append.2 ⟨hC, Dec.append.2 ⟨hI'.2, hkd⟩⟩⟩
  have hlen : (i :: (C ++ (I ++ [k]))).length = 14 := by
    simp only [List.length_append, List.length_cons, List.length_nil]; omega
  have hkey : padLeft '0' 14 (keyBody C (i :: I) ++ natStr (uCheck (keyBody C (i :: I)))) = i :: (C ++ (I ++ [k])) := by
    rw [hk]
    have e : keyBody C (i :: I) ++ [k] = i :: (C ++ (I ++ [k])) := by simp [keyBody]
    rw [e]; exact padLeft_of_le (by omega)
  refine ⟨py "(01)" ++ (i :: (C ++ (I ++ [k])) ++ (py "(10)" ++ raw)), ?_, ?_, ?_⟩
  · unfold LGTIN.gs1ElementString
    dsimp only
    rw [hkey]
    simp
  · intro hg
    refine (LGTIN.from_iff _ _ _).2 ⟨i, C, I, k, raw, ⟨hd, by omega⟩, ⟨hS', h1, h2⟩, hg, clampIdx_one_add (by omega), rfl, ?_⟩
    rw [← hu, hs]
    congr 1
    simp
  · intro hg n
    exact LGTIN.from_group n hd hlen ⟨hS', h1, h2⟩ hg

/-- UPUI: an object with an item reference comes back (`from_gs1_element_string` cuts the string at fixed positions). -/
theorem C32_upui_partial (u : Str) (x : UPUI) (hi : x.itemRef ≠ []) (hu : UPUI.new u = .ok x)
    (hs : u = py "urn:epc:id:upui:" ++ x.companyPref ++ '.' :: x.itemRef ++ '.' :: escape x.tpx) :
    ∃ s, x.gs1ElementString = .ok s ∧ UPUI.fromGs1ElementString s x.companyPref.length = .ok x := by
  obtain ⟨C, I, S, ⟨⟨_, hC⟩, hI, hS⟩, ⟨hl, _, h1, h2⟩, e, rfl⟩ := UPUI.new_iff.1 hu
  dsimp only at hs hi ⊢
  have hS' := unescaped_gs82 hS
  generalize hraw : replaceUriEscapes S = raw at *
  cases I with
  | nil => exact absurd rfl hi
  | cons i I => ?_
  obtain ⟨k, hk, hkd⟩ := natStr_uCheck_single (i :: (C ++ I))
  rw [List.length_cons] at hl
  have hI' := Dec.cons.1 hI
  have hd : Dec (i :: (C ++ (I ++ [k]))) := Dec.cons.2 ⟨hI'.1, Dec.append.2 ⟨hC, Dec.append.2 ⟨hI'.2, hkd⟩⟩⟩
  refine ⟨py "(01)" ++ (i :: (C ++ (I ++ [k])) ++ (py "(235)" ++ raw)), ?_, ?_⟩
  · unfold UPUI.gs1ElementString
    dsimp only
    rw [show getIdx (i :: I) 0 = .ok i from rfl, ok_bind, show (i :: I).drop 1 = I from rfl, show i :: C ++ I = i :: (C ++ I) from rfl,
      checksum_dec (Dec.cons.2 ⟨hI'.1, Dec.append.2 ⟨hC, hI'.2⟩⟩), ok_bind, hk, pure_ok]
    simp
  · refine (UPUI.from_iff _ _ _).2 ⟨i, C, I, k, raw, ⟨hd, by omega⟩, ⟨hS', h1, h2⟩, clampIdx_one_add (by omega), rfl, ?_⟩
    rw [← hu, hs]
    congr 1
    simp

/-- ITIP: an object with two-digit piece and total numbers comes back. -/
theorem C32_itip_partial (u : Str) (x : ITIP) (raw : Str) (hu : ITIP.new u = .ok x) (hs : x.serial = escape raw)
    (hp : x.piece.length = 2) (ht : x.total.length = 2) :
    ∃ s, x.gs1ElementString = .ok s ∧ ITIP.fromGs1ElementString s x.companyPref.length = .ok x := by
  obtain ⟨C, I, A, B, S, ⟨⟨_, hC⟩, ⟨hI0, hI⟩, ⟨_, hA⟩, ⟨_, hB⟩, hS⟩, ⟨hl, _, _, h1, h2⟩, rfl, rfl⟩ := ITIP.new_iff.1 hu
  dsimp only at hs hp ht ⊢
  subst hs
  rw [replaceUriEscapes_escape] at h1 h2
  have hr := gs82_of_escape hS rfl
  cases I with
  | nil => exact absurd rfl hI0
  | cons i I => ?_
  obtain ⟨k, hk, hkd⟩ := natStr_uCheck_single (i :: (C ++ I))
  rw [List.length_cons] at hl
  have hI' := Dec.cons.1 hI
  have hd : Dec (i :: (C ++ (I ++ (k :: (A ++ B))))) :=
    Dec.cons.2 ⟨hI'.1, Dec.append.2 ⟨hC, Dec.append.2 ⟨hI'.2, Dec.cons.2 ⟨(Dec.cons.1 hkd).1, Dec.append.2 ⟨hA, hB⟩⟩⟩⟩⟩
  refine ⟨py "(8006)" ++ (i :: (C ++ (I ++ (k :: (A ++ B)))) ++ (py "(21)" ++ raw)), ?_, ?_⟩
  · unfold ITIP.gs1ElementString
    dsimp only
    rw [show getIdx (i :: I) 0 = .ok i from rfl, ok_bind, show (i :: I).drop 1 = I from rfl, show i :: C ++ I = i :: (C ++ I) from rfl,
      checksum_dec (Dec.cons.2 ⟨hI'.1, Dec.append.2 ⟨hC, hI'.2⟩⟩), ok_bind, hk, replaceUriEscapes_escape, pure_ok]
    simp
  · exact (ITIP.from_iff _ _ _).2 ⟨i, C, I, k, A, B, raw, ⟨hd, by omega, hp, ht⟩, ⟨hr, h1, h2⟩, clampIdx_one_add (by omega), rfl, hu⟩

/-- SGLN: the object comes back, unless the extension contains a parenthesised group of three characters; then `ValueError`. -/
theorem C32_sgln_partial (u : Str) (x : SGLN) (raw : Str) (hu : SGLN.new u = .ok x) (hs : x.serial = escape raw) :
    ∃ s, x.gs1ElementString = .ok s ∧
      (¬ HasGroup 3 raw → SGLN.fromGs1ElementString s x.companyPref.length = .ok x) ∧
      (HasGroup 3 raw → ∀ n, SGLN.fromGs1ElementString s n = .error .value) := by
  obtain ⟨C, I, S, ⟨⟨_, hC⟩, hI, hS⟩, ⟨hl, _, _, h2⟩, rfl, rfl⟩ := SGLN.new_iff.1 hu
  dsimp only at hs ⊢
  subst hs
  rw [replaceUriEscapes_escape] at h2
  have hr := gs82_of_escape hS rfl
  have h1 := raw_pos hS rfl
  obtain ⟨k, hk, hkd⟩ := natStr_uCheck_single (C ++ I)
  have hd : Dec (C ++ (I ++ [k])) := Dec.append.2 ⟨hC, Dec.append.2 ⟨hI, hkd⟩⟩
  have hlen : (C ++ (I ++ [k])).length = 13 := by
    simp only [List.length_append, List.length_cons, List.length_nil]; omega
  refine ⟨py "(414)" ++ (C ++ (I ++ [k]) ++ (py "(254)" ++ raw)), ?_, ?_, ?_⟩
  · unfold SGLN.gs1ElementString
    dsimp only
    rw [hk, replaceUriEscapes_escape]
    simp
  · intro hg
    exact (SGLN.from_iff _ _ _).2 ⟨C, I, k, raw, ⟨hd, hl⟩, ⟨hr, h1, h2⟩, hg, clampIdx_nat (by omega), rfl, hu⟩
  · intro hg n
    exact SGLN.from_group n hd hlen ⟨hr, h1, h2⟩ hg

/-- SSCC: every accepted object comes back. -/
theorem C32_sscc (u : Str) (x : SSCC) (hu : SSCC.new u = .ok x) :
    ∃ s, x.gs1ElementString = .ok s ∧ SSCC.fromGs1ElementString s x.companyPref.length = .ok x := by
  obtain ⟨C, I, ⟨⟨_, hC⟩, ⟨hI0, hI⟩⟩, ⟨hl, _, _⟩, rfl, rfl⟩ := SSCC.new_iff.1 hu
  dsimp only
  cases I with
  | nil => exact absurd rfl hI0
  | cons i I => ?_
  obtain ⟨k, hk, hkd⟩ := natStr_uCheck_single (keyBody C (i :: I))
  rw [List.length_cons] at hl
  have hI' := Dec.cons.1 hI
  refine ⟨py "(00)" ++ (i :: (C ++ (I ++ [k]))), ?_, ?_⟩
  · unfold SSCC.gs1ElementString
    dsimp only
    rw [hk]
    simp [keyBody]
  · exact (SSCC.from_iff _ _ _).2 ⟨i, C, I, k,
      ⟨Dec.cons.2 ⟨hI'.1, Dec.append.2 ⟨hC, Dec.append.2 ⟨hI'.2, hkd⟩⟩⟩, by omega⟩, clampIdx_one_add (by omega), rfl, hu⟩

/-- GSRN: every accepted object comes back. -/
theorem C32_gsrn (u : Str) (x : GSRN) (hu : GSRN.new u = .ok x) :
    ∃ s, x.gs1ElementString = .ok s ∧ GSRN.fromGs1ElementString s x.companyPref.length = .ok x := by
  obtain ⟨C, I, ⟨⟨_, hC⟩, ⟨_, hI⟩⟩, ⟨hl, _, _⟩, rfl, rfl⟩ := GSRN.new_iff.1 hu
  dsimp only
  obtain ⟨k, hk, hkd⟩ := natStr_uCheck_single (C ++ I)
  refine ⟨py "(8018)" ++ (C ++ (I ++ [k])), ?_, ?_⟩
  · unfold GSRN.gs1ElementString
    dsimp only
    rw [hk]
    simp
  · exact (GSRN.from_iff _ _ _).2 ⟨C, I, k, ⟨Dec.append.2 ⟨hC, Dec.append.2 ⟨hI, hkd⟩⟩, hl⟩, clampIdx_nat (by omega), rfl, hu⟩

/-- GSRNP: every accepted object comes back. -/
theorem C32_gsrnp (u : Str) (x : GSRNP) (hu : GSRNP.new u = .ok x) :
    ∃ s, x.gs1ElementString = .ok s ∧ GSRNP.fromGs1ElementString s x.companyPref.length = .ok x := by
  obtain ⟨C, I, ⟨⟨_, hC⟩, ⟨_, hI⟩⟩, ⟨hl, _, _⟩, rfl, rfl⟩ := GSRNP.new_iff.1 hu
  dsimp only
  obtain ⟨k, hk, hkd⟩ := natStr_uCheck_single (C ++ I)
  refine ⟨py "(8017)" ++ (C ++ (I ++ [k])), ?_, ?_⟩
  · unfold GSRNP.gs1ElementString
    dsimp only
    rw [hk]
    simp
  · exact (GSRNP.from_iff _ _ _).2 ⟨C, I, k, ⟨Dec.append.2 ⟨hC, Dec.append.2 ⟨hI, hkd⟩⟩, hl⟩, clampIdx_nat (by omega), rfl, hu⟩

/-- PGLN: every accepted object comes back. -/
theorem C32_pgln (u : Str) (x : PGLN) (hu : PGLN.new u = .ok x) :
    ∃ s, x.gs1ElementString = .ok s ∧ PGLN.fromGs1ElementString s x.companyPref.length = .ok x := by
  obtain ⟨C, I, ⟨⟨_, hC⟩, hI⟩, ⟨hl, _, _⟩, rfl, rfl⟩ := PGLN.new_iff.1 hu
  dsimp only
  obtain ⟨k, hk, hkd⟩ := natStr_uCheck_single (C ++ I)
  refine ⟨py "(417)" ++ (C ++ (I ++ [k])), ?_, ?_⟩
  · unfold PGLN.gs1ElementString
    dsimp only
    rw [hk]
    simp
  · exact (PGLN.from_iff _ _ _).2 ⟨C, I, k, ⟨Dec.append.2 ⟨hC, Dec.append.2 ⟨hI, hkd⟩⟩, hl⟩, clampIdx_nat (by omega), rfl, hu⟩

/-- GSIN: every accepted object comes back. -/
theorem C32_gsin (u : Str) (x : GSIN) (hu : GSIN.new u = .ok x) :
    ∃ s, x.gs1ElementString = .ok s ∧ GSIN.fromGs1ElementString s x.companyPref.length = .ok x := by
  obtain ⟨C, I, ⟨⟨_, hC⟩, ⟨_, hI⟩⟩, ⟨hl, _, _⟩, rfl, rfl⟩ := GSIN.new_iff.1 hu
  dsimp only
  obtain ⟨k, hk, hkd⟩ := natStr_uCheck_single (C ++ I)
  refine ⟨py "(402)" ++ (C ++ (I ++ [k])), ?_, ?_⟩
  · unfold GSIN.gs1ElementString
    dsimp only
    rw [hk]
    simp
  · exact (GSIN.from_iff _ _ _).2 ⟨C, I, k, ⟨Dec.append.2 ⟨hC, Dec.append.2 ⟨hI, hkd⟩⟩, hl⟩, clampIdx_nat (by omega), rfl, hu⟩

/-- GRAI: every accepted object with a canonical serial comes back. -/
theorem C32_grai (u : Str) (x : GRAI) (raw : Str) (hu : GRAI.new u = .ok x) (hs : x.serial = escape raw) :
    ∃ s, x.gs1ElementString = .ok s ∧ GRAI.fromGs1ElementString s x.companyPref.length = .ok x := by
  obtain ⟨C, I, S, ⟨⟨_, hC⟩, hI, hS⟩, ⟨hl, _, _, h2⟩, rfl, rfl⟩ := GRAI.new_iff.1 hu
  dsimp only at hs ⊢
  subst hs
  have h3 := length_replaceUriEscapes_le (escape raw)
  rw [replaceUriEscapes_escape] at h3
  have hr := gs82_of_escape hS rfl
  have h1 := raw_pos hS rfl
  obtain ⟨k, hk, hkd⟩ := natStr_uCheck_single (C ++ I)
  refine ⟨py "(8003)0" ++ (C ++ (I ++ [k]) ++ raw), ?_, ?_⟩
  · unfold GRAI.gs1ElementString
    dsimp only
    rw [hk, replaceUriEscapes_escape]
    simp
  · exact (GRAI.from_iff _ _ _).2 ⟨C, I, k, raw, ⟨Dec.append.2 ⟨hC, Dec.append.2 ⟨hI, hkd⟩⟩, hl⟩, ⟨hr, h1, by omega⟩,
      clampIdx_nat (by omega), rfl, hu⟩

/-- GDTI: every accepted object with a canonical serial comes back. -/
theorem C32_gdti (u : Str) (x : GDTI) (raw : Str) (hu : GDTI.new u = .ok x) (hs : x.serial = escape raw) :
    ∃ s, x.gs1ElementString = .ok s ∧ GDTI.fromGs1ElementString s x.companyPref.length = .ok x := by
  obtain ⟨C, I, S, ⟨⟨_, hC⟩, hI, hS⟩, ⟨hl, _, _, h2⟩, rfl, rfl⟩ := GDTI.new_iff.1 hu
  dsimp only at hs ⊢
  subst hs
  have h3 := length_replaceUriEscapes_le (escape raw)
  rw [replaceUriEscapes_escape] at h3
  have hr := gs82_of_escape hS rfl
  have h1 := raw_pos hS rfl
  obtain ⟨k, hk, hkd⟩ := natStr_uCheck_single (C ++ I)
  refine ⟨py "(253)" ++ (C ++ (I ++ [k]) ++ raw), ?_, ?_⟩
  · unfold GDTI.gs1ElementString
    dsimp only
    rw [hk, replaceUriEscapes_escape]
    simp
  · exact (GDTI.from_iff _ _ _).2 ⟨C, I, k, raw, ⟨Dec.append.2 ⟨hC, Dec.append.2 ⟨hI, hkd⟩⟩, hl⟩, ⟨hr, h1, by omega⟩,
      clampIdx_nat (by omega), rfl, hu⟩

/-- SGCN: every accepted object with a serial of ASCII digits comes back. -/
theorem C32_sgcn (u : Str) (x : SGCN) (hu : SGCN.new u = .ok x) (hs : Ascii x.serial) :
    ∃ s, x.gs1ElementString = .ok s ∧ SGCN.fromGs1ElementString s x.companyPref.length = .ok x := by
  obtain ⟨C, I, S, ⟨⟨_, hC⟩, hI, hS0, hS⟩, ⟨hl, h2, _⟩, rfl, rfl⟩ := SGCN.new_iff.1 hu
  dsimp only at hs ⊢
  have hSd := digits_of_dec_ascii hS hs
  have hr : ∀ c ∈ S, c ∈ gs82 := gs82_of_digits hSd
  obtain ⟨k, hk, hkd⟩ := natStr_uCheck_single (C ++ I)
  refine ⟨py "(255)" ++ (C ++ (I ++ [k]) ++ S), ?_, ?_⟩
  · unfold SGCN.gs1ElementString
    dsimp only
    rw [hk]
    simp
  · refine (SGCN.from_iff _ _ _).2 ⟨C, I, k, S, ⟨Dec.append.2 ⟨hC, Dec.append.2 ⟨hI, hkd⟩⟩, hl⟩,
      ⟨hr, List.length_pos_iff.2 hS0, h2⟩, clampIdx_nat (by omega), rfl, ?_⟩
    rw [escape_digits hSd]
    exact hu

/-- GIAI: an object whose asset reference contains no colon comes back. -/
theorem C32_giai_partial (C raw : Str) (x : GIAI) (hu : GIAI.new (py "urn:epc:id:giai:" ++ C ++ '.' :: escape raw) = .ok x)
    (hC : '.' ∉ C) (hr : ':' ∉ raw) :
    ∃ s, x.gs1ElementString = .ok s ∧ GIAI.fromGs1ElementString s C.length = .ok x := by
  obtain ⟨C', S, ⟨⟨_, hC'⟩, hS⟩, ⟨hl, _, h2⟩, e, rfl⟩ := GIAI.new_iff.1 hu
  have e' : py "urn:epc:id:giai" ++ ':' :: (C ++ '.' :: escape raw) = py "urn:epc:id:giai" ++ ':' :: (C' ++ '.' :: S) := by
    rw [← e]; simp
  obtain ⟨rfl, rfl⟩ := uri2_inj hC hC'.no_dot e'
  rw [split_notMem (escape_no_colon hr)] at h2
  have h2' : C.length + (escape raw).length ≤ 30 := h2
  have h3 := length_replaceUriEscapes_le (escape raw)
  rw [replaceUriEscapes_escape] at h3
  refine ⟨py "(8004)" ++ (C ++ raw), ?_, ?_⟩
  · unfold GIAI.gs1ElementString
    dsimp only
    rw [split_notMem (escape_no_colon hr)]
    show Except.ok (_ ++ (_ ++ replaceUriEscapes (escape raw))) = _
    rw [replaceUriEscapes_escape]
  · refine (GIAI.from_iff _ _ _).2 ⟨C, raw,
      (GIAI.elem_lang _).2 ⟨C, raw, ⟨hC', hl⟩, ⟨gs82_of_escape hS rfl, raw_pos hS rfl, by omega⟩, rfl⟩, ?_, rfl, ?_⟩
    · rw [show (6 : Int) + C.length = ((6 + C.length : Nat) : Int) by omega]
      refine clampIdx_nat ?_
      rw [List.length_append, List.length_append, show (py "(8004)").length = 6 from rfl]; omega
    · rw [← hu]
      simp

/-- GINC: every accepted object with a canonical reference comes back. -/
theorem C32_ginc (C raw : Str) (x : GINC) (hu : GINC.new (py "urn:epc:id:ginc:" ++ C ++ '.' :: escape raw) = .ok x) (hC : '.' ∉ C) :
    ∃ s, x.gs1ElementString = .ok s ∧ GINC.fromGs1ElementString s C.length = .ok x := by
  obtain ⟨C', S, ⟨⟨_, hC'⟩, hS⟩, ⟨hl, _, _, h2⟩, e, rfl⟩ := GINC.new_iff.1 hu
  have e' : py "urn:epc:id:ginc" ++ ':' :: (C ++ '.' :: escape raw) = py "urn:epc:id:ginc" ++ ':' :: (C' ++ '.' :: S) := by
    rw [← e]; simp
  obtain ⟨rfl, rfl⟩ := uri2_inj hC hC'.no_dot e'
  rw [replaceUriEscapes_escape] at h2
  refine ⟨py "(401)" ++ (C ++ raw), ?_, ?_⟩
  · unfold GINC.gs1ElementString
    dsimp only
    rw [replaceUriEscapes_escape]
  · refine (GINC.from_iff _ _ _).2 ⟨C, raw,
      (GINC.elem_lang _).2 ⟨C, raw, ⟨hC', hl⟩, ⟨gs82_of_escape hS rfl, raw_pos hS rfl, by omega⟩, rfl⟩, ?_, rfl, ?_⟩
    · rw [show (5 : Int) + C.length = ((5 + C.length : Nat) : Int) by omega]
      refine clampIdx_nat ?_
      rw [List.length_append, List.length_append, show (py "(401)").length = 5 from rfl]; omega
    · rw [← hu]
      simp

/-- CPI: every accepted object comes back (all accepted references are canonical). -/
theorem C32_cpi (u : Str) (x : CPI) (hu : CPI.new u = .ok x) :
    ∃ s, x.gs1ElementString = .ok s ∧ CPI.fromGs1ElementString s x.companyPref.length = .ok x := by
  obtain ⟨C, D, S, ⟨⟨_, hC⟩, hD, hS⟩, ⟨h1, h2, h3⟩, rfl, rfl⟩ := CPI.new_iff.1 hu
  dsimp only
  obtain ⟨raw, hne, hr, rfl⟩ := (lang_cpref D).1 hD
  have hlen : raw.length ≤ (escape39 raw).length := length_escape39_ge raw
  have hm : Rx.cpiElem.fullmatch (py "(8010)" ++ (C ++ raw ++ (py "(8011)" ++ S))) = true :=
    (CPI.elem_lang _).2 ⟨C, raw, S, ⟨hC, h3⟩, ⟨hr, by omega⟩, ⟨hS.dec, List.length_pos_iff.2 (hS.ne_nil), h2⟩, by simp⟩
  refine ⟨py "(8010)" ++ (C ++ raw ++ (py "(8011)" ++ S)), ?_, ?_⟩
  · unfold CPI.gs1ElementString
    dsimp only
    rw [replaceCpi_escape39 hr]
    simp
  · refine (CPI.from_iff _ _ _).2 ⟨C, raw, S, hm, ⟨?_, hS.dec.no_paren⟩, ?_, rfl, hu⟩
    · intro hx
      rcases List.mem_append.1 hx with hx | hx
      · exact hC.no_paren hx
      · exact CPI.gs39_no_paren hr hx
    · exact clampIdx_nat (by rw [List.length_append]; omega)

/-! ### The claim is false in general -/

/-- What the claim says about one class. -/
def C32Claim (X : Type) (new : Str → Except Err X) (canonical : X → Prop) (elem : X → Except Err Str)
    (fromElem : Str → Int → Except Err X) (pref : X → Str) : Prop :=
  ∀ u x s, new u = .ok x → canonical x → elem x = .ok s → fromElem s (pref x).length = .ok x

/-- Counterexample: `urn:epc:id:sgtin:9521141.012345.a(bc)`. -/
theorem C32_sgtin_claim_false : ¬ C32Claim SGTIN SGTIN.new (fun x => Canonical x.serial) SGTIN.gs1ElementString SGTIN.fromGs1ElementString SGTIN.companyPref := by
  intro h
  have key : ((do
      let x ← SGTIN.new (py "urn:epc:id:sgtin:9521141.012345.a(bc)")
      let s ← x.gs1ElementString
      pure (decide (SGTIN.fromGs1ElementString s ((SGTIN.companyPref) x).length = .ok x), x) : Except Err (Bool × SGTIN))).map (·.1) = .ok false := by
    decide +kernel
  obtain ⟨⟨b, x⟩, hx, hb⟩ := map_ok_iff.1 key
  obtain ⟨x', hx', hrest⟩ := bind_ok_iff.1 hx
  obtain ⟨s, hs, hp⟩ := bind_ok_iff.1 hrest
  simp only [pure_ok, Except.ok.injEq, Prod.mk.injEq] at hp
  obtain ⟨hp, rfl⟩ := hp
  rw [← hp] at hb
  have hd := h _ _ s hx' ?_ hs
  · exact absurd hd (of_decide_eq_false hb)
  · have : (SGTIN.new (py "urn:epc:id:sgtin:9521141.012345.a(bc)")).map (SGTIN.serial) = .ok (py "a(bc)") := by decide +kernel
    rw [hx'] at this
    simp only [Except.map, Except.ok.injEq] at this
    refine ⟨py "a(bc)", by simp, by decide, ?_⟩
    rw [this]; decide
/-- Counterexample: `urn:epc:id:sgln:9521141.12345.a(bcd)`. -/
theorem C32_sgln_claim_false : ¬ C32Claim SGLN SGLN.new (fun x => Canonical x.serial) SGLN.gs1ElementString SGLN.fromGs1ElementString SGLN.companyPref := by
  intro h
  have key : ((do
      let x ← SGLN.new (py "urn:epc:id:sgln:9521141.12345.a(bcd)")
      let s ← x.gs1ElementString
      pure (decide (SGLN.fromGs1ElementString s ((SGLN.companyPref) x).length = .ok x), x) : Except Err (Bool × SGLN))).map (·.1) = .ok false := by
    decide +kernel
  obtain ⟨⟨b, x⟩, hx, hb⟩ := map_ok_iff.1 key
  obtain ⟨x', hx', hrest⟩ := bind_ok_iff.1 hx
  obtain ⟨s, hs, hp⟩ := bind_ok_iff.1 hrest
  simp only [pure_ok, Except.ok.injEq, Prod.mk.injEq] at hp
  obtain ⟨hp, rfl⟩ := hp
  rw [← hp] at hb
  have hd := h _ _ s hx' ?_ hs
  · exact absurd hd (of_decide_eq_false hb)
  · have : (SGLN.new (py "urn:epc:id:sgln:9521141.12345.a(bcd)")).map (SGLN.serial) = .ok (py "a(bcd)") := by decide +kernel
    rw [hx'] at this
    simp only [Except.map, Except.ok.injEq] at this
    refine ⟨py "a(bcd)", by simp, by decide, ?_⟩
    rw [this]; decide
/-- Counterexample: `urn:epc:id:itip:9521141.01234.04.123.a`. -/
theorem C32_itip_claim_false : ¬ C32Claim ITIP ITIP.new (fun x => Canonical x.serial) ITIP.gs1ElementString ITIP.fromGs1ElementString ITIP.companyPref := by
  intro h
  have key : ((do
      let x ← ITIP.new (py "urn:epc:id:itip:9521141.01234.04.123.a")
      let s ← x.gs1ElementString
      pure (decide (ITIP.fromGs1ElementString s ((ITIP.companyPref) x).length = .ok x), x) : Except Err (Bool × ITIP))).map (·.1) = .ok false := by
    decide +kernel
  obtain ⟨⟨b, x⟩, hx, hb⟩ := map_ok_iff.1 key
  obtain ⟨x', hx', hrest⟩ := bind_ok_iff.1 hx
  obtain ⟨s, hs, hp⟩ := bind_ok_iff.1 hrest
  simp only [pure_ok, Except.ok.injEq, Prod.mk.injEq] at hp
  obtain ⟨hp, rfl⟩ := hp
  rw [← hp] at hb
  have hd := h _ _ s hx' ?_ hs
  · exact absurd hd (of_decide_eq_false hb)
  · have : (ITIP.new (py "urn:epc:id:itip:9521141.01234.04.123.a")).map (ITIP.serial) = .ok (py "a") := by decide +kernel
    rw [hx'] at this
    simp only [Except.map, Except.ok.injEq] at this
    refine ⟨py "a", by simp, by decide, ?_⟩
    rw [this]; decide
/-- Counterexample: `urn:epc:class:lgtin:9521141.012345.a(bc)`. -/
theorem C32_lgtin_claim_false : ¬ C32Claim LGTIN LGTIN.new (fun x => x.epcUri = py "urn:epc:class:lgtin:" ++ x.companyPref ++ '.' :: x.itemRef ++ '.' :: escape x.lot) LGTIN.gs1ElementString LGTIN.fromGs1ElementString LGTIN.companyPref := by
  intro h
  have key : ((do
      let x ← LGTIN.new (py "urn:epc:class:lgtin:9521141.012345.a(bc)")
      let s ← x.gs1ElementString
      pure (decide (LGTIN.fromGs1ElementString s ((LGTIN.companyPref) x).length = .ok x), x) : Except Err (Bool × LGTIN))).map (·.1) = .ok false := by
    decide +kernel
  obtain ⟨⟨b, x⟩, hx, hb⟩ := map_ok_iff.1 key
  obtain ⟨x', hx', hrest⟩ := bind_ok_iff.1 hx
  obtain ⟨s, hs, hp⟩ := bind_ok_iff.1 hrest
  simp only [pure_ok, Except.ok.injEq, Prod.mk.injEq] at hp
  obtain ⟨hp, rfl⟩ := hp
  rw [← hp] at hb
  have hd := h _ _ s hx' ?_ hs
  · exact absurd hd (of_decide_eq_false hb)
  · have : (LGTIN.new (py "urn:epc:class:lgtin:9521141.012345.a(bc)")).map (fun x =>
        decide (x.epcUri = py "urn:epc:class:lgtin:" ++ x.companyPref ++ '.' :: x.itemRef ++ '.' :: escape x.lot)) = .ok true := by decide +kernel
    rw [hx'] at this
    simpa only [Except.map, Except.ok.injEq, decide_eq_true_eq] using this
/-- Counterexample: `urn:epc:id:giai:9521141.12:34`. -/
theorem C32_giai_claim_false : ¬ C32Claim GIAI GIAI.new (fun x => Canonical (x.epcUri.drop 24)) GIAI.gs1ElementString GIAI.fromGs1ElementString GIAI.companyPref := by
  intro h
  have key : ((do
      let x ← GIAI.new (py "urn:epc:id:giai:9521141.12:34")
      let s ← x.gs1ElementString
      pure (decide (GIAI.fromGs1ElementString s ((GIAI.companyPref) x).length = .ok x), x) : Except Err (Bool × GIAI))).map (·.1) = .ok false := by
    decide +kernel
  obtain ⟨⟨b, x⟩, hx, hb⟩ := map_ok_iff.1 key
  obtain ⟨x', hx', hrest⟩ := bind_ok_iff.1 hx
  obtain ⟨s, hs, hp⟩ := bind_ok_iff.1 hrest
  simp only [pure_ok, Except.ok.injEq, Prod.mk.injEq] at hp
  obtain ⟨hp, rfl⟩ := hp
  rw [← hp] at hb
  have hd := h _ _ s hx' ?_ hs
  · exact absurd hd (of_decide_eq_false hb)
  · have : (GIAI.new (py "urn:epc:id:giai:9521141.12:34")).map (fun x => x.epcUri.drop 24) = .ok (py "12:34") := by decide +kernel
    rw [hx'] at this
    simp only [Except.map, Except.ok.injEq] at this
    refine ⟨py "12:34", by simp, by decide, ?_⟩
    rw [this]; decide
example : ((do let x ← SGTIN.new (py "urn:epc:id:sgtin:9521141.012345.32a%2Fb"); let s ← x.gs1ElementString; pure s) : Except Err Str) = .ok (py "(01)09521141123454(21)32a/b") ∧
    ((do let x ← SGTIN.new (py "urn:epc:id:sgtin:9521141.012345.32a%2Fb"); let s ← x.gs1ElementString; let y ← SGTIN.fromGs1ElementString s 7; pure (decide (x = y))) : Except Err Bool) = .ok true := by
  decide +kernel

example : ((do let x ← LGTIN.new (py "urn:epc:class:lgtin:9521141.012345.32a%2Fb"); let s ← x.gs1ElementString; pure s) : Except Err Str) = .ok (py "(01)09521141123454(10)32a/b") ∧
    ((do let x ← LGTIN.new (py "urn:epc:class:lgtin:9521141.012345.32a%2Fb"); let s ← x.gs1ElementString; let y ← LGTIN.fromGs1ElementString s 7; pure (decide (x = y))) : Except Err Bool) = .ok true := by
  decide +kernel

example : ((do let x ← UPUI.new (py "urn:epc:id:upui:9521141.089456.51qIgY)%3C%26Jp3*j7(SDB"); let s ← x.gs1ElementString; pure s) : Except Err Str) = .ok (py "(01)09521141894569(235)51qIgY)<&Jp3*j7(SDB") ∧
    ((do let x ← UPUI.new (py "urn:epc:id:upui:9521141.089456.51qIgY)%3C%26Jp3*j7(SDB"); let s ← x.gs1ElementString; let y ← UPUI.fromGs1ElementString s 7; pure (decide (x = y))) : Except Err Bool) = .ok true := by
  decide +kernel

example : ((do let x ← ITIP.new (py "urn:epc:id:itip:9521141.012345.04.04.32a%2Fb"); let s ← x.gs1ElementString; pure s) : Except Err Str) = .ok (py "(8006)095211411234540404(21)32a/b") ∧
    ((do let x ← ITIP.new (py "urn:epc:id:itip:9521141.012345.04.04.32a%2Fb"); let s ← x.gs1ElementString; let y ← ITIP.fromGs1ElementString s 7; pure (decide (x = y))) : Except Err Bool) = .ok true := by
  decide +kernel

example : ((do let x ← SGLN.new (py "urn:epc:id:sgln:9521141.12345.32a%2Fb"); let s ← x.gs1ElementString; pure s) : Except Err Str) = .ok (py "(414)9521141123454(254)32a/b") ∧
    ((do let x ← SGLN.new (py "urn:epc:id:sgln:9521141.12345.32a%2Fb"); let s ← x.gs1ElementString; let y ← SGLN.fromGs1ElementString s 7; pure (decide (x = y))) : Except Err Bool) = .ok true := by
  decide +kernel

example : ((do let x ← SSCC.new (py "urn:epc:id:sscc:9521141.1234567890"); let s ← x.gs1ElementString; pure s) : Except Err Str) = .ok (py "(00)195211412345678900") ∧
    ((do let x ← SSCC.new (py "urn:epc:id:sscc:9521141.1234567890"); let s ← x.gs1ElementString; let y ← SSCC.fromGs1ElementString s 7; pure (decide (x = y))) : Except Err Bool) = .ok true := by
  decide +kernel

example : ((do let x ← GSRN.new (py "urn:epc:id:gsrn:9521141.1234567890"); let s ← x.gs1ElementString; pure s) : Except Err Str) = .ok (py "(8018)952114112345678906") ∧
    ((do let x ← GSRN.new (py "urn:epc:id:gsrn:9521141.1234567890"); let s ← x.gs1ElementString; let y ← GSRN.fromGs1ElementString s 7; pure (decide (x = y))) : Except Err Bool) = .ok true := by
  decide +kernel

example : ((do let x ← GSRNP.new (py "urn:epc:id:gsrnp:9521141.1234567890"); let s ← x.gs1ElementString; pure s) : Except Err Str) = .ok (py "(8017)952114112345678906") ∧
    ((do let x ← GSRNP.new (py "urn:epc:id:gsrnp:9521141.1234567890"); let s ← x.gs1ElementString; let y ← GSRNP.fromGs1ElementString s 7; pure (decide (x = y))) : Except Err Bool) = .ok true := by
  decide +kernel

example : ((do let x ← PGLN.new (py "urn:epc:id:pgln:9521141.89012"); let s ← x.gs1ElementString; pure s) : Except Err Str) = .ok (py "(417)9521141890127") ∧
    ((do let x ← PGLN.new (py "urn:epc:id:pgln:9521141.89012"); let s ← x.gs1ElementString; let y ← PGLN.fromGs1ElementString s 7; pure (decide (x = y))) : Except Err Bool) = .ok true := by
  decide +kernel

example : ((do let x ← GSIN.new (py "urn:epc:id:gsin:9521141.123456789"); let s ← x.gs1ElementString; pure s) : Except Err Str) = .ok (py "(402)95211411234567892") ∧
    ((do let x ← GSIN.new (py "urn:epc:id:gsin:9521141.123456789"); let s ← x.gs1ElementString; let y ← GSIN.fromGs1ElementString s 7; pure (decide (x = y))) : Except Err Bool) = .ok true := by
  decide +kernel

example : ((do let x ← GRAI.new (py "urn:epc:id:grai:9521141.12345.32a%2Fb"); let s ← x.gs1ElementString; pure s) : Except Err Str) = .ok (py "(8003)0952114112345432a/b") ∧
    ((do let x ← GRAI.new (py "urn:epc:id:grai:9521141.12345.32a%2Fb"); let s ← x.gs1ElementString; let y ← GRAI.fromGs1ElementString s 7; pure (decide (x = y))) : Except Err Bool) = .ok true := by
  decide +kernel

example : ((do let x ← GDTI.new (py "urn:epc:id:gdti:9521141.12345.ABCD%2F5"); let s ← x.gs1ElementString; pure s) : Except Err Str) = .ok (py "(253)9521141123454ABCD/5") ∧
    ((do let x ← GDTI.new (py "urn:epc:id:gdti:9521141.12345.ABCD%2F5"); let s ← x.gs1ElementString; let y ← GDTI.fromGs1ElementString s 7; pure (decide (x = y))) : Except Err Bool) = .ok true := by
  decide +kernel

example : ((do let x ← SGCN.new (py "urn:epc:id:sgcn:9521141.67890.04711"); let s ← x.gs1ElementString; pure s) : Except Err Str) = .ok (py "(255)952114167890904711") ∧
    ((do let x ← SGCN.new (py "urn:epc:id:sgcn:9521141.67890.04711"); let s ← x.gs1ElementString; let y ← SGCN.fromGs1ElementString s 7; pure (decide (x = y))) : Except Err Bool) = .ok true := by
  decide +kernel

example : ((do let x ← GIAI.new (py "urn:epc:id:giai:9521141.32a%2Fb"); let s ← x.gs1ElementString; pure s) : Except Err Str) = .ok (py "(8004)952114132a/b") ∧
    ((do let x ← GIAI.new (py "urn:epc:id:giai:9521141.32a%2Fb"); let s ← x.gs1ElementString; let y ← GIAI.fromGs1ElementString s 7; pure (decide (x = y))) : Except Err Bool) = .ok true := by
  decide +kernel

example : ((do let x ← GINC.new (py "urn:epc:id:ginc:9521141.xyz%2F11"); let s ← x.gs1ElementString; pure s) : Except Err Str) = .ok (py "(401)9521141xyz/11") ∧
    ((do let x ← GINC.new (py "urn:epc:id:ginc:9521141.xyz%2F11"); let s ← x.gs1ElementString; let y ← GINC.fromGs1ElementString s 7; pure (decide (x = y))) : Except Err Bool) = .ok true := by
  decide +kernel

example : ((do let x ← CPI.new (py "urn:epc:id:cpi:9521141.5PQ7%2FZ43.12345"); let s ← x.gs1ElementString; pure s) : Except Err Str) = .ok (py "(8010)95211415PQ7/Z43(8011)12345") ∧
    ((do let x ← CPI.new (py "urn:epc:id:cpi:9521141.5PQ7%2FZ43.12345"); let s ← x.gs1ElementString; let y ← CPI.fromGs1ElementString s 7; pure (decide (x = y))) : Except Err Bool) = .ok true := by
  decide +kernel

end Epc
