/-
C36: element strings with a wrong check digit.

`from_gs1_element_string` does not look at the check digit, so the claim "if it returns x then x.gs1_element_string() is the string
that was parsed" is false for every scheme with a check digit (`C36_…_claim_false`).  What holds, for every string of ASCII characters
and every company prefix length (also a negative or too large one): the element string of the returned object is the parsed string
with its check digit put right, and it is the parsed string if the check digit was right.
`Corrected pre n s t`: `t` is `s`, but behind `pre` and `n` digits stands the right check digit of these digits.
The schemes without check digit give back exactly the string that was parsed; for GIAI and GINC only if the characters taken for the
company prefix contain no dot (a dot would move the boundary), for GIAI only if the string contains no colon.
Generated by tools/gen_c36.py.
-/
import Verif.Lemmas.ElemParse

namespace Epc
open Spec Re

/-- The claim, for one class. -/
def C36Claim (X : Type) (fromElem : Str → Int → Except Err X) (elem : X → Except Err Str) : Prop :=
  ∀ s n x, fromElem s n = .ok x → elem x = .ok s

/-- SGTIN: the check digit is ignored and put right. -/
theorem C36_sgtin_partial (s : Str) (n : Int) (x : SGTIN) (ha : Ascii s) (h : SGTIN.fromGs1ElementString s n = .ok x) :
    ∃ t, x.gs1ElementString = .ok t ∧ Corrected (py "(01)") 13 s t ∧
      (CheckDigitOk ((s.drop 4).take 14) → t = s) := by
  obtain ⟨i, C, I, k, c, ⟨hd, hl⟩, hc, _, _, rfl, hu⟩ := (SGTIN.from_iff _ _ _).1 h
  obtain ⟨C', I', S', ⟨⟨_, h1⟩, ⟨_, h2⟩, _⟩, _, e, rfl⟩ := SGTIN.new_iff.1 hu
  have hd' := Dec.cons.1 hd
  have hC : Dec C := (Dec.append.1 hd'.2).1
  have hIk := Dec.append.1 (Dec.append.1 hd'.2).2
  obtain ⟨rfl, rfl, rfl⟩ := uri3_inj hC.no_dot (Dec.no_dot (Dec.cons.2 ⟨hd'.1, hIk.1⟩)) h1.no_dot h2.no_dot e
  refine ⟨py "(01)" ++ (i :: (C ++ I) ++ (natStr (uCheck (i :: (C ++ I))) ++ (py "(21)" ++ c))), ?_, ?_⟩
  · have hk : keyBody C (i :: I) = i :: (C ++ I) := rfl
    unfold SGTIN.gs1ElementString
    dsimp only
    rw [replaceUriEscapes_escape, hk, padLeft_of_le (by
      rw [List.length_append, length_natStr_uCheck, List.length_cons, List.length_append]; omega)]
    simp
  · refine corrected (k := k) (by rw [List.length_cons, List.length_append]; omega) ?_ ha ?_ rfl
    · simpa using hd
    · simp

/-- Counterexample: `(01)09521141123455(21)32a/b` has a wrong check digit and is accepted. -/
theorem C36_sgtin_claim_false : ¬ C36Claim SGTIN SGTIN.fromGs1ElementString SGTIN.gs1ElementString := by
  intro h
  have key : (SGTIN.fromGs1ElementString (py "(01)09521141123455(21)32a/b") 7).map (fun x => decide (x.gs1ElementString = .ok (py "(01)09521141123455(21)32a/b"))) = .ok false := by
    decide +kernel
  obtain ⟨x, hx, hb⟩ := map_ok_iff.1 key
  exact of_decide_eq_false hb (h _ _ x hx)

example : ((SGTIN.fromGs1ElementString (py "(01)09521141123454(21)32a/b") 7).toOption.map (·.gs1ElementString)) = some (.ok (py "(01)09521141123454(21)32a/b")) := by decide +kernel

/-- LGTIN: the check digit is ignored and put right. -/
theorem C36_lgtin_partial (s : Str) (n : Int) (x : LGTIN) (ha : Ascii s) (h : LGTIN.fromGs1ElementString s n = .ok x) :
    ∃ t, x.gs1ElementString = .ok t ∧ Corrected (py "(01)") 13 s t ∧
      (CheckDigitOk ((s.drop 4).take 14) → t = s) := by
  obtain ⟨i, C, I, k, c, ⟨hd, hl⟩, hc, _, _, rfl, hu⟩ := (LGTIN.from_iff _ _ _).1 h
  obtain ⟨C', I', S', ⟨⟨_, h1⟩, ⟨_, h2⟩, _⟩, _, e, rfl⟩ := LGTIN.new_iff.1 hu
  have hd' := Dec.cons.1 hd
  have hC : Dec C := (Dec.append.1 hd'.2).1
  have hIk := Dec.append.1 (Dec.append.1 hd'.2).2
  obtain ⟨rfl, rfl, rfl⟩ := uri3_inj hC.no_dot (Dec.no_dot (Dec.cons.2 ⟨hd'.1, hIk.1⟩)) h1.no_dot h2.no_dot e
  refine ⟨py "(01)" ++ (i :: (C ++ I) ++ (natStr (uCheck (i :: (C ++ I))) ++ (py "(10)" ++ c))), ?_, ?_⟩
  · have hk : keyBody C (i :: I) = i :: (C ++ I) := rfl
    unfold LGTIN.gs1ElementString
    dsimp only
    rw [replaceUriEscapes_escape, hk, padLeft_of_le (by
      rw [List.length_append, length_natStr_uCheck, List.length_cons, List.length_append]; omega)]
    simp
  · refine corrected (k := k) (by rw [List.length_cons, List.length_append]; omega) ?_ ha ?_ rfl
    · simpa using hd
    · simp

/-- Counterexample: `(01)09521141123455(10)32a/b` has a wrong check digit and is accepted. -/
theorem C36_lgtin_claim_false : ¬ C36Claim LGTIN LGTIN.fromGs1ElementString LGTIN.gs1ElementString := by
  intro h
  have key : (LGTIN.fromGs1ElementString (py "(01)09521141123455(10)32a/b") 7).map (fun x => decide (x.gs1ElementString = .ok (py "(01)09521141123455(10)32a/b"))) = .ok false := by
    decide +kernel
  obtain ⟨x, hx, hb⟩ := map_ok_iff.1 key
  exact of_decide_eq_false hb (h _ _ x hx)

example : ((LGTIN.fromGs1ElementString (py "(01)09521141123454(10)32a/b") 7).toOption.map (·.gs1ElementString)) = some (.ok (py "(01)09521141123454(10)32a/b")) := by decide +kernel

/-- UPUI: the check digit is ignored and put right. -/
theorem C36_upui_partial (s : Str) (n : Int) (x : UPUI) (ha : Ascii s) (h : UPUI.fromGs1ElementString s n = .ok x) :
    ∃ t, x.gs1ElementString = .ok t ∧ Corrected (py "(01)") 13 s t ∧
      (CheckDigitOk ((s.drop 4).take 14) → t = s) := by
  obtain ⟨i, C, I, k, c, ⟨hd, hl⟩, hc, _, rfl, hu⟩ := (UPUI.from_iff _ _ _).1 h
  obtain ⟨C', I', S', ⟨⟨_, h1⟩, h2, _⟩, _, e, rfl⟩ := UPUI.new_iff.1 hu
  have hd' := Dec.cons.1 hd
  have hC : Dec C := (Dec.append.1 hd'.2).1
  have hIk := Dec.append.1 (Dec.append.1 hd'.2).2
  obtain ⟨rfl, rfl, rfl⟩ := uri3_inj hC.no_dot (Dec.no_dot (Dec.cons.2 ⟨hd'.1, hIk.1⟩)) h1.no_dot h2.no_dot e
  refine ⟨py "(01)" ++ (i :: (C ++ I) ++ (natStr (uCheck (i :: (C ++ I))) ++ (py "(235)" ++ c))), ?_, ?_⟩
  · unfold UPUI.gs1ElementString
    dsimp only
    rw [show getIdx (i :: I) 0 = .ok i from rfl, ok_bind, show (i :: I).drop 1 = I from rfl, show i :: C ++ I = i :: (C ++ I) from rfl,
      checksum_dec (Dec.cons.2 ⟨hd'.1, Dec.append.2 ⟨hC, hIk.1⟩⟩), ok_bind, pure_ok, replaceUriEscapes_escape]
    simp
  · refine corrected (k := k) (by rw [List.length_cons, List.length_append]; omega) ?_ ha ?_ rfl
    · simpa using hd
    · simp

/-- Counterexample: `(01)09521141894560(235)51qIgY)<&Jp3*j7(SDB` has a wrong check digit and is accepted. -/
theorem C36_upui_claim_false : ¬ C36Claim UPUI UPUI.fromGs1ElementString UPUI.gs1ElementString := by
  intro h
  have key : (UPUI.fromGs1ElementString (py "(01)09521141894560(235)51qIgY)<&Jp3*j7(SDB") 7).map (fun x => decide (x.gs1ElementString = .ok (py "(01)09521141894560(235)51qIgY)<&Jp3*j7(SDB"))) = .ok false := by
    decide +kernel
  obtain ⟨x, hx, hb⟩ := map_ok_iff.1 key
  exact of_decide_eq_false hb (h _ _ x hx)

example : ((UPUI.fromGs1ElementString (py "(01)09521141894569(235)51qIgY)<&Jp3*j7(SDB") 7).toOption.map (·.gs1ElementString)) = some (.ok (py "(01)09521141894569(235)51qIgY)<&Jp3*j7(SDB")) := by decide +kernel

/-- ITIP: the check digit is ignored and put right. -/
theorem C36_itip_partial (s : Str) (n : Int) (x : ITIP) (ha : Ascii s) (h : ITIP.fromGs1ElementString s n = .ok x) :
    ∃ t, x.gs1ElementString = .ok t ∧ Corrected (py "(8006)") 13 s t ∧
      (CheckDigitOk ((s.drop 6).take 14) → t = s) := by
  obtain ⟨i, C, I, k, A, B, c, ⟨hd, hl, _, _⟩, hc, _, rfl, hu⟩ := (ITIP.from_iff _ _ _).1 h
  obtain ⟨C', I', A', B', S', ⟨⟨_, h1⟩, ⟨_, h2⟩, ⟨_, h3⟩, ⟨_, h4⟩, _⟩, _, e, rfl⟩ := ITIP.new_iff.1 hu
  have hd' := Dec.cons.1 hd
  have hC : Dec C := (Dec.append.1 hd'.2).1
  have hIk := Dec.append.1 (Dec.append.1 hd'.2).2
  have hAB := Dec.append.1 (Dec.cons.1 hIk.2).2
  obtain ⟨rfl, rfl, e2⟩ := uri3_inj hC.no_dot (Dec.no_dot (Dec.cons.2 ⟨hd'.1, hIk.1⟩)) h1.no_dot h2.no_dot e
  obtain ⟨rfl, e3⟩ := append_sep_inj hAB.1.no_dot h3.no_dot e2
  obtain ⟨rfl, rfl⟩ := append_sep_inj hAB.2.no_dot h4.no_dot e3
  refine ⟨py "(8006)" ++ (i :: (C ++ I) ++ (natStr (uCheck (i :: (C ++ I))) ++ (A ++ (B ++ (py "(21)" ++ c))))), ?_, ?_⟩
  · unfold ITIP.gs1ElementString
    dsimp only
    rw [show getIdx (i :: I) 0 = .ok i from rfl, ok_bind, show (i :: I).drop 1 = I from rfl, show i :: C ++ I = i :: (C ++ I) from rfl,
      checksum_dec (Dec.cons.2 ⟨hd'.1, Dec.append.2 ⟨hC, hIk.1⟩⟩), ok_bind, pure_ok, replaceUriEscapes_escape]
    simp
  · refine corrected (k := k) (by rw [List.length_cons, List.length_append]; omega) ?_ ha ?_ rfl
    · have : Dec (i :: (C ++ (I ++ [k]))) := Dec.cons.2 ⟨hd'.1, Dec.append.2 ⟨hC, Dec.append.2 ⟨hIk.1, Dec.cons.2 ⟨(Dec.cons.1 hIk.2).1, Dec.nil⟩⟩⟩⟩
      simpa using this
    · simp

/-- Counterexample: `(8006)095211411234550404(21)32a/b` has a wrong check digit and is accepted. -/
theorem C36_itip_claim_false : ¬ C36Claim ITIP ITIP.fromGs1ElementString ITIP.gs1ElementString := by
  intro h
  have key : (ITIP.fromGs1ElementString (py "(8006)095211411234550404(21)32a/b") 7).map (fun x => decide (x.gs1ElementString = .ok (py "(8006)095211411234550404(21)32a/b"))) = .ok false := by
    decide +kernel
  obtain ⟨x, hx, hb⟩ := map_ok_iff.1 key
  exact of_decide_eq_false hb (h _ _ x hx)

example : ((ITIP.fromGs1ElementString (py "(8006)095211411234540404(21)32a/b") 7).toOption.map (·.gs1ElementString)) = some (.ok (py "(8006)095211411234540404(21)32a/b")) := by decide +kernel

/-- SSCC: the check digit is ignored and put right. -/
theorem C36_sscc_partial (s : Str) (n : Int) (x : SSCC) (ha : Ascii s) (h : SSCC.fromGs1ElementString s n = .ok x) :
    ∃ t, x.gs1ElementString = .ok t ∧ Corrected (py "(00)") 17 s t ∧
      (CheckDigitOk ((s.drop 4).take 18) → t = s) := by
  obtain ⟨i, C, I, k, ⟨hd, hl⟩, _, rfl, hu⟩ := (SSCC.from_iff _ _ _).1 h
  obtain ⟨C', I', ⟨⟨_, h1⟩, _⟩, _, e, rfl⟩ := SSCC.new_iff.1 hu
  have hd' := Dec.cons.1 hd
  obtain ⟨rfl, rfl⟩ := uri2_inj (Dec.append.1 hd'.2).1.no_dot h1.no_dot e
  refine ⟨py "(00)" ++ (i :: (C ++ I) ++ (natStr (uCheck (i :: (C ++ I))) ++ [])), ?_, ?_⟩
  · have hk : keyBody C (i :: I) = i :: (C ++ I) := rfl
    unfold SSCC.gs1ElementString
    dsimp only
    rw [hk]
    simp
  · refine corrected (k := k) (by rw [List.length_cons, List.length_append]; omega) ?_ ha ?_ rfl
    · simpa using hd
    · simp

/-- Counterexample: `(00)195211412345678901` has a wrong check digit and is accepted. -/
theorem C36_sscc_claim_false : ¬ C36Claim SSCC SSCC.fromGs1ElementString SSCC.gs1ElementString := by
  intro h
  have key : (SSCC.fromGs1ElementString (py "(00)195211412345678901") 7).map (fun x => decide (x.gs1ElementString = .ok (py "(00)195211412345678901"))) = .ok false := by
    decide +kernel
  obtain ⟨x, hx, hb⟩ := map_ok_iff.1 key
  exact of_decide_eq_false hb (h _ _ x hx)

example : ((SSCC.fromGs1ElementString (py "(00)195211412345678900") 7).toOption.map (·.gs1ElementString)) = some (.ok (py "(00)195211412345678900")) := by decide +kernel

/-- GSRN: the check digit is ignored and put right. -/
theorem C36_gsrn_partial (s : Str) (n : Int) (x : GSRN) (ha : Ascii s) (h : GSRN.fromGs1ElementString s n = .ok x) :
    ∃ t, x.gs1ElementString = .ok t ∧ Corrected (py "(8018)") 17 s t ∧
      (CheckDigitOk ((s.drop 6).take 18) → t = s) := by
  obtain ⟨C, I, k, ⟨hd, hl⟩, _, rfl, hu⟩ := (GSRN.from_iff _ _ _).1 h
  obtain ⟨C', I', ⟨⟨_, h1⟩, _⟩, _, e, rfl⟩ := GSRN.new_iff.1 hu
  obtain ⟨rfl, rfl⟩ := uri2_inj (Dec.append.1 hd).1.no_dot h1.no_dot e
  refine ⟨py "(8018)" ++ (C ++ I ++ (natStr (uCheck (C ++ I)) ++ [])), ?_, ?_⟩
  · unfold GSRN.gs1ElementString
    simp
  · refine corrected (k := k) (by rw [List.length_append]; omega) ?_ ha ?_ rfl
    · simpa using hd
    · simp

/-- Counterexample: `(8018)952114112345678907` has a wrong check digit and is accepted. -/
theorem C36_gsrn_claim_false : ¬ C36Claim GSRN GSRN.fromGs1ElementString GSRN.gs1ElementString := by
  intro h
  have key : (GSRN.fromGs1ElementString (py "(8018)952114112345678907") 7).map (fun x => decide (x.gs1ElementString = .ok (py "(8018)952114112345678907"))) = .ok false := by
    decide +kernel
  obtain ⟨x, hx, hb⟩ := map_ok_iff.1 key
  exact of_decide_eq_false hb (h _ _ x hx)

example : ((GSRN.fromGs1ElementString (py "(8018)952114112345678906") 7).toOption.map (·.gs1ElementString)) = some (.ok (py "(8018)952114112345678906")) := by decide +kernel

/-- GSRNP: the check digit is ignored and put right. -/
theorem C36_gsrnp_partial (s : Str) (n : Int) (x : GSRNP) (ha : Ascii s) (h : GSRNP.fromGs1ElementString s n = .ok x) :
    ∃ t, x.gs1ElementString = .ok t ∧ Corrected (py "(8017)") 17 s t ∧
      (CheckDigitOk ((s.drop 6).take 18) → t = s) := by
  obtain ⟨C, I, k, ⟨hd, hl⟩, _, rfl, hu⟩ := (GSRNP.from_iff _ _ _).1 h
  obtain ⟨C', I', ⟨⟨_, h1⟩, _⟩, _, e, rfl⟩ := GSRNP.new_iff.1 hu
  obtain ⟨rfl, rfl⟩ := uri2_inj (Dec.append.1 hd).1.no_dot h1.no_dot e
  refine ⟨py "(8017)" ++ (C ++ I ++ (natStr (uCheck (C ++ I)) ++ [])), ?_, ?_⟩
  · unfold GSRNP.gs1ElementString
    simp
  · refine corrected (k := k) (by rw [List.length_append]; omega) ?_ ha ?_ rfl
    · simpa using hd
    · simp

/-- Counterexample: `(8017)952114112345678907` has a wrong check digit and is accepted. -/
theorem C36_gsrnp_claim_false : ¬ C36Claim GSRNP GSRNP.fromGs1ElementString GSRNP.gs1ElementString := by
  intro h
  have key : (GSRNP.fromGs1ElementString (py "(8017)952114112345678907") 7).map (fun x => decide (x.gs1ElementString = .ok (py "(8017)952114112345678907"))) = .ok false := by
    decide +kernel
  obtain ⟨x, hx, hb⟩ := map_ok_iff.1 key
  exact of_decide_eq_false hb (h _ _ x hx)

example : ((GSRNP.fromGs1ElementString (py "(8017)952114112345678906") 7).toOption.map (·.gs1ElementString)) = some (.ok (py "(8017)952114112345678906")) := by decide +kernel

/-- PGLN: the check digit is ignored and put right. -/
theorem C36_pgln_partial (s : Str) (n : Int) (x : PGLN) (ha : Ascii s) (h : PGLN.fromGs1ElementString s n = .ok x) :
    ∃ t, x.gs1ElementString = .ok t ∧ Corrected (py "(417)") 12 s t ∧
      (CheckDigitOk ((s.drop 5).take 13) → t = s) := by
  obtain ⟨C, I, k, ⟨hd, hl⟩, _, rfl, hu⟩ := (PGLN.from_iff _ _ _).1 h
  obtain ⟨C', I', ⟨⟨_, h1⟩, _⟩, _, e, rfl⟩ := PGLN.new_iff.1 hu
  obtain ⟨rfl, rfl⟩ := uri2_inj (Dec.append.1 hd).1.no_dot h1.no_dot e
  refine ⟨py "(417)" ++ (C ++ I ++ (natStr (uCheck (C ++ I)) ++ [])), ?_, ?_⟩
  · unfold PGLN.gs1ElementString
    simp
  · refine corrected (k := k) (by rw [List.length_append]; omega) ?_ ha ?_ rfl
    · simpa using hd
    · simp

/-- Counterexample: `(417)9521141890128` has a wrong check digit and is accepted. -/
theorem C36_pgln_claim_false : ¬ C36Claim PGLN PGLN.fromGs1ElementString PGLN.gs1ElementString := by
  intro h
  have key : (PGLN.fromGs1ElementString (py "(417)9521141890128") 7).map (fun x => decide (x.gs1ElementString = .ok (py "(417)9521141890128"))) = .ok false := by
    decide +kernel
  obtain ⟨x, hx, hb⟩ := map_ok_iff.1 key
  exact of_decide_eq_false hb (h _ _ x hx)

example : ((PGLN.fromGs1ElementString (py "(417)9521141890127") 7).toOption.map (·.gs1ElementString)) = some (.ok (py "(417)9521141890127")) := by decide +kernel

/-- GSIN: the check digit is ignored and put right. -/
theorem C36_gsin_partial (s : Str) (n : Int) (x : GSIN) (ha : Ascii s) (h : GSIN.fromGs1ElementString s n = .ok x) :
    ∃ t, x.gs1ElementString = .ok t ∧ Corrected (py "(402)") 16 s t ∧
      (CheckDigitOk ((s.drop 5).take 17) → t = s) := by
  obtain ⟨C, I, k, ⟨hd, hl⟩, _, rfl, hu⟩ := (GSIN.from_iff _ _ _).1 h
  obtain ⟨C', I', ⟨⟨_, h1⟩, _⟩, _, e, rfl⟩ := GSIN.new_iff.1 hu
  obtain ⟨rfl, rfl⟩ := uri2_inj (Dec.append.1 hd).1.no_dot h1.no_dot e
  refine ⟨py "(402)" ++ (C ++ I ++ (natStr (uCheck (C ++ I)) ++ [])), ?_, ?_⟩
  · unfold GSIN.gs1ElementString
    simp
  · refine corrected (k := k) (by rw [List.length_append]; omega) ?_ ha ?_ rfl
    · simpa using hd
    · simp

/-- Counterexample: `(402)95211411234567893` has a wrong check digit and is accepted. -/
theorem C36_gsin_claim_false : ¬ C36Claim GSIN GSIN.fromGs1ElementString GSIN.gs1ElementString := by
  intro h
  have key : (GSIN.fromGs1ElementString (py "(402)95211411234567893") 7).map (fun x => decide (x.gs1ElementString = .ok (py "(402)95211411234567893"))) = .ok false := by
    decide +kernel
  obtain ⟨x, hx, hb⟩ := map_ok_iff.1 key
  exact of_decide_eq_false hb (h _ _ x hx)

example : ((GSIN.fromGs1ElementString (py "(402)95211411234567892") 7).toOption.map (·.gs1ElementString)) = some (.ok (py "(402)95211411234567892")) := by decide +kernel

/-- SGLN: the check digit is ignored and put right. -/
theorem C36_sgln_partial (s : Str) (n : Int) (x : SGLN) (ha : Ascii s) (h : SGLN.fromGs1ElementString s n = .ok x) :
    ∃ t, x.gs1ElementString = .ok t ∧ Corrected (py "(414)") 12 s t ∧
      (CheckDigitOk ((s.drop 5).take 13) → t = s) := by
  obtain ⟨C, I, k, c, ⟨hd, hl⟩, hc, _, _, rfl, hu⟩ := (SGLN.from_iff _ _ _).1 h
  obtain ⟨C', I', S', ⟨⟨_, h1⟩, h2, _⟩, _, e, rfl⟩ := SGLN.new_iff.1 hu
  obtain ⟨rfl, rfl, rfl⟩ := uri3_inj (Dec.append.1 hd).1.no_dot (Dec.append.1 (Dec.append.1 hd).2).1.no_dot h1.no_dot h2.no_dot e
  refine ⟨py "(414)" ++ (C ++ I ++ (natStr (uCheck (C ++ I)) ++ (py "(254)" ++ c))), ?_, ?_⟩
  · unfold SGLN.gs1ElementString
    dsimp only
    rw [replaceUriEscapes_escape]
    simp
  · refine corrected (k := k) (by rw [List.length_append]; omega) ?_ ha ?_ rfl
    · simpa using hd
    · simp

/-- Counterexample: `(414)9521141123455(254)32a/b` has a wrong check digit and is accepted. -/
theorem C36_sgln_claim_false : ¬ C36Claim SGLN SGLN.fromGs1ElementString SGLN.gs1ElementString := by
  intro h
  have key : (SGLN.fromGs1ElementString (py "(414)9521141123455(254)32a/b") 7).map (fun x => decide (x.gs1ElementString = .ok (py "(414)9521141123455(254)32a/b"))) = .ok false := by
    decide +kernel
  obtain ⟨x, hx, hb⟩ := map_ok_iff.1 key
  exact of_decide_eq_false hb (h _ _ x hx)

example : ((SGLN.fromGs1ElementString (py "(414)9521141123454(254)32a/b") 7).toOption.map (·.gs1ElementString)) = some (.ok (py "(414)9521141123454(254)32a/b")) := by decide +kernel

/-- GRAI: the check digit is ignored and put right. -/
theorem C36_grai_partial (s : Str) (n : Int) (x : GRAI) (ha : Ascii s) (h : GRAI.fromGs1ElementString s n = .ok x) :
    ∃ t, x.gs1ElementString = .ok t ∧ Corrected (py "(8003)0") 12 s t ∧
      (CheckDigitOk ((s.drop 7).take 13) → t = s) := by
  obtain ⟨C, I, k, c, ⟨hd, hl⟩, hc, _, rfl, hu⟩ := (GRAI.from_iff _ _ _).1 h
  obtain ⟨C', I', S', ⟨⟨_, h1⟩, h2, _⟩, _, e, rfl⟩ := GRAI.new_iff.1 hu
  obtain ⟨rfl, rfl, rfl⟩ := uri3_inj (Dec.append.1 hd).1.no_dot (Dec.append.1 (Dec.append.1 hd).2).1.no_dot h1.no_dot h2.no_dot e
  refine ⟨py "(8003)0" ++ (C ++ I ++ (natStr (uCheck (C ++ I)) ++ (c))), ?_, ?_⟩
  · unfold GRAI.gs1ElementString
    dsimp only
    rw [replaceUriEscapes_escape]
    simp
  · refine corrected (k := k) (by rw [List.length_append]; omega) ?_ ha ?_ rfl
    · simpa using hd
    · simp

/-- Counterexample: `(8003)0952114112345532a/b` has a wrong check digit and is accepted. -/
theorem C36_grai_claim_false : ¬ C36Claim GRAI GRAI.fromGs1ElementString GRAI.gs1ElementString := by
  intro h
  have key : (GRAI.fromGs1ElementString (py "(8003)0952114112345532a/b") 7).map (fun x => decide (x.gs1ElementString = .ok (py "(8003)0952114112345532a/b"))) = .ok false := by
    decide +kernel
  obtain ⟨x, hx, hb⟩ := map_ok_iff.1 key
  exact of_decide_eq_false hb (h _ _ x hx)

example : ((GRAI.fromGs1ElementString (py "(8003)0952114112345432a/b") 7).toOption.map (·.gs1ElementString)) = some (.ok (py "(8003)0952114112345432a/b")) := by decide +kernel

/-- GDTI: the check digit is ignored and put right. -/
theorem C36_gdti_partial (s : Str) (n : Int) (x : GDTI) (ha : Ascii s) (h : GDTI.fromGs1ElementString s n = .ok x) :
    ∃ t, x.gs1ElementString = .ok t ∧ Corrected (py "(253)") 12 s t ∧
      (CheckDigitOk ((s.drop 5).take 13) → t = s) := by
  obtain ⟨C, I, k, c, ⟨hd, hl⟩, hc, _, rfl, hu⟩ := (GDTI.from_iff _ _ _).1 h
  obtain ⟨C', I', S', ⟨⟨_, h1⟩, h2, _⟩, _, e, rfl⟩ := GDTI.new_iff.1 hu
  obtain ⟨rfl, rfl, rfl⟩ := uri3_inj (Dec.append.1 hd).1.no_dot (Dec.append.1 (Dec.append.1 hd).2).1.no_dot h1.no_dot h2.no_dot e
  refine ⟨py "(253)" ++ (C ++ I ++ (natStr (uCheck (C ++ I)) ++ (c))), ?_, ?_⟩
  · unfold GDTI.gs1ElementString
    dsimp only
    rw [replaceUriEscapes_escape]
    simp
  · refine corrected (k := k) (by rw [List.length_append]; omega) ?_ ha ?_ rfl
    · simpa using hd
    · simp

/-- Counterexample: `(253)9521141123455ABCD/5` has a wrong check digit and is accepted. -/
theorem C36_gdti_claim_false : ¬ C36Claim GDTI GDTI.fromGs1ElementString GDTI.gs1ElementString := by
  intro h
  have key : (GDTI.fromGs1ElementString (py "(253)9521141123455ABCD/5") 7).map (fun x => decide (x.gs1ElementString = .ok (py "(253)9521141123455ABCD/5"))) = .ok false := by
    decide +kernel
  obtain ⟨x, hx, hb⟩ := map_ok_iff.1 key
  exact of_decide_eq_false hb (h _ _ x hx)

example : ((GDTI.fromGs1ElementString (py "(253)9521141123454ABCD/5") 7).toOption.map (·.gs1ElementString)) = some (.ok (py "(253)9521141123454ABCD/5")) := by decide +kernel

/-- SGCN: the check digit is ignored and put right. -/
theorem C36_sgcn_partial (s : Str) (n : Int) (x : SGCN) (ha : Ascii s) (h : SGCN.fromGs1ElementString s n = .ok x) :
    ∃ t, x.gs1ElementString = .ok t ∧ Corrected (py "(255)") 12 s t ∧
      (CheckDigitOk ((s.drop 5).take 13) → t = s) := by
  obtain ⟨C, I, k, c, ⟨hd, hl⟩, hc, _, rfl, hu⟩ := (SGCN.from_iff _ _ _).1 h
  obtain ⟨C', I', S', ⟨⟨_, h1⟩, h2, ⟨_, h3⟩⟩, _, e, rfl⟩ := SGCN.new_iff.1 hu
  obtain ⟨rfl, rfl, rfl⟩ := uri3_inj (Dec.append.1 hd).1.no_dot (Dec.append.1 (Dec.append.1 hd).2).1.no_dot h1.no_dot h2.no_dot e
  have hcd : Digits (escape c) := by
    refine digits_of_dec_ascii h3 ?_
    exact gs3a3_ascii (gs3a3_escape hc.1 (by rintro rfl; simp at hc))
  have hesc : escape c = c := by
    have := replaceUriEscapes_escape (escape c)
    rw [escape_digits hcd] at this
    rw [← this, replaceUriEscapes_escape]
  rw [hesc]
  refine ⟨py "(255)" ++ (C ++ I ++ (natStr (uCheck (C ++ I)) ++ c)), ?_, ?_⟩
  · unfold SGCN.gs1ElementString
    simp
  · refine corrected (k := k) (by rw [List.length_append]; omega) ?_ ha ?_ rfl
    · simpa using hd
    · simp

/-- Counterexample: `(255)952114167890004711` has a wrong check digit and is accepted. -/
theorem C36_sgcn_claim_false : ¬ C36Claim SGCN SGCN.fromGs1ElementString SGCN.gs1ElementString := by
  intro h
  have key : (SGCN.fromGs1ElementString (py "(255)952114167890004711") 7).map (fun x => decide (x.gs1ElementString = .ok (py "(255)952114167890004711"))) = .ok false := by
    decide +kernel
  obtain ⟨x, hx, hb⟩ := map_ok_iff.1 key
  exact of_decide_eq_false hb (h _ _ x hx)

example : ((SGCN.fromGs1ElementString (py "(255)952114167890904711") 7).toOption.map (·.gs1ElementString)) = some (.ok (py "(255)952114167890904711")) := by decide +kernel

/-- GIAI has no check digit: the string is given back exactly, if the characters taken for the company prefix contain no dot and the string contains no colon. -/
theorem C36_giai_partial (s : Str) (n : Int) (x : GIAI) (hs : ':' ∉ s) (hd : '.' ∉ s ∨ ∃ m : Nat, n = m ∧ '.' ∉ (s.drop 6).take m)
    (h : GIAI.fromGs1ElementString s n = .ok x) : x.gs1ElementString = .ok s := by
  obtain ⟨C, c, _, hcl, rfl, hu⟩ := (GIAI.from_iff _ _ _).1 h
  obtain ⟨C', S', ⟨⟨_, h1⟩, _⟩, _, e, rfl⟩ := GIAI.new_iff.1 hu
  have hC : '.' ∉ C := by
    rcases hd with hd | ⟨m, rfl, hd⟩
    · exact fun hm => hd (by simp [hm])
    · rw [show (py "(8004)" ++ (C ++ c)).drop 6 = C ++ c from rfl] at hd
      rw [show (6 : Int) + (m : Int) = ((6 + m : Nat) : Int) by omega, clampIdx_pos] at hcl
      have hle : C.length ≤ m := by omega
      intro hm
      refine hd ?_
      rw [List.take_append, List.take_of_length_le hle]
      exact List.mem_append_left _ hm
  obtain ⟨rfl, rfl⟩ := uri2_inj hC h1.no_dot e
  unfold GIAI.gs1ElementString
  dsimp only
  rw [split_notMem (escape_no_colon (fun hm => hs (by simp [hm])))]
  show Except.ok (_ ++ (_ ++ replaceUriEscapes (escape c))) = _
  rw [replaceUriEscapes_escape]

/-- Counterexample: `(8004)9521141.23` with company prefix length 9 is accepted and gives the object of `(8004)95211412.3`. -/
theorem C36_giai_claim_false : ¬ C36Claim GIAI GIAI.fromGs1ElementString GIAI.gs1ElementString := by
  intro h
  have key : (GIAI.fromGs1ElementString (py "(8004)9521141.23") 9).map (fun x => decide (x.gs1ElementString = .ok (py "(8004)9521141.23"))) = .ok false := by
    decide +kernel
  obtain ⟨x, hx, hb⟩ := map_ok_iff.1 key
  exact of_decide_eq_false hb (h _ _ x hx)

example : ((GIAI.fromGs1ElementString (py "(8004)9521141xyz/.1") 7).toOption.map (·.gs1ElementString)) = some (.ok (py "(8004)9521141xyz/.1")) := by decide +kernel

/-- GINC has no check digit: the string is given back exactly, if the characters taken for the company prefix contain no dot. -/
theorem C36_ginc_partial (s : Str) (n : Int) (x : GINC) (hd : '.' ∉ s ∨ ∃ m : Nat, n = m ∧ '.' ∉ (s.drop 5).take m)
    (h : GINC.fromGs1ElementString s n = .ok x) : x.gs1ElementString = .ok s := by
  obtain ⟨C, c, _, hcl, rfl, hu⟩ := (GINC.from_iff _ _ _).1 h
  obtain ⟨C', S', ⟨⟨_, h1⟩, _⟩, _, e, rfl⟩ := GINC.new_iff.1 hu
  have hC : '.' ∉ C := by
    rcases hd with hd | ⟨m, rfl, hd⟩
    · exact fun hm => hd (by simp [hm])
    · rw [show (py "(401)" ++ (C ++ c)).drop 5 = C ++ c from rfl] at hd
      rw [show (5 : Int) + (m : Int) = ((5 + m : Nat) : Int) by omega, clampIdx_pos] at hcl
      have hle : C.length ≤ m := by omega
      intro hm
      refine hd ?_
      rw [List.take_append, List.take_of_length_le hle]
      exact List.mem_append_left _ hm
  obtain ⟨rfl, rfl⟩ := uri2_inj hC h1.no_dot e
  unfold GINC.gs1ElementString
  dsimp only
  rw [replaceUriEscapes_escape]

/-- Counterexample: `(401)9521141.23` with company prefix length 9 is accepted and gives the object of `(401)95211412.3`. -/
theorem C36_ginc_claim_false : ¬ C36Claim GINC GINC.fromGs1ElementString GINC.gs1ElementString := by
  intro h
  have key : (GINC.fromGs1ElementString (py "(401)9521141.23") 9).map (fun x => decide (x.gs1ElementString = .ok (py "(401)9521141.23"))) = .ok false := by
    decide +kernel
  obtain ⟨x, hx, hb⟩ := map_ok_iff.1 key
  exact of_decide_eq_false hb (h _ _ x hx)

example : ((GINC.fromGs1ElementString (py "(401)9521141xyz/.1") 7).toOption.map (·.gs1ElementString)) = some (.ok (py "(401)9521141xyz/.1")) := by decide +kernel

/-- CPI has no check digit: the string is given back exactly. -/
theorem C36_cpi : C36Claim CPI CPI.fromGs1ElementString CPI.gs1ElementString := by
  intro s n x h
  obtain ⟨C, r, t, hm, ⟨hp, _⟩, _, rfl, hu⟩ := (CPI.from_iff _ _ _).1 h
  obtain ⟨C', D', S', ⟨⟨_, h1⟩, h2, _⟩, _, e, rfl⟩ := CPI.new_iff.1 hu
  obtain ⟨d, q, t', ⟨hd, _⟩, ⟨hq, _⟩, _, e'⟩ := (CPI.elem_lang _).1 hm
  have e'' : (C ++ r) ++ '(' :: (py "8011)" ++ t) = (d ++ q) ++ '(' :: (py "8011)" ++ t') := by
    have := List.append_cancel_left e'
    simpa using this
  have hp' : '(' ∉ d ++ q := by
    intro hx
    rcases List.mem_append.1 hx with hx | hx
    · exact hd.no_paren hx
    · exact CPI.gs39_no_paren hq hx
  have hr := (append_sep_inj hp hp' e'').1
  have hch : ∀ a ∈ C ++ r, a ≠ '.' ∧ a ≠ '%' := by
    intro a ha
    rw [hr] at ha
    rcases List.mem_append.1 ha with ha | ha
    · exact ⟨isDecimal_ne_dot (hd a ha), fun e => by rw [e] at ha; exact absurd (hd _ ha) (by decide)⟩
    · exact ⟨fun e => by rw [e] at ha; exact absurd (hq _ ha) (by decide), fun e => by rw [e] at ha; exact absurd (hq _ ha) (by decide)⟩
  obtain ⟨rfl, rfl, rfl⟩ := uri3_inj (fun hx => (hch _ (List.mem_append_left _ hx)).1 rfl)
    (escape39_no_dot' (fun hx => (hch _ (List.mem_append_right _ hx)).1 rfl)) h1.no_dot (cpref_no_dot h2) e
  unfold CPI.gs1ElementString
  dsimp only
  rw [replaceCpi_escape39' (fun a ha => (hch a (List.mem_append_right _ ha)).2)]
  simp

example : ((CPI.fromGs1ElementString (py "(8010)95211415PQ7/Z43(8011)12345") 7).toOption.map (·.gs1ElementString)) =
    some (.ok (py "(8010)95211415PQ7/Z43(8011)12345")) := by decide +kernel

end Epc
