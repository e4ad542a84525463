/-
C105: the company prefix length only decides where the URI is divided.

A GS1 element string does not say how long the company prefix is; the caller of `from_gs1_element_string` says it.  If the same string is
accepted with two lengths, the two objects have the same GS1 key and give back the same GS1 element string, and `get_gs1_key` answers the
same (`C105_objects`, `C105_get_gs1_key`, `C105_source`, `C105_get_gs1_key_source`).  The lengths can be any integers: a negative number
counts from the end of the digits, as slices in Python do.  The objects themselves are different if the lengths, given as natural numbers,
are (`C105_uri`): a guessed length gives the right key but the wrong URI.

For GIAI and GINC this needs that there is no dot in the string: `C105_dot` shows a string with a dot, accepted with two lengths, that gets
two different keys.
-/
import Verif.Lemmas.LayoutText
import Verif.Lemmas.ElemParse
import Verif.Props.C36
import Verif.Props.C61
import Verif.Props.C91
import Verif.Props.C92
import Verif.Props.C93

namespace Epc
open Spec Re

private theorem SGTIN_put (s : Str) (n : Int) (x : SGTIN) (h : SGTIN.fromGs1ElementString s n = .ok x) :
    ∃ body k rest, body.length = 13 ∧ s = py "(01)" ++ (body ++ k :: rest) ∧
      x.gs1ElementString = .ok (py "(01)" ++ (body ++ (natStr (uCheck body) ++ rest))) ∧ x.gtin14 = body ++ natStr (uCheck body) := by
  obtain ⟨i, C, I, k, c, ⟨hd, hl⟩, hc, _, _, rfl, hu⟩ := (SGTIN.from_iff _ _ _).1 h
  obtain ⟨C', I', S', ⟨⟨_, h1⟩, ⟨_, h2⟩, _⟩, _, e, rfl⟩ := SGTIN.new_iff.1 hu
  have hd' := Dec.cons.1 hd
  have hC : Dec C := (Dec.append.1 hd'.2).1
  have hIk := Dec.append.1 (Dec.append.1 hd'.2).2
  obtain ⟨rfl, rfl, rfl⟩ := uri3_inj hC.no_dot (Dec.no_dot (Dec.cons.2 ⟨hd'.1, hIk.1⟩)) h1.no_dot h2.no_dot e
  refine ⟨(i :: (C ++ I)), k, (py "(21)" ++ c), by simp only [List.length_cons, List.length_append]; omega, by simp, ?_, ?_⟩
  · have hk : keyBody C (i :: I) = i :: (C ++ I) := rfl
    unfold SGTIN.gs1ElementString
    dsimp only
    rw [replaceUriEscapes_escape, hk, padLeft_of_le (by
      rw [List.length_append, length_natStr_uCheck, List.length_cons, List.length_append]; omega)]
    simp
  · have hk : keyBody C (i :: I) = i :: (C ++ I) := rfl
    dsimp only
    rw [hk, padLeft_of_le (by rw [List.length_append, length_natStr_uCheck, List.length_cons, List.length_append]; omega)]

private theorem LGTIN_put (s : Str) (n : Int) (x : LGTIN) (h : LGTIN.fromGs1ElementString s n = .ok x) :
    ∃ body k rest, body.length = 13 ∧ s = py "(01)" ++ (body ++ k :: rest) ∧
      x.gs1ElementString = .ok (py "(01)" ++ (body ++ (natStr (uCheck body) ++ rest))) ∧ x.gtin14 = body ++ natStr (uCheck body) := by
  obtain ⟨i, C, I, k, c, ⟨hd, hl⟩, hc, _, _, rfl, hu⟩ := (LGTIN.from_iff _ _ _).1 h
  obtain ⟨C', I', S', ⟨⟨_, h1⟩, ⟨_, h2⟩, _⟩, _, e, rfl⟩ := LGTIN.new_iff.1 hu
  have hd' := Dec.cons.1 hd
  have hC : Dec C := (Dec.append.1 hd'.2).1
  have hIk := Dec.append.1 (Dec.append.1 hd'.2).2
  obtain ⟨rfl, rfl, rfl⟩ := uri3_inj hC.no_dot (Dec.no_dot (Dec.cons.2 ⟨hd'.1, hIk.1⟩)) h1.no_dot h2.no_dot e
  refine ⟨(i :: (C ++ I)), k, (py "(10)" ++ c), by simp only [List.length_cons, List.length_append]; omega, by simp, ?_, ?_⟩
  · have hk : keyBody C (i :: I) = i :: (C ++ I) := rfl
    unfold LGTIN.gs1ElementString
    dsimp only
    rw [replaceUriEscapes_escape, hk, padLeft_of_le (by
      rw [List.length_append, length_natStr_uCheck, List.length_cons, List.length_append]; omega)]
    simp
  · have hk : keyBody C (i :: I) = i :: (C ++ I) := rfl
    dsimp only
    rw [hk, padLeft_of_le (by rw [List.length_append, length_natStr_uCheck, List.length_cons, List.length_append]; omega)]

private theorem UPUI_put (s : Str) (n : Int) (x : UPUI) (h : UPUI.fromGs1ElementString s n = .ok x) :
    ∃ body k rest, body.length = 13 ∧ s = py "(01)" ++ (body ++ k :: rest) ∧
      x.gs1ElementString = .ok (py "(01)" ++ (body ++ (natStr (uCheck body) ++ rest))) := by
  obtain ⟨i, C, I, k, c, ⟨hd, hl⟩, hc, _, rfl, hu⟩ := (UPUI.from_iff _ _ _).1 h
  obtain ⟨C', I', S', ⟨⟨_, h1⟩, h2, _⟩, _, e, rfl⟩ := UPUI.new_iff.1 hu
  have hd' := Dec.cons.1 hd
  have hC : Dec C := (Dec.append.1 hd'.2).1
  have hIk := Dec.append.1 (Dec.append.1 hd'.2).2
  obtain ⟨rfl, rfl, rfl⟩ := uri3_inj hC.no_dot (Dec.no_dot (Dec.cons.2 ⟨hd'.1, hIk.1⟩)) h1.no_dot h2.no_dot e
  refine ⟨(i :: (C ++ I)), k, (py "(235)" ++ c), by simp only [List.length_cons, List.length_append]; omega, by simp, ?_⟩
  · unfold UPUI.gs1ElementString
    dsimp only
    rw [show getIdx (i :: I) 0 = .ok i from rfl, ok_bind, show (i :: I).drop 1 = I from rfl, show i :: C ++ I = i :: (C ++ I) from rfl,
      checksum_dec (Dec.cons.2 ⟨hd'.1, Dec.append.2 ⟨hC, hIk.1⟩⟩), ok_bind, pure_ok, replaceUriEscapes_escape]
    simp

private theorem ITIP_put (s : Str) (n : Int) (x : ITIP) (h : ITIP.fromGs1ElementString s n = .ok x) :
    ∃ body k rest, body.length = 13 ∧ s = py "(8006)" ++ (body ++ k :: rest) ∧
      x.gs1ElementString = .ok (py "(8006)" ++ (body ++ (natStr (uCheck body) ++ rest))) := by
  obtain ⟨i, C, I, k, A, B, c, ⟨hd, hl, _, _⟩, hc, _, rfl, hu⟩ := (ITIP.from_iff _ _ _).1 h
  obtain ⟨C', I', A', B', S', ⟨⟨_, h1⟩, ⟨_, h2⟩, ⟨_, h3⟩, ⟨_, h4⟩, _⟩, _, e, rfl⟩ := ITIP.new_iff.1 hu
  have hd' := Dec.cons.1 hd
  have hC : Dec C := (Dec.append.1 hd'.2).1
  have hIk := Dec.append.1 (Dec.append.1 hd'.2).2
  have hAB := Dec.append.1 (Dec.cons.1 hIk.2).2
  obtain ⟨rfl, rfl, e2⟩ := uri3_inj hC.no_dot (Dec.no_dot (Dec.cons.2 ⟨hd'.1, hIk.1⟩)) h1.no_dot h2.no_dot e
  obtain ⟨rfl, e3⟩ := append_sep_inj hAB.1.no_dot h3.no_dot e2
  obtain ⟨rfl, rfl⟩ := append_sep_inj hAB.2.no_dot h4.no_dot e3
  refine ⟨(i :: (C ++ I)), k, (A ++ (B ++ (py "(21)" ++ c))), by simp only [List.length_cons, List.length_append]; omega, by simp, ?_⟩
  · unfold ITIP.gs1ElementString
    dsimp only
    rw [show getIdx (i :: I) 0 = .ok i from rfl, ok_bind, show (i :: I).drop 1 = I from rfl, show i :: C ++ I = i :: (C ++ I) from rfl,
      checksum_dec (Dec.cons.2 ⟨hd'.1, Dec.append.2 ⟨hC, hIk.1⟩⟩), ok_bind, pure_ok, replaceUriEscapes_escape]
    simp

private theorem SSCC_put (s : Str) (n : Int) (x : SSCC) (h : SSCC.fromGs1ElementString s n = .ok x) :
    ∃ body k rest, body.length = 17 ∧ s = py "(00)" ++ (body ++ k :: rest) ∧
      x.gs1ElementString = .ok (py "(00)" ++ (body ++ (natStr (uCheck body) ++ rest))) ∧ x.sscc = body ++ (natStr (uCheck body) ++ rest) := by
  obtain ⟨i, C, I, k, ⟨hd, hl⟩, _, rfl, hu⟩ := (SSCC.from_iff _ _ _).1 h
  obtain ⟨C', I', ⟨⟨_, h1⟩, _⟩, _, e, rfl⟩ := SSCC.new_iff.1 hu
  have hd' := Dec.cons.1 hd
  obtain ⟨rfl, rfl⟩ := uri2_inj (Dec.append.1 hd'.2).1.no_dot h1.no_dot e
  refine ⟨(i :: (C ++ I)), k, [], by simp only [List.length_cons, List.length_append]; omega, by simp, ?_, ?_⟩
  · have hk : keyBody C (i :: I) = i :: (C ++ I) := rfl
    unfold SSCC.gs1ElementString
    dsimp only
    rw [hk]
    simp
  · have hk : keyBody C (i :: I) = i :: (C ++ I) := rfl
    dsimp only
    rw [hk]
    simp

private theorem GSRN_put (s : Str) (n : Int) (x : GSRN) (h : GSRN.fromGs1ElementString s n = .ok x) :
    ∃ body k rest, body.length = 17 ∧ s = py "(8018)" ++ (body ++ k :: rest) ∧
      x.gs1ElementString = .ok (py "(8018)" ++ (body ++ (natStr (uCheck body) ++ rest))) ∧ x.gsrn = body ++ (natStr (uCheck body) ++ rest) := by
  obtain ⟨C, I, k, ⟨hd, hl⟩, _, rfl, hu⟩ := (GSRN.from_iff _ _ _).1 h
  obtain ⟨C', I', ⟨⟨_, h1⟩, _⟩, _, e, rfl⟩ := GSRN.new_iff.1 hu
  obtain ⟨rfl, rfl⟩ := uri2_inj (Dec.append.1 hd).1.no_dot h1.no_dot e
  refine ⟨(C ++ I), k, [], by simp only [List.length_append]; omega, by simp, ?_, ?_⟩
  · unfold GSRN.gs1ElementString
    simp
  · simp

private theorem GSRNP_put (s : Str) (n : Int) (x : GSRNP) (h : GSRNP.fromGs1ElementString s n = .ok x) :
    ∃ body k rest, body.length = 17 ∧ s = py "(8017)" ++ (body ++ k :: rest) ∧
      x.gs1ElementString = .ok (py "(8017)" ++ (body ++ (natStr (uCheck body) ++ rest))) ∧ x.gsrnp = body ++ (natStr (uCheck body) ++ rest) := by
  obtain ⟨C, I, k, ⟨hd, hl⟩, _, rfl, hu⟩ := (GSRNP.from_iff _ _ _).1 h
  obtain ⟨C', I', ⟨⟨_, h1⟩, _⟩, _, e, rfl⟩ := GSRNP.new_iff.1 hu
  obtain ⟨rfl, rfl⟩ := uri2_inj (Dec.append.1 hd).1.no_dot h1.no_dot e
  refine ⟨(C ++ I), k, [], by simp only [List.length_append]; omega, by simp, ?_, ?_⟩
  · unfold GSRNP.gs1ElementString
    simp
  · simp

private theorem PGLN_put (s : Str) (n : Int) (x : PGLN) (h : PGLN.fromGs1ElementString s n = .ok x) :
    ∃ body k rest, body.length = 12 ∧ s = py "(417)" ++ (body ++ k :: rest) ∧
      x.gs1ElementString = .ok (py "(417)" ++ (body ++ (natStr (uCheck body) ++ rest))) ∧ x.pgln = body ++ (natStr (uCheck body) ++ rest) := by
  obtain ⟨C, I, k, ⟨hd, hl⟩, _, rfl, hu⟩ := (PGLN.from_iff _ _ _).1 h
  obtain ⟨C', I', ⟨⟨_, h1⟩, _⟩, _, e, rfl⟩ := PGLN.new_iff.1 hu
  obtain ⟨rfl, rfl⟩ := uri2_inj (Dec.append.1 hd).1.no_dot h1.no_dot e
  refine ⟨(C ++ I), k, [], by simp only [List.length_append]; omega, by simp, ?_, ?_⟩
  · unfold PGLN.gs1ElementString
    simp
  · simp

private theorem GSIN_put (s : Str) (n : Int) (x : GSIN) (h : GSIN.fromGs1ElementString s n = .ok x) :
    ∃ body k rest, body.length = 16 ∧ s = py "(402)" ++ (body ++ k :: rest) ∧
      x.gs1ElementString = .ok (py "(402)" ++ (body ++ (natStr (uCheck body) ++ rest))) ∧ x.gsin = body ++ (natStr (uCheck body) ++ rest) := by
  obtain ⟨C, I, k, ⟨hd, hl⟩, _, rfl, hu⟩ := (GSIN.from_iff _ _ _).1 h
  obtain ⟨C', I', ⟨⟨_, h1⟩, _⟩, _, e, rfl⟩ := GSIN.new_iff.1 hu
  obtain ⟨rfl, rfl⟩ := uri2_inj (Dec.append.1 hd).1.no_dot h1.no_dot e
  refine ⟨(C ++ I), k, [], by simp only [List.length_append]; omega, by simp, ?_, ?_⟩
  · unfold GSIN.gs1ElementString
    simp
  · simp

private theorem SGLN_put (s : Str) (n : Int) (x : SGLN) (h : SGLN.fromGs1ElementString s n = .ok x) :
    ∃ body k rest, body.length = 12 ∧ s = py "(414)" ++ (body ++ k :: rest) ∧
      x.gs1ElementString = .ok (py "(414)" ++ (body ++ (natStr (uCheck body) ++ rest))) ∧ x.gln = body ++ natStr (uCheck body) := by
  obtain ⟨C, I, k, c, ⟨hd, hl⟩, hc, _, _, rfl, hu⟩ := (SGLN.from_iff _ _ _).1 h
  obtain ⟨C', I', S', ⟨⟨_, h1⟩, h2, _⟩, _, e, rfl⟩ := SGLN.new_iff.1 hu
  obtain ⟨rfl, rfl, rfl⟩ := uri3_inj (Dec.append.1 hd).1.no_dot (Dec.append.1 (Dec.append.1 hd).2).1.no_dot h1.no_dot h2.no_dot e
  refine ⟨(C ++ I), k, (py "(254)" ++ c), by simp only [List.length_append]; omega, by simp, ?_, ?_⟩
  · unfold SGLN.gs1ElementString
    dsimp only
    rw [replaceUriEscapes_escape]
    simp
  · simp

private theorem GRAI_put (s : Str) (n : Int) (x : GRAI) (h : GRAI.fromGs1ElementString s n = .ok x) :
    ∃ body k rest, body.length = 12 ∧ s = py "(8003)0" ++ (body ++ k :: rest) ∧
      x.gs1ElementString = .ok (py "(8003)0" ++ (body ++ (natStr (uCheck body) ++ rest))) ∧ x.grai = body ++ (natStr (uCheck body) ++ rest) := by
  obtain ⟨C, I, k, c, ⟨hd, hl⟩, hc, _, rfl, hu⟩ := (GRAI.from_iff _ _ _).1 h
  obtain ⟨C', I', S', ⟨⟨_, h1⟩, h2, _⟩, _, e, rfl⟩ := GRAI.new_iff.1 hu
  obtain ⟨rfl, rfl, rfl⟩ := uri3_inj (Dec.append.1 hd).1.no_dot (Dec.append.1 (Dec.append.1 hd).2).1.no_dot h1.no_dot h2.no_dot e
  refine ⟨(C ++ I), k, (c), by simp only [List.length_append]; omega, by simp, ?_, ?_⟩
  · unfold GRAI.gs1ElementString
    dsimp only
    rw [replaceUriEscapes_escape]
    simp
  · simp [replaceUriEscapes_escape]

private theorem GDTI_put (s : Str) (n : Int) (x : GDTI) (h : GDTI.fromGs1ElementString s n = .ok x) :
    ∃ body k rest, body.length = 12 ∧ s = py "(253)" ++ (body ++ k :: rest) ∧
      x.gs1ElementString = .ok (py "(253)" ++ (body ++ (natStr (uCheck body) ++ rest))) ∧ x.gdti = body ++ (natStr (uCheck body) ++ rest) := by
  obtain ⟨C, I, k, c, ⟨hd, hl⟩, hc, _, rfl, hu⟩ := (GDTI.from_iff _ _ _).1 h
  obtain ⟨C', I', S', ⟨⟨_, h1⟩, h2, _⟩, _, e, rfl⟩ := GDTI.new_iff.1 hu
  obtain ⟨rfl, rfl, rfl⟩ := uri3_inj (Dec.append.1 hd).1.no_dot (Dec.append.1 (Dec.append.1 hd).2).1.no_dot h1.no_dot h2.no_dot e
  refine ⟨(C ++ I), k, (c), by simp only [List.length_append]; omega, by simp, ?_, ?_⟩
  · unfold GDTI.gs1ElementString
    dsimp only
    rw [replaceUriEscapes_escape]
    simp
  · simp [replaceUriEscapes_escape]

private theorem SGCN_put (s : Str) (n : Int) (x : SGCN) (h : SGCN.fromGs1ElementString s n = .ok x) :
    ∃ body k rest, body.length = 12 ∧ s = py "(255)" ++ (body ++ k :: rest) ∧
      x.gs1ElementString = .ok (py "(255)" ++ (body ++ (natStr (uCheck body) ++ rest))) ∧ x.gcn = body ++ (natStr (uCheck body) ++ rest) := by
  obtain ⟨C, I, k, c, ⟨hd, hl⟩, hc, _, rfl, hu⟩ := (SGCN.from_iff _ _ _).1 h
  obtain ⟨C', I', S', ⟨⟨_, h1⟩, h2, ⟨_, h3⟩⟩, _, e, rfl⟩ := SGCN.new_iff.1 hu
  obtain ⟨rfl, rfl, rfl⟩ := uri3_inj (Dec.append.1 hd).1.no_dot (Dec.append.1 (Dec.append.1 hd).2).1.no_dot h1.no_dot h2.no_dot e
  have hcd : Digits (escape c) := by
    refine digits_of_dec_ascii h3 ?_
    exact gs3a3_ascii (gs3a3_escape hc.1 (by rintro rfl; simp at hc))
  have hesc : escape c = c := by
    have := replaceUriEscapes_escape (escape c)
    rw [escape_digits hcd] at this
    rw [← this, replaceUriEscapes_escape]
  rw [hesc]
  refine ⟨(C ++ I), k, c, by simp only [List.length_append]; omega, by simp, ?_, ?_⟩
  · unfold SGCN.gs1ElementString
    simp
  · simp

private theorem SGTIN_len (s : Str) (n : Nat) (x : SGTIN) (h : SGTIN.fromGs1ElementString s n = .ok x) : x.companyPref.length = n := by
  obtain ⟨i, C, I, k, c, ⟨hd, hl⟩, hc, _, hcl, rfl, hu⟩ := (SGTIN.from_iff _ _ _).1 h
  obtain ⟨C', I', S', ⟨⟨_, h1⟩, ⟨_, h2⟩, _⟩, hside, e, rfl⟩ := SGTIN.new_iff.1 hu
  have hd' := Dec.cons.1 hd
  have hC : Dec C := (Dec.append.1 hd'.2).1
  have hIk := Dec.append.1 (Dec.append.1 hd'.2).2
  obtain ⟨rfl, rfl, rfl⟩ := uri3_inj hC.no_dot (Dec.no_dot (Dec.cons.2 ⟨hd'.1, hIk.1⟩)) h1.no_dot h2.no_dot e
  simp only [clampIdx] at hcl
  dsimp only
  split at hcl <;> omega

private theorem LGTIN_len (s : Str) (n : Nat) (x : LGTIN) (h : LGTIN.fromGs1ElementString s n = .ok x) : x.companyPref.length = n := by
  obtain ⟨i, C, I, k, c, ⟨hd, hl⟩, hc, _, hcl, rfl, hu⟩ := (LGTIN.from_iff _ _ _).1 h
  obtain ⟨C', I', S', ⟨⟨_, h1⟩, ⟨_, h2⟩, _⟩, hside, e, rfl⟩ := LGTIN.new_iff.1 hu
  have hd' := Dec.cons.1 hd
  have hC : Dec C := (Dec.append.1 hd'.2).1
  have hIk := Dec.append.1 (Dec.append.1 hd'.2).2
  obtain ⟨rfl, rfl, rfl⟩ := uri3_inj hC.no_dot (Dec.no_dot (Dec.cons.2 ⟨hd'.1, hIk.1⟩)) h1.no_dot h2.no_dot e
  simp only [clampIdx] at hcl
  dsimp only
  split at hcl <;> omega

private theorem UPUI_len (s : Str) (n : Nat) (x : UPUI) (h : UPUI.fromGs1ElementString s n = .ok x) : x.companyPref.length = n := by
  obtain ⟨i, C, I, k, c, ⟨hd, hl⟩, hc, hcl, rfl, hu⟩ := (UPUI.from_iff _ _ _).1 h
  obtain ⟨C', I', S', ⟨⟨_, h1⟩, h2, _⟩, hside, e, rfl⟩ := UPUI.new_iff.1 hu
  have hd' := Dec.cons.1 hd
  have hC : Dec C := (Dec.append.1 hd'.2).1
  have hIk := Dec.append.1 (Dec.append.1 hd'.2).2
  obtain ⟨rfl, rfl, rfl⟩ := uri3_inj hC.no_dot (Dec.no_dot (Dec.cons.2 ⟨hd'.1, hIk.1⟩)) h1.no_dot h2.no_dot e
  simp only [clampIdx] at hcl
  dsimp only
  split at hcl <;> omega

private theorem ITIP_len (s : Str) (n : Nat) (x : ITIP) (h : ITIP.fromGs1ElementString s n = .ok x) : x.companyPref.length = n := by
  obtain ⟨i, C, I, k, A, B, c, ⟨hd, hl, _, _⟩, hc, hcl, rfl, hu⟩ := (ITIP.from_iff _ _ _).1 h
  obtain ⟨C', I', A', B', S', ⟨⟨_, h1⟩, ⟨_, h2⟩, ⟨_, h3⟩, ⟨_, h4⟩, _⟩, hside, e, rfl⟩ := ITIP.new_iff.1 hu
  have hd' := Dec.cons.1 hd
  have hC : Dec C := (Dec.append.1 hd'.2).1
  have hIk := Dec.append.1 (Dec.append.1 hd'.2).2
  have hAB := Dec.append.1 (Dec.cons.1 hIk.2).2
  obtain ⟨rfl, rfl, e2⟩ := uri3_inj hC.no_dot (Dec.no_dot (Dec.cons.2 ⟨hd'.1, hIk.1⟩)) h1.no_dot h2.no_dot e
  simp only [clampIdx] at hcl
  dsimp only
  split at hcl <;> omega

private theorem SSCC_len (s : Str) (n : Nat) (x : SSCC) (h : SSCC.fromGs1ElementString s n = .ok x) : x.companyPref.length = n := by
  obtain ⟨i, C, I, k, ⟨hd, hl⟩, hcl, rfl, hu⟩ := (SSCC.from_iff _ _ _).1 h
  obtain ⟨C', I', ⟨⟨_, h1⟩, _⟩, hside, e, rfl⟩ := SSCC.new_iff.1 hu
  have hd' := Dec.cons.1 hd
  obtain ⟨rfl, rfl⟩ := uri2_inj (Dec.append.1 hd'.2).1.no_dot h1.no_dot e
  simp only [clampIdx] at hcl
  dsimp only
  split at hcl <;> omega

private theorem GSRN_len (s : Str) (n : Nat) (x : GSRN) (h : GSRN.fromGs1ElementString s n = .ok x) : x.companyPref.length = n := by
  obtain ⟨C, I, k, ⟨hd, hl⟩, hcl, rfl, hu⟩ := (GSRN.from_iff _ _ _).1 h
  obtain ⟨C', I', ⟨⟨_, h1⟩, _⟩, hside, e, rfl⟩ := GSRN.new_iff.1 hu
  obtain ⟨rfl, rfl⟩ := uri2_inj (Dec.append.1 hd).1.no_dot h1.no_dot e
  simp only [clampIdx] at hcl
  dsimp only
  split at hcl <;> omega

private theorem GSRNP_len (s : Str) (n : Nat) (x : GSRNP) (h : GSRNP.fromGs1ElementString s n = .ok x) : x.companyPref.length = n := by
  obtain ⟨C, I, k, ⟨hd, hl⟩, hcl, rfl, hu⟩ := (GSRNP.from_iff _ _ _).1 h
  obtain ⟨C', I', ⟨⟨_, h1⟩, _⟩, hside, e, rfl⟩ := GSRNP.new_iff.1 hu
  obtain ⟨rfl, rfl⟩ := uri2_inj (Dec.append.1 hd).1.no_dot h1.no_dot e
  simp only [clampIdx] at hcl
  dsimp only
  split at hcl <;> omega

private theorem PGLN_len (s : Str) (n : Nat) (x : PGLN) (h : PGLN.fromGs1ElementString s n = .ok x) : x.companyPref.length = n := by
  obtain ⟨C, I, k, ⟨hd, hl⟩, hcl, rfl, hu⟩ := (PGLN.from_iff _ _ _).1 h
  obtain ⟨C', I', ⟨⟨_, h1⟩, _⟩, hside, e, rfl⟩ := PGLN.new_iff.1 hu
  obtain ⟨rfl, rfl⟩ := uri2_inj (Dec.append.1 hd).1.no_dot h1.no_dot e
  simp only [clampIdx] at hcl
  dsimp only
  split at hcl <;> omega

private theorem GSIN_len (s : Str) (n : Nat) (x : GSIN) (h : GSIN.fromGs1ElementString s n = .ok x) : x.companyPref.length = n := by
  obtain ⟨C, I, k, ⟨hd, hl⟩, hcl, rfl, hu⟩ := (GSIN.from_iff _ _ _).1 h
  obtain ⟨C', I', ⟨⟨_, h1⟩, _⟩, hside, e, rfl⟩ := GSIN.new_iff.1 hu
  obtain ⟨rfl, rfl⟩ := uri2_inj (Dec.append.1 hd).1.no_dot h1.no_dot e
  simp only [clampIdx] at hcl
  dsimp only
  split at hcl <;> omega

private theorem SGLN_len (s : Str) (n : Nat) (x : SGLN) (h : SGLN.fromGs1ElementString s n = .ok x) : x.companyPref.length = n := by
  obtain ⟨C, I, k, c, ⟨hd, hl⟩, hc, _, hcl, rfl, hu⟩ := (SGLN.from_iff _ _ _).1 h
  obtain ⟨C', I', S', ⟨⟨_, h1⟩, h2, _⟩, hside, e, rfl⟩ := SGLN.new_iff.1 hu
  obtain ⟨rfl, rfl, rfl⟩ := uri3_inj (Dec.append.1 hd).1.no_dot (Dec.append.1 (Dec.append.1 hd).2).1.no_dot h1.no_dot h2.no_dot e
  simp only [clampIdx] at hcl
  dsimp only
  split at hcl <;> omega

private theorem GRAI_len (s : Str) (n : Nat) (x : GRAI) (h : GRAI.fromGs1ElementString s n = .ok x) : x.companyPref.length = n := by
  obtain ⟨C, I, k, c, ⟨hd, hl⟩, hc, hcl, rfl, hu⟩ := (GRAI.from_iff _ _ _).1 h
  obtain ⟨C', I', S', ⟨⟨_, h1⟩, h2, _⟩, hside, e, rfl⟩ := GRAI.new_iff.1 hu
  obtain ⟨rfl, rfl, rfl⟩ := uri3_inj (Dec.append.1 hd).1.no_dot (Dec.append.1 (Dec.append.1 hd).2).1.no_dot h1.no_dot h2.no_dot e
  simp only [clampIdx] at hcl
  dsimp only
  split at hcl <;> omega

private theorem GDTI_len (s : Str) (n : Nat) (x : GDTI) (h : GDTI.fromGs1ElementString s n = .ok x) : x.companyPref.length = n := by
  obtain ⟨C, I, k, c, ⟨hd, hl⟩, hc, hcl, rfl, hu⟩ := (GDTI.from_iff _ _ _).1 h
  obtain ⟨C', I', S', ⟨⟨_, h1⟩, h2, _⟩, hside, e, rfl⟩ := GDTI.new_iff.1 hu
  obtain ⟨rfl, rfl, rfl⟩ := uri3_inj (Dec.append.1 hd).1.no_dot (Dec.append.1 (Dec.append.1 hd).2).1.no_dot h1.no_dot h2.no_dot e
  simp only [clampIdx] at hcl
  dsimp only
  split at hcl <;> omega

private theorem SGCN_len (s : Str) (n : Nat) (x : SGCN) (h : SGCN.fromGs1ElementString s n = .ok x) : x.companyPref.length = n := by
  obtain ⟨C, I, k, c, ⟨hd, hl⟩, hc, hcl, rfl, hu⟩ := (SGCN.from_iff _ _ _).1 h
  obtain ⟨C', I', S', ⟨⟨_, h1⟩, h2, ⟨_, h3⟩⟩, hside, e, rfl⟩ := SGCN.new_iff.1 hu
  obtain ⟨rfl, rfl, rfl⟩ := uri3_inj (Dec.append.1 hd).1.no_dot (Dec.append.1 (Dec.append.1 hd).2).1.no_dot h1.no_dot h2.no_dot e
  simp only [clampIdx] at hcl
  dsimp only
  split at hcl <;> omega

private theorem GIAI_put (s : Str) (n : Int) (x : GIAI) (hs : '.' ∉ s) (h : GIAI.fromGs1ElementString s n = .ok x) :
    x.giai = (s.drop 6).takeWhile (· ≠ ':') := by
  obtain ⟨C, c, _, hcl, rfl, hu⟩ := (GIAI.from_iff _ _ _).1 h
  obtain ⟨C', S', ⟨⟨_, h1⟩, _⟩, _, e, rfl⟩ := GIAI.new_iff.1 hu
  obtain ⟨rfl, rfl⟩ := uri2_inj (fun hm => hs (by simp [hm])) h1.no_dot e
  dsimp only
  rw [split_escape_colon, replaceUriEscapes_escape, show (py "(8004)" ++ (C ++ c)).drop 6 = C ++ c from rfl,
    List.takeWhile_append_of_pos]
  intro a ha
  simp only [decide_eq_true_eq]
  rintro rfl
  exact h1.no_colon ha

private theorem GINC_put (s : Str) (n : Int) (x : GINC) (hs : '.' ∉ s) (h : GINC.fromGs1ElementString s n = .ok x) :
    x.ginc = s.drop 5 := by
  obtain ⟨C, c, _, hcl, rfl, hu⟩ := (GINC.from_iff _ _ _).1 h
  obtain ⟨C', S', ⟨⟨_, h1⟩, _⟩, _, e, rfl⟩ := GINC.new_iff.1 hu
  obtain ⟨rfl, rfl⟩ := uri2_inj (fun hm => hs (by simp [hm])) h1.no_dot e
  dsimp only
  rw [replaceUriEscapes_escape]
  rfl

private theorem GIAI_len (s : Str) (n : Nat) (x : GIAI) (hs : '.' ∉ s) (h : GIAI.fromGs1ElementString s n = .ok x) :
    x.companyPref.length = n := by
  obtain ⟨C, c, _, hcl, rfl, hu⟩ := (GIAI.from_iff _ _ _).1 h
  obtain ⟨C', S', ⟨⟨_, h1⟩, hg⟩, hside, e, rfl⟩ := GIAI.new_iff.1 hu
  obtain ⟨rfl, rfl⟩ := uri2_inj (fun hm => hs (by simp [hm])) h1.no_dot e
  have hc : c ≠ [] := by
    rintro rfl
    exact absurd (show Re.Lang Rx.gs3a3 [] from hg) (by rw [← Re.fullmatch_iff]; decide)
  have := List.length_pos_iff.2 hc
  simp only [clampIdx, List.length_append, List.length_cons, List.length_nil] at hcl
  dsimp only
  split at hcl <;> omega

private theorem GINC_len (s : Str) (n : Nat) (x : GINC) (hs : '.' ∉ s) (h : GINC.fromGs1ElementString s n = .ok x) :
    ∃ C S, Dec C ∧ C.length = n ∧ x.epcUri = py "urn:epc:id:ginc" ++ ':' :: (C ++ '.' :: S) := by
  obtain ⟨C, c, _, hcl, rfl, hu⟩ := (GINC.from_iff _ _ _).1 h
  obtain ⟨C', S', ⟨⟨_, h1⟩, hg⟩, hside, e, rfl⟩ := GINC.new_iff.1 hu
  obtain ⟨rfl, rfl⟩ := uri2_inj (fun hm => hs (by simp [hm])) h1.no_dot e
  have hc : c ≠ [] := by
    rintro rfl
    exact absurd (show Re.Lang Rx.gs3a3 [] from hg) (by rw [← Re.fullmatch_iff]; decide)
  have := List.length_pos_iff.2 hc
  simp only [clampIdx, List.length_append, List.length_cons, List.length_nil] at hcl
  refine ⟨C, _, h1, ?_, rfl⟩
  split at hcl <;> omega

private theorem CPI_len (s : Str) (n : Nat) (x : CPI) (h : CPI.fromGs1ElementString s n = .ok x) : x.companyPref.length = n := by
  obtain ⟨C, r, t, hm, ⟨hp, _⟩, hcl, rfl, hu⟩ := (CPI.from_iff _ _ _).1 h
  obtain ⟨C', D', S', ⟨⟨_, h1⟩, h2, _⟩, hside, e, rfl⟩ := CPI.new_iff.1 hu
  obtain ⟨d, q, t', ⟨hd, _⟩, ⟨hq, _⟩, _, e'⟩ := (CPI.elem_lang _).1 hm
  have e'' : (C ++ r) ++ '(' :: (py "8011)" ++ t) = (d ++ q) ++ '(' :: (py "8011)" ++ t') := by
    have := List.append_cancel_left e'
    simpa using this
  have hp' : '(' ∉ d ++ q := by
    intro hx
    rcases List.mem_append.1 hx with hx | hx
    · exact hd.no_paren hx
    · exact CPI.gs39_no_paren hq hx
  have hr := (append_sep_inj hp hp' e'').1
  have hch : ∀ a ∈ C ++ r, a ≠ '.' := by
    intro a ha
    rw [hr] at ha
    rcases List.mem_append.1 ha with ha | ha
    · exact isDecimal_ne_dot (hd a ha)
    · exact fun e => by rw [e] at ha; exact absurd (hq _ ha) (by decide)
  obtain ⟨rfl, rfl, rfl⟩ := uri3_inj (fun hx => hch _ (List.mem_append_left _ hx) rfl)
    (escape39_no_dot' (fun hx => hch _ (List.mem_append_right _ hx) rfl)) h1.no_dot (cpref_no_dot h2) e
  have hc : r ≠ [] := by
    rintro rfl
    exact absurd (show Re.Lang Rx.cpref [] from h2) (by rw [← Re.fullmatch_iff]; decide)
  have := List.length_pos_iff.2 hc
  simp only [clampIdx, List.length_append] at hcl
  dsimp only
  split at hcl <;> omega

private theorem cut_inj {p b b' r r' : Str} {k k' : Char} {n : Nat} (hb : b.length = n) (hb' : b'.length = n)
    (e : p ++ (b ++ k :: r) = p ++ (b' ++ k' :: r')) : b = b' ∧ r = r' := by
  obtain ⟨h1, h2⟩ := List.append_inj (List.append_cancel_left e) (by omega)
  exact ⟨h1, (List.cons.inj h2).2⟩

/-- The same string, accepted with two company prefix lengths: the objects have the same GS1 element string and the same GS1 keys. -/
theorem C105_objects (c : Cls) (s : Str) (n m : Int) (x y : Scheme) (hs : c = .giai ∨ c = .ginc → '.' ∉ s)
    (hx : c.fromGs1ElementString s n = .ok x) (hy : c.fromGs1ElementString s m = .ok y) :
    x.gs1ElementString = y.gs1ElementString ∧ ∀ t, x.gs1Key t = y.gs1Key t := by
  match c with
  | .cpi =>
    obtain ⟨x, h1, rfl⟩ := map_ok_iff.1 hx
    obtain ⟨y, h2, rfl⟩ := map_ok_iff.1 hy
    exact ⟨(C36_cpi _ _ _ h1).trans (C36_cpi _ _ _ h2).symm, fun _ => rfl⟩
  | .gdti =>
    obtain ⟨x, h1, rfl⟩ := map_ok_iff.1 hx
    obtain ⟨y, h2, rfl⟩ := map_ok_iff.1 hy
    obtain ⟨b, k, r, hb, rfl, ex, hkx⟩ := GDTI_put s n x h1
    obtain ⟨b', k', r', hb', e, ey, hky⟩ := GDTI_put _ m y h2
    obtain ⟨rfl, rfl⟩ := cut_inj hb hb' e
    refine ⟨ex.trans ey.symm, fun t => ?_⟩
    · show Scheme.noKwargs x.gdti t = Scheme.noKwargs y.gdti t
      rw [hkx, hky]
  | .giai =>
    obtain ⟨x, h1, rfl⟩ := map_ok_iff.1 hx
    obtain ⟨y, h2, rfl⟩ := map_ok_iff.1 hy
    have e : x.giai = y.giai := (GIAI_put s n x (hs (by simp)) h1).trans (GIAI_put s m y (hs (by simp)) h2).symm
    refine ⟨?_, fun t => ?_⟩
    · show GIAI.gs1ElementString x = GIAI.gs1ElementString y
      rw [GIAI.gs1ElementString, GIAI.gs1ElementString, e]
    · show Scheme.noKwargs x.giai t = Scheme.noKwargs y.giai t
      rw [e]
  | .ginc =>
    obtain ⟨x, h1, rfl⟩ := map_ok_iff.1 hx
    obtain ⟨y, h2, rfl⟩ := map_ok_iff.1 hy
    have e : x.ginc = y.ginc := (GINC_put s n x (hs (by simp)) h1).trans (GINC_put s m y (hs (by simp)) h2).symm
    refine ⟨?_, fun t => ?_⟩
    · show GINC.gs1ElementString x = GINC.gs1ElementString y
      rw [GINC.gs1ElementString, GINC.gs1ElementString, e]
    · show Scheme.noKwargs x.ginc t = Scheme.noKwargs y.ginc t
      rw [e]
  | .grai =>
    obtain ⟨x, h1, rfl⟩ := map_ok_iff.1 hx
    obtain ⟨y, h2, rfl⟩ := map_ok_iff.1 hy
    obtain ⟨b, k, r, hb, rfl, ex, hkx⟩ := GRAI_put s n x h1
    obtain ⟨b', k', r', hb', e, ey, hky⟩ := GRAI_put _ m y h2
    obtain ⟨rfl, rfl⟩ := cut_inj hb hb' e
    refine ⟨ex.trans ey.symm, fun t => ?_⟩
    · show Scheme.noKwargs x.grai t = Scheme.noKwargs y.grai t
      rw [hkx, hky]
  | .gsin =>
    obtain ⟨x, h1, rfl⟩ := map_ok_iff.1 hx
    obtain ⟨y, h2, rfl⟩ := map_ok_iff.1 hy
    obtain ⟨b, k, r, hb, rfl, ex, hkx⟩ := GSIN_put s n x h1
    obtain ⟨b', k', r', hb', e, ey, hky⟩ := GSIN_put _ m y h2
    obtain ⟨rfl, rfl⟩ := cut_inj hb hb' e
    refine ⟨ex.trans ey.symm, fun t => ?_⟩
    · show Scheme.noKwargs x.gsin t = Scheme.noKwargs y.gsin t
      rw [hkx, hky]
  | .gsrn =>
    obtain ⟨x, h1, rfl⟩ := map_ok_iff.1 hx
    obtain ⟨y, h2, rfl⟩ := map_ok_iff.1 hy
    obtain ⟨b, k, r, hb, rfl, ex, hkx⟩ := GSRN_put s n x h1
    obtain ⟨b', k', r', hb', e, ey, hky⟩ := GSRN_put _ m y h2
    obtain ⟨rfl, rfl⟩ := cut_inj hb hb' e
    refine ⟨ex.trans ey.symm, fun t => ?_⟩
    · show Scheme.noKwargs x.gsrn t = Scheme.noKwargs y.gsrn t
      rw [hkx, hky]
  | .gsrnp =>
    obtain ⟨x, h1, rfl⟩ := map_ok_iff.1 hx
    obtain ⟨y, h2, rfl⟩ := map_ok_iff.1 hy
    obtain ⟨b, k, r, hb, rfl, ex, hkx⟩ := GSRNP_put s n x h1
    obtain ⟨b', k', r', hb', e, ey, hky⟩ := GSRNP_put _ m y h2
    obtain ⟨rfl, rfl⟩ := cut_inj hb hb' e
    refine ⟨ex.trans ey.symm, fun t => ?_⟩
    · show Scheme.noKwargs x.gsrnp t = Scheme.noKwargs y.gsrnp t
      rw [hkx, hky]
  | .itip =>
    obtain ⟨x, h1, rfl⟩ := map_ok_iff.1 hx
    obtain ⟨y, h2, rfl⟩ := map_ok_iff.1 hy
    obtain ⟨b, k, r, hb, rfl, ex⟩ := ITIP_put s n x h1
    obtain ⟨b', k', r', hb', e, ey⟩ := ITIP_put _ m y h2
    obtain ⟨rfl, rfl⟩ := cut_inj hb hb' e
    exact ⟨ex.trans ey.symm, fun _ => rfl⟩
  | .lgtin =>
    obtain ⟨x, h1, rfl⟩ := map_ok_iff.1 hx
    obtain ⟨y, h2, rfl⟩ := map_ok_iff.1 hy
    obtain ⟨b, k, r, hb, rfl, ex, hkx⟩ := LGTIN_put s n x h1
    obtain ⟨b', k', r', hb', e, ey, hky⟩ := LGTIN_put _ m y h2
    obtain ⟨rfl, rfl⟩ := cut_inj hb hb' e
    refine ⟨ex.trans ey.symm, fun t => ?_⟩
    · show LGTIN.gtin x _ = LGTIN.gtin y _
      rw [LGTIN.gtin, LGTIN.gtin, hkx, hky]
  | .pgln =>
    obtain ⟨x, h1, rfl⟩ := map_ok_iff.1 hx
    obtain ⟨y, h2, rfl⟩ := map_ok_iff.1 hy
    obtain ⟨b, k, r, hb, rfl, ex, hkx⟩ := PGLN_put s n x h1
    obtain ⟨b', k', r', hb', e, ey, hky⟩ := PGLN_put _ m y h2
    obtain ⟨rfl, rfl⟩ := cut_inj hb hb' e
    refine ⟨ex.trans ey.symm, fun t => ?_⟩
    · show Scheme.noKwargs x.pgln t = Scheme.noKwargs y.pgln t
      rw [hkx, hky]
  | .sgcn =>
    obtain ⟨x, h1, rfl⟩ := map_ok_iff.1 hx
    obtain ⟨y, h2, rfl⟩ := map_ok_iff.1 hy
    obtain ⟨b, k, r, hb, rfl, ex, hkx⟩ := SGCN_put s n x h1
    obtain ⟨b', k', r', hb', e, ey, hky⟩ := SGCN_put _ m y h2
    obtain ⟨rfl, rfl⟩ := cut_inj hb hb' e
    refine ⟨ex.trans ey.symm, fun t => ?_⟩
    · show Scheme.noKwargs x.gcn t = Scheme.noKwargs y.gcn t
      rw [hkx, hky]
  | .sgln =>
    obtain ⟨x, h1, rfl⟩ := map_ok_iff.1 hx
    obtain ⟨y, h2, rfl⟩ := map_ok_iff.1 hy
    obtain ⟨b, k, r, hb, rfl, ex, hkx⟩ := SGLN_put s n x h1
    obtain ⟨b', k', r', hb', e, ey, hky⟩ := SGLN_put _ m y h2
    obtain ⟨rfl, rfl⟩ := cut_inj hb hb' e
    refine ⟨ex.trans ey.symm, fun t => ?_⟩
    · show Scheme.noKwargs x.gln t = Scheme.noKwargs y.gln t
      rw [hkx, hky]
  | .sgtin =>
    obtain ⟨x, h1, rfl⟩ := map_ok_iff.1 hx
    obtain ⟨y, h2, rfl⟩ := map_ok_iff.1 hy
    obtain ⟨b, k, r, hb, rfl, ex, hkx⟩ := SGTIN_put s n x h1
    obtain ⟨b', k', r', hb', e, ey, hky⟩ := SGTIN_put _ m y h2
    obtain ⟨rfl, rfl⟩ := cut_inj hb hb' e
    refine ⟨ex.trans ey.symm, fun t => ?_⟩
    · show SGTIN.gtin x _ = SGTIN.gtin y _
      rw [SGTIN.gtin, SGTIN.gtin, hkx, hky]
  | .sscc =>
    obtain ⟨x, h1, rfl⟩ := map_ok_iff.1 hx
    obtain ⟨y, h2, rfl⟩ := map_ok_iff.1 hy
    obtain ⟨b, k, r, hb, rfl, ex, hkx⟩ := SSCC_put s n x h1
    obtain ⟨b', k', r', hb', e, ey, hky⟩ := SSCC_put _ m y h2
    obtain ⟨rfl, rfl⟩ := cut_inj hb hb' e
    refine ⟨ex.trans ey.symm, fun t => ?_⟩
    · show Scheme.noKwargs x.sscc t = Scheme.noKwargs y.sscc t
      rw [hkx, hky]
  | .upui =>
    obtain ⟨x, h1, rfl⟩ := map_ok_iff.1 hx
    obtain ⟨y, h2, rfl⟩ := map_ok_iff.1 hy
    obtain ⟨b, k, r, hb, rfl, ex⟩ := UPUI_put s n x h1
    obtain ⟨b', k', r', hb', e, ey⟩ := UPUI_put _ m y h2
    obtain ⟨rfl, rfl⟩ := cut_inj hb hb' e
    exact ⟨ex.trans ey.symm, fun _ => rfl⟩
  | .adi | .bic | .gid | .imovn | .usdod => cases hx

/-- Two different lengths give two different URIs. -/
theorem C105_uri (c : Cls) (s : Str) (n m : Nat) (x y : Scheme) (hs : c = .giai ∨ c = .ginc → '.' ∉ s)
    (hx : c.fromGs1ElementString s n = .ok x) (hy : c.fromGs1ElementString s m = .ok y) : x.epcUri = y.epcUri ↔ n = m := by
  refine ⟨fun e => ?_, ?_⟩
  rotate_left
  · rintro rfl
    rw [hx] at hy
    rw [Except.ok.inj hy]
  have ex := ((C61_object c x).2.2 s n hx).1
  have ey := ((C61_object c y).2.2 s m hy).1
  rw [e, ey] at ex
  have e0 := (Except.ok.inj ex).symm
  match c with
  | .cpi =>
    obtain ⟨x, h1, rfl⟩ := map_ok_iff.1 hx
    obtain ⟨y, h2, rfl⟩ := map_ok_iff.1 hy
    have hn := CPI_len s n x h1
    have hm := CPI_len s m y h2
    cases Scheme.cpi.inj e0
    exact hn.symm.trans hm
  | .gdti =>
    obtain ⟨x, h1, rfl⟩ := map_ok_iff.1 hx
    obtain ⟨y, h2, rfl⟩ := map_ok_iff.1 hy
    have hn := GDTI_len s n x h1
    have hm := GDTI_len s m y h2
    cases Scheme.gdti.inj e0
    exact hn.symm.trans hm
  | .giai =>
    obtain ⟨x, h1, rfl⟩ := map_ok_iff.1 hx
    obtain ⟨y, h2, rfl⟩ := map_ok_iff.1 hy
    have hn := GIAI_len s n x (hs (by simp)) h1
    have hm := GIAI_len s m y (hs (by simp)) h2
    cases Scheme.giai.inj e0
    exact hn.symm.trans hm
  | .ginc =>
    obtain ⟨x, h1, rfl⟩ := map_ok_iff.1 hx
    obtain ⟨y, h2, rfl⟩ := map_ok_iff.1 hy
    obtain ⟨C, S, hC, hn, hu⟩ := GINC_len s n x (hs (by simp)) h1
    obtain ⟨C', S', hC', hm, hv⟩ := GINC_len s m y (hs (by simp)) h2
    have e' : x.epcUri = y.epcUri := e
    rw [hu, hv] at e'
    rw [← hn, ← hm, (uri2_inj hC.no_dot hC'.no_dot e').1]
  | .grai =>
    obtain ⟨x, h1, rfl⟩ := map_ok_iff.1 hx
    obtain ⟨y, h2, rfl⟩ := map_ok_iff.1 hy
    have hn := GRAI_len s n x h1
    have hm := GRAI_len s m y h2
    cases Scheme.grai.inj e0
    exact hn.symm.trans hm
  | .gsin =>
    obtain ⟨x, h1, rfl⟩ := map_ok_iff.1 hx
    obtain ⟨y, h2, rfl⟩ := map_ok_iff.1 hy
    have hn := GSIN_len s n x h1
    have hm := GSIN_len s m y h2
    cases Scheme.gsin.inj e0
    exact hn.symm.trans hm
  | .gsrn =>
    obtain ⟨x, h1, rfl⟩ := map_ok_iff.1 hx
    obtain ⟨y, h2, rfl⟩ := map_ok_iff.1 hy
    have hn := GSRN_len s n x h1
    have hm := GSRN_len s m y h2
    cases Scheme.gsrn.inj e0
    exact hn.symm.trans hm
  | .gsrnp =>
    obtain ⟨x, h1, rfl⟩ := map_ok_iff.1 hx
    obtain ⟨y, h2, rfl⟩ := map_ok_iff.1 hy
    have hn := GSRNP_len s n x h1
    have hm := GSRNP_len s m y h2
    cases Scheme.gsrnp.inj e0
    exact hn.symm.trans hm
  | .itip =>
    obtain ⟨x, h1, rfl⟩ := map_ok_iff.1 hx
    obtain ⟨y, h2, rfl⟩ := map_ok_iff.1 hy
    have hn := ITIP_len s n x h1
    have hm := ITIP_len s m y h2
    cases Scheme.itip.inj e0
    exact hn.symm.trans hm
  | .lgtin =>
    obtain ⟨x, h1, rfl⟩ := map_ok_iff.1 hx
    obtain ⟨y, h2, rfl⟩ := map_ok_iff.1 hy
    have hn := LGTIN_len s n x h1
    have hm := LGTIN_len s m y h2
    cases Scheme.lgtin.inj e0
    exact hn.symm.trans hm
  | .pgln =>
    obtain ⟨x, h1, rfl⟩ := map_ok_iff.1 hx
    obtain ⟨y, h2, rfl⟩ := map_ok_iff.1 hy
    have hn := PGLN_len s n x h1
    have hm := PGLN_len s m y h2
    cases Scheme.pgln.inj e0
    exact hn.symm.trans hm
  | .sgcn =>
    obtain ⟨x, h1, rfl⟩ := map_ok_iff.1 hx
    obtain ⟨y, h2, rfl⟩ := map_ok_iff.1 hy
    have hn := SGCN_len s n x h1
    have hm := SGCN_len s m y h2
    cases Scheme.sgcn.inj e0
    exact hn.symm.trans hm
  | .sgln =>
    obtain ⟨x, h1, rfl⟩ := map_ok_iff.1 hx
    obtain ⟨y, h2, rfl⟩ := map_ok_iff.1 hy
    have hn := SGLN_len s n x h1
    have hm := SGLN_len s m y h2
    cases Scheme.sgln.inj e0
    exact hn.symm.trans hm
  | .sgtin =>
    obtain ⟨x, h1, rfl⟩ := map_ok_iff.1 hx
    obtain ⟨y, h2, rfl⟩ := map_ok_iff.1 hy
    have hn := SGTIN_len s n x h1
    have hm := SGTIN_len s m y h2
    cases Scheme.sgtin.inj e0
    exact hn.symm.trans hm
  | .sscc =>
    obtain ⟨x, h1, rfl⟩ := map_ok_iff.1 hx
    obtain ⟨y, h2, rfl⟩ := map_ok_iff.1 hy
    have hn := SSCC_len s n x h1
    have hm := SSCC_len s m y h2
    cases Scheme.sscc.inj e0
    exact hn.symm.trans hm
  | .upui =>
    obtain ⟨x, h1, rfl⟩ := map_ok_iff.1 hx
    obtain ⟨y, h2, rfl⟩ := map_ok_iff.1 hy
    have hn := UPUI_len s n x h1
    have hm := UPUI_len s m y h2
    cases Scheme.upui.inj e0
    exact hn.symm.trans hm
  | .adi | .bic | .gid | .imovn | .usdod => cases hx

/-- `get_gs1_key` answers the same for every company prefix length with which it answers. -/
theorem C105_get_gs1_key (s k l : Str) (n m : Option Int) (t : Option GtinType)
    (hs : '.' ∉ s ∨ ¬ py "(8004)" <+: s ∧ ¬ py "(401)" <+: s)
    (hn : getGs1Key s n t = .ok k) (hm : getGs1Key s m t = .ok l) : k = l := by
  obtain ⟨c, x, hc, hx, hk⟩ := (C61_get_gs1_key s k n t).1 hn
  obtain ⟨d, y, hd, hy, hl⟩ := (C61_get_gs1_key s l m t).1 hm
  have same (n : Option Int) (h : Denotes c x s n) (h' : Denotes d y s n) : k = l := by
    have := C61_key_unique c d x y s n t hc hd h h'
    rw [hk, hl] at this
    exact Except.ok.inj this
  rcases hx with h | ⟨i, rfl, hi, h⟩ | h
  · exact same m (.inl h) hy
  rotate_left
  · exact same m (.inr (.inr h)) hy
  rcases hy with h' | ⟨j, rfl, hj, h'⟩ | h'
  · exact same (some i) (.inr (.inl ⟨i, rfl, hi, h⟩)) (.inl h')
  rotate_left
  · exact same (some i) (.inr (.inl ⟨i, rfl, hi, h⟩)) (.inr (.inr h'))
  obtain ⟨r, hr, hf⟩ := fromElem_match h
  obtain ⟨r', hr', hf'⟩ := fromElem_match h'
  obtain rfl := elem_unique hr hr' hf hf'
  have hdot : c = .giai ∨ c = .ginc → '.' ∉ s := by
    rintro (rfl | rfl)
    · obtain ⟨z, hz, -⟩ := map_ok_iff.1 h
      obtain ⟨C, q, -, -, e, -⟩ := (GIAI.from_iff _ _ _).1 hz
      exact hs.resolve_right (fun hq => hq.1 ⟨C ++ q, e.symm⟩)
    · obtain ⟨z, hz, -⟩ := map_ok_iff.1 h
      obtain ⟨C, q, -, -, e, -⟩ := (GINC.from_iff _ _ _).1 hz
      exact hs.resolve_right (fun hq => hq.2 ⟨C ++ q, e.symm⟩)
  have := (C105_objects c s i j x y hdot h h').2 t
  rw [hk, hl] at this
  exact Except.ok.inj this

/-- The exception: with a dot behind the digits, the lengths 7 and 9 give two different keys. -/
theorem C105_dot :
    getGs1Key (py "(8004)9521141.23") (some 7) = .ok (py "9521141.23") ∧ getGs1Key (py "(8004)9521141.23") (some 9) = .ok (py "95211412.3") ∧
    getGs1Key (py "(401)9521141.23") (some 7) = .ok (py "9521141.23") ∧ getGs1Key (py "(401)9521141.23") (some 9) = .ok (py "95211412.3") := by
  decide +kernel

/-- The numbers between -20 and 20 with which this SGTIN is accepted … -/
example : ((List.range 41).map (fun n => (Int.ofNat n) - 20)).filter
    (fun n => (SGTIN.fromGs1ElementString (py "(01)09521141123454(21)32a/b") n).toOption.isSome) = [-8, -7, -6, -5, -4, -3, -2, 6, 7, 8, 9, 10, 11, 12] := by
  decide +kernel

/-- … and the key for some of them. -/
example : (([-8, -2, 6, 7, 12] : List Int).map (fun n => getGs1Key (py "(01)09521141123454(21)32a/b") (some n))) =
    List.replicate 5 (.ok (py "09521141123454")) := by
  decide +kernel

namespace Src
open Spec

private theorem outcome_ok {α : Type} {f : α → Val} {r : Except Err α} {v : Val} (h : outcome f r = .ok v) : ∃ a, r = .ok a ∧ f a = v := by
  cases r with
  | error e => cases h
  | ok a => exact ⟨a, rfl, Except.ok.inj h⟩

/-- The same for the functions executed from the source: what `from_gs1_element_string` returns for two lengths answers
`gs1_element_string()` alike, and `gs1_key()` too, with and without the keyword `gtin_type`. -/
theorem C105_source (c : Cls) (s : Str) (n m : Int) (v w : Val) (hc : c.isGs1Element = true) (hs : c = .giai ∨ c = .ginc → '.' ∉ s)
    (hv : invoke (.cls (clOf c)) .from_gs1_element_string [.str s, .int n] [] = .ok v)
    (hw : invoke (.cls (clOf c)) .from_gs1_element_string [.str s, .int m] [] = .ok w) :
    invoke v .gs1_element_string [] [] = invoke w .gs1_element_string [] [] ∧
    (c.isGs1Keyed = true → ∀ t, invoke v .gs1_key [] (keyKw t) = invoke w .gs1_key [] (keyKw t)) := by
  rw [C91_element_strings c s _ hc] at hv hw
  obtain ⟨x, hx, rfl⟩ := outcome_ok hv
  obtain ⟨y, hy, rfl⟩ := outcome_ok hw
  obtain ⟨e, ek⟩ := C105_objects c s n m x y hs hx hy
  have cx := ((C61_object c x).2.2 s n hx).2
  have cy := ((C61_object c y).2.2 s m hy).2
  refine ⟨?_, fun hk t => ?_⟩
  · rw [C92_element_strings x (cx ▸ hc), C92_element_strings y (cy ▸ hc), e]
  · rw [C92_keys x t (cx ▸ hk), C92_keys y t (cy ▸ hk), ek t]

/-- `get_gs1_key(s, n)` and `get_gs1_key(s, m)`, executed from the source, do not return two different strings. -/
theorem C105_get_gs1_key_source (s : Str) (n m : Option Int) (t : Option GtinType) (v w : Val)
    (hs : '.' ∉ s ∨ ¬ py "(8004)" <+: s ∧ ¬ py "(401)" <+: s)
    (hv : function .get_gs1_key (.str s :: lenArg n) (keyKw t) = .ok v)
    (hw : function .get_gs1_key (.str s :: lenArg m) (keyKw t) = .ok w) : v = w := by
  rw [C93_get_gs1_key] at hv hw
  obtain ⟨x, hx, rfl⟩ := outcome_ok hv
  obtain ⟨y, hy, rfl⟩ := outcome_ok hw
  rw [C105_get_gs1_key s x y n m t hs hx hy]

end Src
end Epc
