/-
C59: what `from_gs1_element_string(s, n)` does, completely, for every string `s` and every company prefix length `n` (a non-negative
integer).  Negative lengths are not refused: they count from the end, as slice bounds do; the theorems `C59_x_negative` reduce every
negative length to a non-negative one.

For every class with element strings there is one theorem with up to four parts:
* the strings that are accepted: application identifier, digits (the first `n` of them, or for the classes with an indicator or
  extension digit the first `n` behind it, are the company prefix; the last digit is the check digit, which is ignored), and the
  serial part; the object returned is the one whose URI consists of these parts;
* every other string (and every other `n`) raises ConvertException, except for the two following cases:
* SGTIN, LGTIN, SGLN: a serial number containing a group in parentheses of the length of an application identifier raises ValueError;
* a serial number whose escapes the URI check misreads (see `LoneLetterEscapes`) raises ConvertException, ValueError or OverflowError.
For GIAI and GINC the strings are limited to those with no dot among the first `n` characters (a dot moves the boundary, see C36) and,
for GIAI, with no colon.
Generated by tools/gen_c59.py.
-/
import Verif.Lemmas.ElemParse
import Verif.Lemmas.LayoutText

namespace Epc
open Spec Re

private theorem clamp_add (N n k : Nat) : clampIdx N ((k : Int) + (n : Int)) = min N (k + n) := by
  rw [show ((k : Int) + (n : Int)) = ((k + n : Nat) : Int) by omega, clampIdx_pos]
  omega

private theorem clamp_nat (N n : Nat) : clampIdx N (n : Int) = min N n := by
  rw [clampIdx_pos]
  omega

private theorem not_ok_error {α : Type} {r : Except Err α} (h : ∀ x, r ≠ .ok x) : ∃ e, r = .error e := by
  cases r with
  | ok x => exact absurd rfl (h x)
  | error e => exact ⟨e, rfl⟩

private theorem dec_ne_nil {C : Str} {n : Nat} (h : C.length = n) (hn : 0 < n) : C ≠ [] := by
  rintro rfl
  simp at h
  omega

/-- SGTIN. -/
theorem C59_sgtin (s : Str) (n : Nat) :
    (∀ i C I k raw, s = py "(01)" ++ (i :: (C ++ (I ++ [k])) ++ (py "(21)" ++ raw)) →
      UDigits (i :: (C ++ (I ++ [k]))) → C.length = n → C.length + I.length = 12 → 6 ≤ n → n ≤ 12 →
      (∀ a ∈ raw, a ∈ gs82) → 1 ≤ raw.length → raw.length ≤ 20 → ¬ HasGroup 2 raw → LoneLetterEscapes raw → 
      ∃ x, SGTIN.fromGs1ElementString s n = .ok x ∧ SGTIN.new (py "urn:epc:id:sgtin:" ++ joinWith '.' [C, i :: I, escape raw]) = .ok x) ∧
    ((¬ ∃ d raw, s = py "(01)" ++ (d ++ (py "(21)" ++ raw)) ∧ UDigits d ∧ d.length = 14 ∧ (∀ a ∈ raw, a ∈ gs82) ∧ 1 ≤ raw.length ∧ raw.length ≤ 20 ∧
        (HasGroup 2 raw ∨ ¬ LoneLetterEscapes raw ∨ (6 ≤ n ∧ n ≤ 12))) →
      SGTIN.fromGs1ElementString s n = .error .convert) ∧
    (∀ d raw, s = py "(01)" ++ (d ++ (py "(21)" ++ raw)) → UDigits d → d.length = 14 → (∀ a ∈ raw, a ∈ gs82) → 1 ≤ raw.length → raw.length ≤ 20 →
      HasGroup 2 raw → SGTIN.fromGs1ElementString s n = .error .value) ∧
    (∀ d raw, s = py "(01)" ++ (d ++ (py "(21)" ++ raw)) → UDigits d → d.length = 14 → (∀ a ∈ raw, a ∈ gs82) → 1 ≤ raw.length → raw.length ≤ 20 →
      ¬ HasGroup 2 raw → ¬ LoneLetterEscapes raw →
      ∃ e, SGTIN.fromGs1ElementString s n = .error e ∧ (e = .convert ∨ e = .value ∨ e = .overflow)) := by
  have hverr : ∀ raw : Str, (∀ a ∈ raw, a ∈ gs82) → 1 ≤ raw.length → LoneLetterEscapes raw → verifyGs3a3 (escape raw) = .ok () :=
    fun raw h h1 hl => (verify_escape_iff h (by rintro rfl; simp at h1)).2 hl
  refine ⟨?_, ?_, ?_, ?_⟩
  · intro i C I k raw e hd hn hsum hlo hhi hc h1 h2 hg hl 
    rw [uDigits_iff] at hd
    have hv := hverr raw hc h1 hl
    have hu := replaceUriEscapes_escape raw
    have hd' := Dec.cons.1 hd
    have hC : Dec C := (Dec.append.1 hd'.2).1
    have hIk := Dec.append.1 (Dec.append.1 hd'.2).2
    have hI : Dec (i :: I) := Dec.cons.2 ⟨hd'.1, hIk.1⟩
    have hnew := (SGTIN.new_iff (u := py "urn:epc:id:sgtin" ++ ':' :: (C ++ '.' :: ((i :: I) ++ '.' :: escape raw)))).2
      ⟨C, i :: I, escape raw, ⟨⟨dec_ne_nil hn (by omega), hC⟩, ⟨by simp, hI⟩, gs3a3_escape hc (by rintro rfl; simp at h1)⟩, ⟨by rw [List.length_cons]; omega, ⟨by omega, by omega⟩, hv, by rw [hu]; exact h1, by rw [hu]; exact h2⟩, rfl, rfl⟩
    exact ⟨_, (SGTIN.from_iff s n _).2 ⟨i, C, I, k, raw, ⟨hd, hsum⟩, ⟨hc, h1, h2⟩, hg, by show clampIdx 14 ((1 : Nat) + (n : Int)) = _; rw [clamp_add]; omega, e, hnew⟩, hnew⟩
  · intro hno
    refine Classical.byContradiction fun hr => ?_
    have hm : Rx.sgtinElem.fullmatch s = true := by
      cases hm : Rx.sgtinElem.fullmatch s with
      | true => rfl
      | false =>
        exfalso
        refine hr ?_
        unfold SGTIN.fromGs1ElementString
        rw [hm]
        rfl
    obtain ⟨d, raw, ⟨hd, hl⟩, ⟨hc, h1, h2⟩, rfl⟩ := (SGTIN.elem_lang s).1 hm
    have hg : ¬ HasGroup 2 raw := fun hg => hno ⟨d, raw, rfl, (uDigits_iff d).2 hd, hl, hc, h1, h2, .inl hg⟩
    have hlone : LoneLetterEscapes raw := Classical.byContradiction fun hll =>
      hno ⟨d, raw, rfl, (uDigits_iff d).2 hd, hl, hc, h1, h2, .inr (.inl hll)⟩
    cases d with
    | nil => simp at hl
    | cons i d => ?_
    cases hok : SGTIN.fromGs1ElementString (py "(01)" ++ (i :: d ++ (py "(21)" ++ raw))) n with
    | ok x =>
      obtain ⟨i₁, C₁, I₁, k₁, c₁, ⟨hd₁, hl₁⟩, _, _, hcl, es, hu⟩ := (SGTIN.from_iff _ _ _).1 hok
      have hcl' : min 14 (1 + n) = C₁.length + 1 := by rw [← clamp_add]; exact hcl
      obtain ⟨C', I', S', ⟨⟨_, q1⟩, ⟨_, q2⟩, _⟩, hb, e', _⟩ := SGTIN.new_iff.1 hu
      obtain ⟨e1, -, -⟩ := uri3_inj (Dec.no_dot (Dec.append.1 (Dec.cons.1 hd₁).2).1) (Dec.no_dot (Dec.cons.2 ⟨(Dec.cons.1 hd₁).1, (Dec.append.1 (Dec.append.1 (Dec.cons.1 hd₁).2).2).1⟩)) q1.no_dot q2.no_dot e'
      have hb' := hb.2.1
      rw [← e1] at hb'
      exact hno ⟨_, raw, rfl, (uDigits_iff _).2 hd, hl, hc, h1, h2, .inr (.inr ⟨by omega, by omega⟩)⟩
    | error er =>
      refine hr ?_
      rw [hok]
      rw [SGTIN.from_eq n hd hl ⟨hc, h1, h2⟩ hg] at hok
      rcases SGTIN.new_error hok with rfl | ⟨C', I', S', ⟨⟨_, q1⟩, ⟨_, q2⟩, _⟩, e', hve⟩
      · rfl
      exfalso
      obtain ⟨-, -, e4⟩ := uri3_inj (Dec.no_dot (dec_slice hd _ _)) (Dec.no_dot (Dec.cons.2 ⟨(Dec.cons.1 hd).1, dec_slice hd _ _⟩)) q1.no_dot q2.no_dot e' 
      rw [← e4, hverr raw hc h1 hlone] at hve
      cases hve
  · intro d raw e hd hl hc h1 h2 hg
    rw [uDigits_iff] at hd
    subst e
    cases d with
    | nil => simp at hl
    | cons i d => ?_
    exact SGTIN.from_group n hd hl ⟨hc, h1, h2⟩ hg
  · intro d raw e hd hl hc h1 h2 hg hlone
    rw [uDigits_iff] at hd
    subst e
    cases d with
    | nil => simp at hl
    | cons i d => ?_
    rw [SGTIN.from_eq n hd hl ⟨hc, h1, h2⟩ hg]
    cases hok : SGTIN.new _ with
    | ok x =>
      exfalso
      obtain ⟨C', I', S', ⟨⟨_, q1⟩, ⟨_, q2⟩, _⟩, hb, e', _⟩ := SGTIN.new_iff.1 hok
      obtain ⟨-, -, e4⟩ := uri3_inj (Dec.no_dot (dec_slice hd _ _)) (Dec.no_dot (Dec.cons.2 ⟨(Dec.cons.1 hd).1, dec_slice hd _ _⟩)) q1.no_dot q2.no_dot e' 
      have hv := hb.2.2.1
      rw [← e4] at hv
      exact hlone ((verify_escape_iff hc (by rintro rfl; simp at h1)).1 hv)
    | error er =>
      refine ⟨er, rfl, ?_⟩
      rcases SGTIN.new_error hok with rfl | ⟨C', I', S', ⟨⟨_, q1⟩, ⟨_, q2⟩, _⟩, e', hve⟩
      · exact .inl rfl
      · exact verify_error hve

example : ((SGTIN.fromGs1ElementString (py "(01)09521141123454(21)32a/b") 7).toOption.isSome) = true := by decide +kernel

/-- LGTIN. -/
theorem C59_lgtin (s : Str) (n : Nat) :
    (∀ i C I k raw, s = py "(01)" ++ (i :: (C ++ (I ++ [k])) ++ (py "(10)" ++ raw)) →
      UDigits (i :: (C ++ (I ++ [k]))) → C.length = n → C.length + I.length = 12 → 6 ≤ n → n ≤ 12 →
      (∀ a ∈ raw, a ∈ gs82) → 1 ≤ raw.length → raw.length ≤ 20 → ¬ HasGroup 2 raw → LoneLetterEscapes raw → 
      ∃ x, LGTIN.fromGs1ElementString s n = .ok x ∧ LGTIN.new (py "urn:epc:class:lgtin:" ++ joinWith '.' [C, i :: I, escape raw]) = .ok x) ∧
    ((¬ ∃ d raw, s = py "(01)" ++ (d ++ (py "(10)" ++ raw)) ∧ UDigits d ∧ d.length = 14 ∧ (∀ a ∈ raw, a ∈ gs82) ∧ 1 ≤ raw.length ∧ raw.length ≤ 20 ∧
        (HasGroup 2 raw ∨ ¬ LoneLetterEscapes raw ∨ (6 ≤ n ∧ n ≤ 12))) →
      LGTIN.fromGs1ElementString s n = .error .convert) ∧
    (∀ d raw, s = py "(01)" ++ (d ++ (py "(10)" ++ raw)) → UDigits d → d.length = 14 → (∀ a ∈ raw, a ∈ gs82) → 1 ≤ raw.length → raw.length ≤ 20 →
      HasGroup 2 raw → LGTIN.fromGs1ElementString s n = .error .value) ∧
    (∀ d raw, s = py "(01)" ++ (d ++ (py "(10)" ++ raw)) → UDigits d → d.length = 14 → (∀ a ∈ raw, a ∈ gs82) → 1 ≤ raw.length → raw.length ≤ 20 →
      ¬ HasGroup 2 raw → ¬ LoneLetterEscapes raw →
      ∃ e, LGTIN.fromGs1ElementString s n = .error e ∧ (e = .convert ∨ e = .value ∨ e = .overflow)) := by
  have hverr : ∀ raw : Str, (∀ a ∈ raw, a ∈ gs82) → 1 ≤ raw.length → LoneLetterEscapes raw → verifyGs3a3 (escape raw) = .ok () :=
    fun raw h h1 hl => (verify_escape_iff h (by rintro rfl; simp at h1)).2 hl
  refine ⟨?_, ?_, ?_, ?_⟩
  · intro i C I k raw e hd hn hsum hlo hhi hc h1 h2 hg hl 
    rw [uDigits_iff] at hd
    have hv := hverr raw hc h1 hl
    have hu := replaceUriEscapes_escape raw
    have hd' := Dec.cons.1 hd
    have hC : Dec C := (Dec.append.1 hd'.2).1
    have hIk := Dec.append.1 (Dec.append.1 hd'.2).2
    have hI : Dec (i :: I) := Dec.cons.2 ⟨hd'.1, hIk.1⟩
    have hnew := (LGTIN.new_iff (u := py "urn:epc:class:lgtin" ++ ':' :: (C ++ '.' :: ((i :: I) ++ '.' :: escape raw)))).2
      ⟨C, i :: I, escape raw, ⟨⟨dec_ne_nil hn (by omega), hC⟩, ⟨by simp, hI⟩, gs3a3_escape hc (by rintro rfl; simp at h1)⟩, ⟨by rw [List.length_cons]; omega, ⟨by omega, by omega⟩, hv, by rw [hu]; exact h1, by rw [hu]; exact h2⟩, rfl, rfl⟩
    exact ⟨_, (LGTIN.from_iff s n _).2 ⟨i, C, I, k, raw, ⟨hd, hsum⟩, ⟨hc, h1, h2⟩, hg, by show clampIdx 14 ((1 : Nat) + (n : Int)) = _; rw [clamp_add]; omega, e, hnew⟩, hnew⟩
  · intro hno
    refine Classical.byContradiction fun hr => ?_
    have hm : Rx.lgtinElem.fullmatch s = true := by
      cases hm : Rx.lgtinElem.fullmatch s with
      | true => rfl
      | false =>
        exfalso
        refine hr ?_
        unfold LGTIN.fromGs1ElementString
        rw [hm]
        rfl
    obtain ⟨d, raw, ⟨hd, hl⟩, ⟨hc, h1, h2⟩, rfl⟩ := (LGTIN.elem_lang s).1 hm
    have hg : ¬ HasGroup 2 raw := fun hg => hno ⟨d, raw, rfl, (uDigits_iff d).2 hd, hl, hc, h1, h2, .inl hg⟩
    have hlone : LoneLetterEscapes raw := Classical.byContradiction fun hll =>
      hno ⟨d, raw, rfl, (uDigits_iff d).2 hd, hl, hc, h1, h2, .inr (.inl hll)⟩
    cases d with
    | nil => simp at hl
    | cons i d => ?_
    cases hok : LGTIN.fromGs1ElementString (py "(01)" ++ (i :: d ++ (py "(10)" ++ raw))) n with
    | ok x =>
      obtain ⟨i₁, C₁, I₁, k₁, c₁, ⟨hd₁, hl₁⟩, _, _, hcl, es, hu⟩ := (LGTIN.from_iff _ _ _).1 hok
      have hcl' : min 14 (1 + n) = C₁.length + 1 := by rw [← clamp_add]; exact hcl
      obtain ⟨C', I', S', ⟨⟨_, q1⟩, ⟨_, q2⟩, _⟩, hb, e', _⟩ := LGTIN.new_iff.1 hu
      obtain ⟨e1, -, -⟩ := uri3_inj (Dec.no_dot (Dec.append.1 (Dec.cons.1 hd₁).2).1) (Dec.no_dot (Dec.cons.2 ⟨(Dec.cons.1 hd₁).1, (Dec.append.1 (Dec.append.1 (Dec.cons.1 hd₁).2).2).1⟩)) q1.no_dot q2.no_dot e'
      have hb' := hb.2.1
      rw [← e1] at hb'
      exact hno ⟨_, raw, rfl, (uDigits_iff _).2 hd, hl, hc, h1, h2, .inr (.inr ⟨by omega, by omega⟩)⟩
    | error er =>
      refine hr ?_
      rw [hok]
      rw [LGTIN.from_eq n hd hl ⟨hc, h1, h2⟩ hg] at hok
      rcases LGTIN.new_error hok with rfl | ⟨C', I', S', ⟨⟨_, q1⟩, ⟨_, q2⟩, _⟩, e', hve⟩
      · rfl
      exfalso
      obtain ⟨-, -, e4⟩ := uri3_inj (Dec.no_dot (dec_slice hd _ _)) (Dec.no_dot (Dec.cons.2 ⟨(Dec.cons.1 hd).1, dec_slice hd _ _⟩)) q1.no_dot q2.no_dot e' 
      rw [← e4, hverr raw hc h1 hlone] at hve
      cases hve
  · intro d raw e hd hl hc h1 h2 hg
    rw [uDigits_iff] at hd
    subst e
    cases d with
    | nil => simp at hl
    | cons i d => ?_
    exact LGTIN.from_group n hd hl ⟨hc, h1, h2⟩ hg
  · intro d raw e hd hl hc h1 h2 hg hlone
    rw [uDigits_iff] at hd
    subst e
    cases d with
    | nil => simp at hl
    | cons i d => ?_
    rw [LGTIN.from_eq n hd hl ⟨hc, h1, h2⟩ hg]
    cases hok : LGTIN.new _ with
    | ok x =>
      exfalso
      obtain ⟨C', I', S', ⟨⟨_, q1⟩, ⟨_, q2⟩, _⟩, hb, e', _⟩ := LGTIN.new_iff.1 hok
      obtain ⟨-, -, e4⟩ := uri3_inj (Dec.no_dot (dec_slice hd _ _)) (Dec.no_dot (Dec.cons.2 ⟨(Dec.cons.1 hd).1, dec_slice hd _ _⟩)) q1.no_dot q2.no_dot e' 
      have hv := hb.2.2.1
      rw [← e4] at hv
      exact hlone ((verify_escape_iff hc (by rintro rfl; simp at h1)).1 hv)
    | error er =>
      refine ⟨er, rfl, ?_⟩
      rcases LGTIN.new_error hok with rfl | ⟨C', I', S', ⟨⟨_, q1⟩, ⟨_, q2⟩, _⟩, e', hve⟩
      · exact .inl rfl
      · exact verify_error hve

example : ((LGTIN.fromGs1ElementString (py "(01)09521141123454(10)32a/b") 7).toOption.isSome) = true := by decide +kernel

/-- UPUI. -/
theorem C59_upui (s : Str) (n : Nat) :
    (∀ i C I k raw, s = py "(01)" ++ (i :: (C ++ (I ++ [k])) ++ (py "(235)" ++ raw)) →
      UDigits (i :: (C ++ (I ++ [k]))) → C.length = n → C.length + I.length = 12 → 1 ≤ n → n ≤ 12 →
      (∀ a ∈ raw, a ∈ gs82) → 1 ≤ raw.length → raw.length ≤ 28 → LoneLetterEscapes raw → 
      ∃ x, UPUI.fromGs1ElementString s n = .ok x ∧ UPUI.new (py "urn:epc:id:upui:" ++ joinWith '.' [C, i :: I, escape raw]) = .ok x) ∧
    ((¬ ∃ d raw, s = py "(01)" ++ (d ++ (py "(235)" ++ raw)) ∧ UDigits d ∧ d.length = 14 ∧ (∀ a ∈ raw, a ∈ gs82) ∧ 1 ≤ raw.length ∧ raw.length ≤ 28 ∧
        (¬ LoneLetterEscapes raw ∨ (1 ≤ n ∧ n ≤ 12))) →
      UPUI.fromGs1ElementString s n = .error .convert) ∧
    (∀ d raw, s = py "(01)" ++ (d ++ (py "(235)" ++ raw)) → UDigits d → d.length = 14 → (∀ a ∈ raw, a ∈ gs82) → 1 ≤ raw.length → raw.length ≤ 28 →
      ¬ LoneLetterEscapes raw →
      ∃ e, UPUI.fromGs1ElementString s n = .error e ∧ (e = .convert ∨ e = .value ∨ e = .overflow)) := by
  have hverr : ∀ raw : Str, (∀ a ∈ raw, a ∈ gs82) → 1 ≤ raw.length → LoneLetterEscapes raw → verifyGs3a3 (escape raw) = .ok () :=
    fun raw h h1 hl => (verify_escape_iff h (by rintro rfl; simp at h1)).2 hl
  refine ⟨?_, ?_, ?_⟩
  · intro i C I k raw e hd hn hsum hlo hhi hc h1 h2 hl 
    rw [uDigits_iff] at hd
    have hv := hverr raw hc h1 hl
    have hu := replaceUriEscapes_escape raw
    have hd' := Dec.cons.1 hd
    have hC : Dec C := (Dec.append.1 hd'.2).1
    have hIk := Dec.append.1 (Dec.append.1 hd'.2).2
    have hI : Dec (i :: I) := Dec.cons.2 ⟨hd'.1, hIk.1⟩
    have hnew := (UPUI.new_iff (u := py "urn:epc:id:upui" ++ ':' :: (C ++ '.' :: ((i :: I) ++ '.' :: escape raw)))).2
      ⟨C, i :: I, escape raw, ⟨⟨dec_ne_nil hn (by omega), hC⟩, hI, gs3a3_escape hc (by rintro rfl; simp at h1)⟩, ⟨by rw [List.length_cons]; omega, hv, by rw [hu]; exact h1, by rw [hu]; exact h2⟩, rfl, rfl⟩
    exact ⟨_, (UPUI.from_iff s n _).2 ⟨i, C, I, k, raw, ⟨hd, hsum⟩, ⟨hc, h1, h2⟩, by show clampIdx 14 ((1 : Nat) + (n : Int)) = _; rw [clamp_add]; omega, e, hnew⟩, hnew⟩
  · intro hno
    refine Classical.byContradiction fun hr => ?_
    have hm : Rx.upuiElem.fullmatch s = true := by
      cases hm : Rx.upuiElem.fullmatch s with
      | true => rfl
      | false =>
        exfalso
        refine hr ?_
        unfold UPUI.fromGs1ElementString
        rw [hm]
        rfl
    obtain ⟨d, raw, ⟨hd, hl⟩, ⟨hc, h1, h2⟩, rfl⟩ := (UPUI.elem_lang s).1 hm
    have hlone : LoneLetterEscapes raw := Classical.byContradiction fun hll =>
      hno ⟨d, raw, rfl, (uDigits_iff d).2 hd, hl, hc, h1, h2, .inl hll⟩
    cases d with
    | nil => simp at hl
    | cons i d => ?_
    cases hok : UPUI.fromGs1ElementString (py "(01)" ++ (i :: d ++ (py "(235)" ++ raw))) n with
    | ok x =>
      obtain ⟨i₁, C₁, I₁, k₁, c₁, ⟨hd₁, hl₁⟩, _, hcl, es, hu⟩ := (UPUI.from_iff _ _ _).1 hok
      have hcl' : min 14 (1 + n) = C₁.length + 1 := by rw [← clamp_add]; exact hcl
      obtain ⟨C', I', S', ⟨⟨qn, q1⟩, q2, _⟩, hb, e', _⟩ := UPUI.new_iff.1 hu
      obtain ⟨e1, -, -⟩ := uri3_inj (Dec.no_dot (Dec.append.1 (Dec.cons.1 hd₁).2).1) (Dec.no_dot (Dec.cons.2 ⟨(Dec.cons.1 hd₁).1, (Dec.append.1 (Dec.append.1 (Dec.cons.1 hd₁).2).2).1⟩)) q1.no_dot q2.no_dot e'
      have hpos : 0 < C₁.length := by rw [e1]; exact List.length_pos_iff.2 qn
      exact hno ⟨_, raw, rfl, (uDigits_iff _).2 hd, hl, hc, h1, h2, .inr ⟨by omega, by omega⟩⟩
    | error er =>
      refine hr ?_
      rw [hok]
      rw [UPUI.from_eq n hd hl ⟨hc, h1, h2⟩] at hok
      rcases UPUI.new_error hok with rfl | ⟨C', I', S', ⟨⟨_, q1⟩, q2, _⟩, e', hve⟩
      · rfl
      exfalso
      obtain ⟨-, -, e4⟩ := uri3_inj (Dec.no_dot (dec_slice hd _ _)) (Dec.no_dot (Dec.cons.2 ⟨(Dec.cons.1 hd).1, dec_slice hd _ _⟩)) q1.no_dot q2.no_dot e' 
      rw [← e4, hverr raw hc h1 hlone] at hve
      cases hve
  · intro d raw e hd hl hc h1 h2 hlone
    rw [uDigits_iff] at hd
    subst e
    cases d with
    | nil => simp at hl
    | cons i d => ?_
    rw [UPUI.from_eq n hd hl ⟨hc, h1, h2⟩]
    cases hok : UPUI.new _ with
    | ok x =>
      exfalso
      obtain ⟨C', I', S', ⟨⟨_, q1⟩, q2, _⟩, hb, e', _⟩ := UPUI.new_iff.1 hok
      obtain ⟨-, -, e4⟩ := uri3_inj (Dec.no_dot (dec_slice hd _ _)) (Dec.no_dot (Dec.cons.2 ⟨(Dec.cons.1 hd).1, dec_slice hd _ _⟩)) q1.no_dot q2.no_dot e' 
      have hv := hb.2.1
      rw [← e4] at hv
      exact hlone ((verify_escape_iff hc (by rintro rfl; simp at h1)).1 hv)
    | error er =>
      refine ⟨er, rfl, ?_⟩
      rcases UPUI.new_error hok with rfl | ⟨C', I', S', ⟨⟨_, q1⟩, q2, _⟩, e', hve⟩
      · exact .inl rfl
      · exact verify_error hve

example : ((UPUI.fromGs1ElementString (py "(01)09521141894569(235)51qIgY)<&Jp3*j7(SDB") 7).toOption.isSome) = true := by decide +kernel

/-- SGLN. -/
theorem C59_sgln (s : Str) (n : Nat) :
    (∀ C I k raw, s = py "(414)" ++ (C ++ (I ++ [k]) ++ (py "(254)" ++ raw)) →
      UDigits (C ++ (I ++ [k])) → C.length = n → C.length + I.length = 12 → 6 ≤ n → n ≤ 12 →
      (∀ a ∈ raw, a ∈ gs82) → 1 ≤ raw.length → raw.length ≤ 20 → ¬ HasGroup 3 raw → LoneLetterEscapes raw → 
      ∃ x, SGLN.fromGs1ElementString s n = .ok x ∧ SGLN.new (py "urn:epc:id:sgln:" ++ joinWith '.' [C, I, escape raw]) = .ok x) ∧
    ((¬ ∃ d raw, s = py "(414)" ++ (d ++ (py "(254)" ++ raw)) ∧ UDigits d ∧ d.length = 13 ∧ (∀ a ∈ raw, a ∈ gs82) ∧ 1 ≤ raw.length ∧ raw.length ≤ 20 ∧
        (HasGroup 3 raw ∨ ¬ LoneLetterEscapes raw ∨ (6 ≤ n ∧ n ≤ 12))) →
      SGLN.fromGs1ElementString s n = .error .convert) ∧
    (∀ d raw, s = py "(414)" ++ (d ++ (py "(254)" ++ raw)) → UDigits d → d.length = 13 → (∀ a ∈ raw, a ∈ gs82) → 1 ≤ raw.length → raw.length ≤ 20 →
      HasGroup 3 raw → SGLN.fromGs1ElementString s n = .error .value) ∧
    (∀ d raw, s = py "(414)" ++ (d ++ (py "(254)" ++ raw)) → UDigits d → d.length = 13 → (∀ a ∈ raw, a ∈ gs82) → 1 ≤ raw.length → raw.length ≤ 20 →
      ¬ HasGroup 3 raw → ¬ LoneLetterEscapes raw →
      ∃ e, SGLN.fromGs1ElementString s n = .error e ∧ (e = .convert ∨ e = .value ∨ e = .overflow)) := by
  have hverr : ∀ raw : Str, (∀ a ∈ raw, a ∈ gs82) → 1 ≤ raw.length → LoneLetterEscapes raw → verifyGs3a3 (escape raw) = .ok () :=
    fun raw h h1 hl => (verify_escape_iff h (by rintro rfl; simp at h1)).2 hl
  refine ⟨?_, ?_, ?_, ?_⟩
  · intro C I k raw e hd hn hsum hlo hhi hc h1 h2 hg hl 
    rw [uDigits_iff] at hd
    have hv := hverr raw hc h1 hl
    have hu := replaceUriEscapes_escape raw
    have hC : Dec C := (Dec.append.1 hd).1
    have hI : Dec I := (Dec.append.1 (Dec.append.1 hd).2).1
    have hnew := (SGLN.new_iff (u := py "urn:epc:id:sgln" ++ ':' :: (C ++ '.' :: ((I) ++ '.' :: escape raw)))).2
      ⟨C, I, escape raw, ⟨⟨dec_ne_nil hn (by omega), hC⟩, hI, gs3a3_escape hc (by rintro rfl; simp at h1)⟩, ⟨hsum, ⟨by omega, by omega⟩, hv, by rw [hu]; exact h2⟩, rfl, rfl⟩
    exact ⟨_, (SGLN.from_iff s n _).2 ⟨C, I, k, raw, ⟨hd, hsum⟩, ⟨hc, h1, h2⟩, hg, by rw [clamp_nat]; omega, e, hnew⟩, hnew⟩
  · intro hno
    refine Classical.byContradiction fun hr => ?_
    have hm : Rx.sglnElem.fullmatch s = true := by
      cases hm : Rx.sglnElem.fullmatch s with
      | true => rfl
      | false =>
        exfalso
        refine hr ?_
        unfold SGLN.fromGs1ElementString
        rw [hm]
        rfl
    obtain ⟨d, raw, ⟨hd, hl⟩, ⟨hc, h1, h2⟩, rfl⟩ := (SGLN.elem_lang s).1 hm
    have hg : ¬ HasGroup 3 raw := fun hg => hno ⟨d, raw, rfl, (uDigits_iff d).2 hd, hl, hc, h1, h2, .inl hg⟩
    have hlone : LoneLetterEscapes raw := Classical.byContradiction fun hll =>
      hno ⟨d, raw, rfl, (uDigits_iff d).2 hd, hl, hc, h1, h2, .inr (.inl hll)⟩
    cases hok : SGLN.fromGs1ElementString (py "(414)" ++ (d ++ (py "(254)" ++ raw))) n with
    | ok x =>
      obtain ⟨C₁, I₁, k₁, c₁, ⟨hd₁, hl₁⟩, _, _, hcl, es, hu⟩ := (SGLN.from_iff _ _ _).1 hok
      have hcl' : min 13 n = C₁.length := by rw [← clamp_nat]; exact hcl
      obtain ⟨C', I', S', ⟨⟨_, q1⟩, q2, _⟩, hb, e', _⟩ := SGLN.new_iff.1 hu
      obtain ⟨e1, -, -⟩ := uri3_inj (Dec.no_dot (Dec.append.1 hd₁).1) (Dec.no_dot (Dec.append.1 (Dec.append.1 hd₁).2).1) q1.no_dot q2.no_dot e'
      have hb' := hb.2.1
      rw [← e1] at hb'
      exact hno ⟨_, raw, rfl, (uDigits_iff _).2 hd, hl, hc, h1, h2, .inr (.inr ⟨by omega, by omega⟩)⟩
    | error er =>
      refine hr ?_
      rw [hok]
      rw [SGLN.from_eq n hd hl ⟨hc, h1, h2⟩ hg] at hok
      rcases SGLN.new_error hok with rfl | ⟨C', I', S', ⟨⟨_, q1⟩, q2, _⟩, e', hve⟩
      · rfl
      exfalso
      obtain ⟨-, -, e4⟩ := uri3_inj (Dec.no_dot (hd.take _)) (Dec.no_dot (dec_slice hd _ _)) q1.no_dot q2.no_dot e' 
      rw [← e4, hverr raw hc h1 hlone] at hve
      cases hve
  · intro d raw e hd hl hc h1 h2 hg
    rw [uDigits_iff] at hd
    subst e
    exact SGLN.from_group n hd hl ⟨hc, h1, h2⟩ hg
  · intro d raw e hd hl hc h1 h2 hg hlone
    rw [uDigits_iff] at hd
    subst e
    rw [SGLN.from_eq n hd hl ⟨hc, h1, h2⟩ hg]
    cases hok : SGLN.new _ with
    | ok x =>
      exfalso
      obtain ⟨C', I', S', ⟨⟨_, q1⟩, q2, _⟩, hb, e', _⟩ := SGLN.new_iff.1 hok
      obtain ⟨-, -, e4⟩ := uri3_inj (Dec.no_dot (hd.take _)) (Dec.no_dot (dec_slice hd _ _)) q1.no_dot q2.no_dot e' 
      have hv := hb.2.2.1
      rw [← e4] at hv
      exact hlone ((verify_escape_iff hc (by rintro rfl; simp at h1)).1 hv)
    | error er =>
      refine ⟨er, rfl, ?_⟩
      rcases SGLN.new_error hok with rfl | ⟨C', I', S', ⟨⟨_, q1⟩, q2, _⟩, e', hve⟩
      · exact .inl rfl
      · exact verify_error hve

example : ((SGLN.fromGs1ElementString (py "(414)9521141123454(254)32a/b") 7).toOption.isSome) = true := by decide +kernel

/-- GRAI. -/
theorem C59_grai (s : Str) (n : Nat) :
    (∀ C I k raw, s = py "(8003)0" ++ (C ++ (I ++ [k]) ++ raw) →
      UDigits (C ++ (I ++ [k])) → C.length = n → C.length + I.length = 12 → 6 ≤ n → n ≤ 12 →
      (∀ a ∈ raw, a ∈ gs82) → 1 ≤ raw.length → raw.length ≤ 16 → LoneLetterEscapes raw → (escape raw).length ≤ 16 → 
      ∃ x, GRAI.fromGs1ElementString s n = .ok x ∧ GRAI.new (py "urn:epc:id:grai:" ++ joinWith '.' [C, I, escape raw]) = .ok x) ∧
    ((¬ ∃ d raw, s = py "(8003)0" ++ (d ++ raw) ∧ UDigits d ∧ d.length = 13 ∧ (∀ a ∈ raw, a ∈ gs82) ∧ 1 ≤ raw.length ∧ raw.length ≤ 16 ∧
        (¬ LoneLetterEscapes raw ∨ (6 ≤ n ∧ n ≤ 12 ∧ (escape raw).length ≤ 16))) →
      GRAI.fromGs1ElementString s n = .error .convert) ∧
    (∀ d raw, s = py "(8003)0" ++ (d ++ raw) → UDigits d → d.length = 13 → (∀ a ∈ raw, a ∈ gs82) → 1 ≤ raw.length → raw.length ≤ 16 →
      ¬ LoneLetterEscapes raw →
      ∃ e, GRAI.fromGs1ElementString s n = .error e ∧ (e = .convert ∨ e = .value ∨ e = .overflow)) := by
  have hverr : ∀ raw : Str, (∀ a ∈ raw, a ∈ gs82) → 1 ≤ raw.length → LoneLetterEscapes raw → verifyGs3a3 (escape raw) = .ok () :=
    fun raw h h1 hl => (verify_escape_iff h (by rintro rfl; simp at h1)).2 hl
  refine ⟨?_, ?_, ?_⟩
  · intro C I k raw e hd hn hsum hlo hhi hc h1 h2 hl hx
    rw [uDigits_iff] at hd
    have hv := hverr raw hc h1 hl
    have hu := replaceUriEscapes_escape raw
    have hC : Dec C := (Dec.append.1 hd).1
    have hI : Dec I := (Dec.append.1 (Dec.append.1 hd).2).1
    have hnew := (GRAI.new_iff (u := py "urn:epc:id:grai" ++ ':' :: (C ++ '.' :: ((I) ++ '.' :: escape raw)))).2
      ⟨C, I, escape raw, ⟨⟨dec_ne_nil hn (by omega), hC⟩, hI, gs3a3_escape hc (by rintro rfl; simp at h1)⟩, ⟨hsum, ⟨by omega, by omega⟩, hv, hx⟩, rfl, rfl⟩
    exact ⟨_, (GRAI.from_iff s n _).2 ⟨C, I, k, raw, ⟨hd, hsum⟩, ⟨hc, h1, h2⟩, by rw [clamp_nat]; omega, e, hnew⟩, hnew⟩
  · intro hno
    refine Classical.byContradiction fun hr => ?_
    have hm : Rx.graiElem.fullmatch s = true := by
      cases hm : Rx.graiElem.fullmatch s with
      | true => rfl
      | false =>
        exfalso
        refine hr ?_
        unfold GRAI.fromGs1ElementString
        rw [hm]
        rfl
    obtain ⟨d, raw, ⟨hd, hl⟩, ⟨hc, h1, h2⟩, rfl⟩ := (GRAI.elem_lang s).1 hm
    have hlone : LoneLetterEscapes raw := Classical.byContradiction fun hll =>
      hno ⟨d, raw, rfl, (uDigits_iff d).2 hd, hl, hc, h1, h2, .inl hll⟩
    cases hok : GRAI.fromGs1ElementString (py "(8003)0" ++ (d ++ (raw))) n with
    | ok x =>
      have hx : (escape raw).length ≤ 16 := by
        rw [GRAI.from_eq n hd hl ⟨hc, h1, h2⟩] at hok
        obtain ⟨C', I', S', ⟨⟨_, q1⟩, q2, _⟩, hb, e', _⟩ := GRAI.new_iff.1 hok
        obtain ⟨-, -, e4⟩ := uri3_inj (Dec.no_dot (hd.take _)) (Dec.no_dot (dec_slice hd _ _)) q1.no_dot q2.no_dot e'
        rw [e4]; exact hb.2.2.2
      obtain ⟨C₁, I₁, k₁, c₁, ⟨hd₁, hl₁⟩, _, hcl, es, hu⟩ := (GRAI.from_iff _ _ _).1 hok
      have hcl' : min 13 n = C₁.length := by rw [← clamp_nat]; exact hcl
      obtain ⟨C', I', S', ⟨⟨_, q1⟩, q2, _⟩, hb, e', _⟩ := GRAI.new_iff.1 hu
      obtain ⟨e1, -, -⟩ := uri3_inj (Dec.no_dot (Dec.append.1 hd₁).1) (Dec.no_dot (Dec.append.1 (Dec.append.1 hd₁).2).1) q1.no_dot q2.no_dot e'
      have hb' := hb.2.1
      rw [← e1] at hb'
      exact hno ⟨_, raw, rfl, (uDigits_iff _).2 hd, hl, hc, h1, h2, .inr ⟨by omega, by omega, hx⟩⟩
    | error er =>
      refine hr ?_
      rw [hok]
      rw [GRAI.from_eq n hd hl ⟨hc, h1, h2⟩] at hok
      rcases GRAI.new_error hok with rfl | ⟨C', I', S', ⟨⟨_, q1⟩, q2, _⟩, e', hve⟩
      · rfl
      exfalso
      obtain ⟨-, -, e4⟩ := uri3_inj (Dec.no_dot (hd.take _)) (Dec.no_dot (dec_slice hd _ _)) q1.no_dot q2.no_dot e' 
      rw [← e4, hverr raw hc h1 hlone] at hve
      cases hve
  · intro d raw e hd hl hc h1 h2 hlone
    rw [uDigits_iff] at hd
    subst e
    rw [GRAI.from_eq n hd hl ⟨hc, h1, h2⟩]
    cases hok : GRAI.new _ with
    | ok x =>
      exfalso
      obtain ⟨C', I', S', ⟨⟨_, q1⟩, q2, _⟩, hb, e', _⟩ := GRAI.new_iff.1 hok
      obtain ⟨-, -, e4⟩ := uri3_inj (Dec.no_dot (hd.take _)) (Dec.no_dot (dec_slice hd _ _)) q1.no_dot q2.no_dot e' 
      have hv := hb.2.2.1
      rw [← e4] at hv
      exact hlone ((verify_escape_iff hc (by rintro rfl; simp at h1)).1 hv)
    | error er =>
      refine ⟨er, rfl, ?_⟩
      rcases GRAI.new_error hok with rfl | ⟨C', I', S', ⟨⟨_, q1⟩, q2, _⟩, e', hve⟩
      · exact .inl rfl
      · exact verify_error hve

example : ((GRAI.fromGs1ElementString (py "(8003)0952114112345432a/b") 7).toOption.isSome) = true := by decide +kernel

/-- GDTI. -/
theorem C59_gdti (s : Str) (n : Nat) :
    (∀ C I k raw, s = py "(253)" ++ (C ++ (I ++ [k]) ++ raw) →
      UDigits (C ++ (I ++ [k])) → C.length = n → C.length + I.length = 12 → 6 ≤ n → n ≤ 12 →
      (∀ a ∈ raw, a ∈ gs82) → 1 ≤ raw.length → raw.length ≤ 17 → LoneLetterEscapes raw → (escape raw).length ≤ 17 → 
      ∃ x, GDTI.fromGs1ElementString s n = .ok x ∧ GDTI.new (py "urn:epc:id:gdti:" ++ joinWith '.' [C, I, escape raw]) = .ok x) ∧
    ((¬ ∃ d raw, s = py "(253)" ++ (d ++ raw) ∧ UDigits d ∧ d.length = 13 ∧ (∀ a ∈ raw, a ∈ gs82) ∧ 1 ≤ raw.length ∧ raw.length ≤ 17 ∧
        (¬ LoneLetterEscapes raw ∨ (6 ≤ n ∧ n ≤ 12 ∧ (escape raw).length ≤ 17))) →
      GDTI.fromGs1ElementString s n = .error .convert) ∧
    (∀ d raw, s = py "(253)" ++ (d ++ raw) → UDigits d → d.length = 13 → (∀ a ∈ raw, a ∈ gs82) → 1 ≤ raw.length → raw.length ≤ 17 →
      ¬ LoneLetterEscapes raw →
      ∃ e, GDTI.fromGs1ElementString s n = .error e ∧ (e = .convert ∨ e = .value ∨ e = .overflow)) := by
  have hverr : ∀ raw : Str, (∀ a ∈ raw, a ∈ gs82) → 1 ≤ raw.length → LoneLetterEscapes raw → verifyGs3a3 (escape raw) = .ok () :=
    fun raw h h1 hl => (verify_escape_iff h (by rintro rfl; simp at h1)).2 hl
  refine ⟨?_, ?_, ?_⟩
  · intro C I k raw e hd hn hsum hlo hhi hc h1 h2 hl hx
    rw [uDigits_iff] at hd
    have hv := hverr raw hc h1 hl
    have hu := replaceUriEscapes_escape raw
    have hC : Dec C := (Dec.append.1 hd).1
    have hI : Dec I := (Dec.append.1 (Dec.append.1 hd).2).1
    have hnew := (GDTI.new_iff (u := py "urn:epc:id:gdti" ++ ':' :: (C ++ '.' :: ((I) ++ '.' :: escape raw)))).2
      ⟨C, I, escape raw, ⟨⟨dec_ne_nil hn (by omega), hC⟩, hI, gs3a3_escape hc (by rintro rfl; simp at h1)⟩, ⟨hsum, ⟨by omega, by omega⟩, hv, hx⟩, rfl, rfl⟩
    exact ⟨_, (GDTI.from_iff s n _).2 ⟨C, I, k, raw, ⟨hd, hsum⟩, ⟨hc, h1, h2⟩, by rw [clamp_nat]; omega, e, hnew⟩, hnew⟩
  · intro hno
    refine Classical.byContradiction fun hr => ?_
    have hm : Rx.gdtiElem.fullmatch s = true := by
      cases hm : Rx.gdtiElem.fullmatch s with
      | true => rfl
      | false =>
        exfalso
        refine hr ?_
        unfold GDTI.fromGs1ElementString
        rw [hm]
        rfl
    obtain ⟨d, raw, ⟨hd, hl⟩, ⟨hc, h1, h2⟩, rfl⟩ := (GDTI.elem_lang s).1 hm
    have hlone : LoneLetterEscapes raw := Classical.byContradiction fun hll =>
      hno ⟨d, raw, rfl, (uDigits_iff d).2 hd, hl, hc, h1, h2, .inl hll⟩
    cases hok : GDTI.fromGs1ElementString (py "(253)" ++ (d ++ (raw))) n with
    | ok x =>
      have hx : (escape raw).length ≤ 17 := by
        rw [GDTI.from_eq n hd hl ⟨hc, h1, h2⟩] at hok
        obtain ⟨C', I', S', ⟨⟨_, q1⟩, q2, _⟩, hb, e', _⟩ := GDTI.new_iff.1 hok
        obtain ⟨-, -, e4⟩ := uri3_inj (Dec.no_dot (hd.take _)) (Dec.no_dot (dec_slice hd _ _)) q1.no_dot q2.no_dot e'
        rw [e4]; exact hb.2.2.2
      obtain ⟨C₁, I₁, k₁, c₁, ⟨hd₁, hl₁⟩, _, hcl, es, hu⟩ := (GDTI.from_iff _ _ _).1 hok
      have hcl' : min 13 n = C₁.length := by rw [← clamp_nat]; exact hcl
      obtain ⟨C', I', S', ⟨⟨_, q1⟩, q2, _⟩, hb, e', _⟩ := GDTI.new_iff.1 hu
      obtain ⟨e1, -, -⟩ := uri3_inj (Dec.no_dot (Dec.append.1 hd₁).1) (Dec.no_dot (Dec.append.1 (Dec.append.1 hd₁).2).1) q1.no_dot q2.no_dot e'
      have hb' := hb.2.1
      rw [← e1] at hb'
      exact hno ⟨_, raw, rfl, (uDigits_iff _).2 hd, hl, hc, h1, h2, .inr ⟨by omega, by omega, hx⟩⟩
    | error er =>
      refine hr ?_
      rw [hok]
      rw [GDTI.from_eq n hd hl ⟨hc, h1, h2⟩] at hok
      rcases GDTI.new_error hok with rfl | ⟨C', I', S', ⟨⟨_, q1⟩, q2, _⟩, e', hve⟩
      · rfl
      exfalso
      obtain ⟨-, -, e4⟩ := uri3_inj (Dec.no_dot (hd.take _)) (Dec.no_dot (dec_slice hd _ _)) q1.no_dot q2.no_dot e' 
      rw [← e4, hverr raw hc h1 hlone] at hve
      cases hve
  · intro d raw e hd hl hc h1 h2 hlone
    rw [uDigits_iff] at hd
    subst e
    rw [GDTI.from_eq n hd hl ⟨hc, h1, h2⟩]
    cases hok : GDTI.new _ with
    | ok x =>
      exfalso
      obtain ⟨C', I', S', ⟨⟨_, q1⟩, q2, _⟩, hb, e', _⟩ := GDTI.new_iff.1 hok
      obtain ⟨-, -, e4⟩ := uri3_inj (Dec.no_dot (hd.take _)) (Dec.no_dot (dec_slice hd _ _)) q1.no_dot q2.no_dot e' 
      have hv := hb.2.2.1
      rw [← e4] at hv
      exact hlone ((verify_escape_iff hc (by rintro rfl; simp at h1)).1 hv)
    | error er =>
      refine ⟨er, rfl, ?_⟩
      rcases GDTI.new_error hok with rfl | ⟨C', I', S', ⟨⟨_, q1⟩, q2, _⟩, e', hve⟩
      · exact .inl rfl
      · exact verify_error hve

example : ((GDTI.fromGs1ElementString (py "(253)9521141123454ABCD/5") 7).toOption.isSome) = true := by decide +kernel

/-- ITIP. -/
theorem C59_itip (s : Str) (n : Nat) :
    (∀ i C I k A B raw, s = py "(8006)" ++ (i :: (C ++ (I ++ (k :: (A ++ B)))) ++ (py "(21)" ++ raw)) →
      UDigits (i :: (C ++ (I ++ (k :: (A ++ B))))) → C.length = n → C.length + I.length = 12 → A.length = 2 → B.length = 2 → 6 ≤ n → n ≤ 12 →
      (∀ a ∈ raw, a ∈ gs82) → 1 ≤ raw.length → raw.length ≤ 20 → LoneLetterEscapes raw → 
      ∃ x, ITIP.fromGs1ElementString s n = .ok x ∧ ITIP.new (py "urn:epc:id:itip:" ++ joinWith '.' [C, i :: I, A, B, escape raw]) = .ok x) ∧
    ((¬ ∃ d raw, s = py "(8006)" ++ (d ++ (py "(21)" ++ raw)) ∧ UDigits d ∧ d.length = 18 ∧ (∀ a ∈ raw, a ∈ gs82) ∧ 1 ≤ raw.length ∧ raw.length ≤ 20 ∧
        (¬ LoneLetterEscapes raw ∨ (6 ≤ n ∧ n ≤ 12))) →
      ITIP.fromGs1ElementString s n = .error .convert) ∧
    (∀ d raw, s = py "(8006)" ++ (d ++ (py "(21)" ++ raw)) → UDigits d → d.length = 18 → (∀ a ∈ raw, a ∈ gs82) → 1 ≤ raw.length → raw.length ≤ 20 →
      ¬ LoneLetterEscapes raw →
      ∃ e, ITIP.fromGs1ElementString s n = .error e ∧ (e = .convert ∨ e = .value ∨ e = .overflow)) := by
  have hverr : ∀ raw : Str, (∀ a ∈ raw, a ∈ gs82) → 1 ≤ raw.length → LoneLetterEscapes raw → verifyGs3a3 (escape raw) = .ok () :=
    fun raw h h1 hl => (verify_escape_iff h (by rintro rfl; simp at h1)).2 hl
  refine ⟨?_, ?_, ?_⟩
  · intro i C I k A B raw e hd hn hsum hA hB hlo hhi hc h1 h2 hl 
    rw [uDigits_iff] at hd
    have hv := hverr raw hc h1 hl
    have hu := replaceUriEscapes_escape raw
    have hd' := Dec.cons.1 hd
    have hC : Dec C := (Dec.append.1 hd'.2).1
    have hIk := Dec.append.1 (Dec.append.1 hd'.2).2
    have hAB := Dec.append.1 (Dec.cons.1 hIk.2).2
    have hI : Dec (i :: I) := Dec.cons.2 ⟨hd'.1, hIk.1⟩
    have hnew := (ITIP.new_iff (u := py "urn:epc:id:itip" ++ ':' :: (C ++ '.' :: ((i :: I) ++ '.' :: (A ++ '.' :: (B ++ '.' :: escape raw)))))).2
      ⟨C, i :: I, A, B, escape raw, ⟨⟨dec_ne_nil hn (by omega), hC⟩, ⟨by simp, hI⟩, ⟨dec_ne_nil hA (by decide), hAB.1⟩, ⟨dec_ne_nil hB (by decide), hAB.2⟩, gs3a3_escape hc (by rintro rfl; simp at h1)⟩, ⟨by rw [List.length_cons]; omega, ⟨by omega, by omega⟩, hv, by rw [hu]; exact h1, by rw [hu]; exact h2⟩, rfl, rfl⟩
    exact ⟨_, (ITIP.from_iff s n _).2 ⟨i, C, I, k, A, B, raw, ⟨hd, hsum, hA, hB⟩, ⟨hc, h1, h2⟩, by show clampIdx 18 ((1 : Nat) + (n : Int)) = _; rw [clamp_add]; omega, e, hnew⟩, hnew⟩
  · intro hno
    refine Classical.byContradiction fun hr => ?_
    have hm : Rx.itipElem.fullmatch s = true := by
      cases hm : Rx.itipElem.fullmatch s with
      | true => rfl
      | false =>
        exfalso
        refine hr ?_
        unfold ITIP.fromGs1ElementString
        rw [hm]
        rfl
    obtain ⟨d, raw, ⟨hd, hl⟩, ⟨hc, h1, h2⟩, rfl⟩ := (ITIP.elem_lang s).1 hm
    have hlone : LoneLetterEscapes raw := Classical.byContradiction fun hll =>
      hno ⟨d, raw, rfl, (uDigits_iff d).2 hd, hl, hc, h1, h2, .inl hll⟩
    cases d with
    | nil => simp at hl
    | cons i d => ?_
    cases hok : ITIP.fromGs1ElementString (py "(8006)" ++ (i :: d ++ (py "(21)" ++ raw))) n with
    | ok x =>
      obtain ⟨i₁, C₁, I₁, k₁, A₁, B₁, c₁, ⟨hd₁, hl₁, _, _⟩, _, hcl, es, hu⟩ := (ITIP.from_iff _ _ _).1 hok
      have hcl' : min 18 (1 + n) = C₁.length + 1 := by rw [← clamp_add]; exact hcl
      obtain ⟨C', I', A_, B_, S', ⟨⟨_, q1⟩, ⟨_, q2⟩, ⟨_, q3⟩, ⟨_, q4⟩, _⟩, hb, e', _⟩ := ITIP.new_iff.1 hu
      obtain ⟨e1, -, -⟩ := uri3_inj (Dec.no_dot (Dec.append.1 (Dec.cons.1 hd₁).2).1) (Dec.no_dot (Dec.cons.2 ⟨(Dec.cons.1 hd₁).1, (Dec.append.1 (Dec.append.1 (Dec.cons.1 hd₁).2).2).1⟩)) q1.no_dot q2.no_dot e'
      have hb' := hb.2.1
      rw [← e1] at hb'
      exact hno ⟨_, raw, rfl, (uDigits_iff _).2 hd, hl, hc, h1, h2, .inr ⟨by omega, by omega⟩⟩
    | error er =>
      refine hr ?_
      rw [hok]
      rw [ITIP.from_eq n hd hl ⟨hc, h1, h2⟩] at hok
      rcases ITIP.new_error hok with rfl | ⟨C', I', A_, B_, S', ⟨⟨_, q1⟩, ⟨_, q2⟩, ⟨_, q3⟩, ⟨_, q4⟩, _⟩, e', hve⟩
      · rfl
      exfalso
      obtain ⟨-, -, e2⟩ := uri3_inj (Dec.no_dot (dec_slice hd _ _)) (Dec.no_dot (Dec.cons.2 ⟨(Dec.cons.1 hd).1, dec_slice hd _ _⟩)) q1.no_dot q2.no_dot e'
      obtain ⟨-, e3⟩ := append_sep_inj (Dec.no_dot (dec_slice hd _ _)) q3.no_dot e2
      obtain ⟨-, e4⟩ := append_sep_inj (Dec.no_dot (hd.drop _)) q4.no_dot e3
      rw [← e4, hverr raw hc h1 hlone] at hve
      cases hve
  · intro d raw e hd hl hc h1 h2 hlone
    rw [uDigits_iff] at hd
    subst e
    cases d with
    | nil => simp at hl
    | cons i d => ?_
    rw [ITIP.from_eq n hd hl ⟨hc, h1, h2⟩]
    cases hok : ITIP.new _ with
    | ok x =>
      exfalso
      obtain ⟨C', I', A_, B_, S', ⟨⟨_, q1⟩, ⟨_, q2⟩, ⟨_, q3⟩, ⟨_, q4⟩, _⟩, hb, e', _⟩ := ITIP.new_iff.1 hok
      obtain ⟨-, -, e2⟩ := uri3_inj (Dec.no_dot (dec_slice hd _ _)) (Dec.no_dot (Dec.cons.2 ⟨(Dec.cons.1 hd).1, dec_slice hd _ _⟩)) q1.no_dot q2.no_dot e'
      obtain ⟨-, e3⟩ := append_sep_inj (Dec.no_dot (dec_slice hd _ _)) q3.no_dot e2
      obtain ⟨-, e4⟩ := append_sep_inj (Dec.no_dot (hd.drop _)) q4.no_dot e3
      have hv := hb.2.2.1
      rw [← e4] at hv
      exact hlone ((verify_escape_iff hc (by rintro rfl; simp at h1)).1 hv)
    | error er =>
      refine ⟨er, rfl, ?_⟩
      rcases ITIP.new_error hok with rfl | ⟨C', I', A_, B_, S', ⟨⟨_, q1⟩, ⟨_, q2⟩, ⟨_, q3⟩, ⟨_, q4⟩, _⟩, e', hve⟩
      · exact .inl rfl
      · exact verify_error hve

example : ((ITIP.fromGs1ElementString (py "(8006)095211411234540404(21)32a/b") 7).toOption.isSome) = true := by decide +kernel

/-- SSCC. -/
theorem C59_sscc (s : Str) (n : Nat) :
    (∀ i C I k, s = py "(00)" ++ (i :: (C ++ (I ++ [k]))) → UDigits (i :: (C ++ (I ++ [k]))) → C.length = n → C.length + I.length = 16 → 6 ≤ n → n ≤ 12 →
      ∃ x, SSCC.fromGs1ElementString s n = .ok x ∧ SSCC.new (py "urn:epc:id:sscc:" ++ joinWith '.' [C, i :: I]) = .ok x) ∧
    ((¬ ∃ d, s = py "(00)" ++ d ∧ UDigits d ∧ d.length = 18 ∧ 6 ≤ n ∧ n ≤ 12) → SSCC.fromGs1ElementString s n = .error .convert) := by
  refine ⟨?_, ?_⟩
  · intro i C I k e hd hn hsum hlo hhi
    rw [uDigits_iff] at hd
    have hd' := Dec.cons.1 hd
    have hC : Dec C := (Dec.append.1 hd'.2).1
    have hI : Dec (i :: I) := Dec.cons.2 ⟨hd'.1, (Dec.append.1 (Dec.append.1 hd'.2).2).1⟩
    have hnew := (SSCC.new_iff (u := py "urn:epc:id:sscc" ++ ':' :: (C ++ '.' :: (i :: I)))).2
      ⟨C, i :: I, ⟨⟨dec_ne_nil hn (by omega), hC⟩, ⟨by simp, hI⟩⟩, ⟨by rw [List.length_cons]; omega, by omega, by omega⟩, rfl, rfl⟩
    exact ⟨_, (SSCC.from_iff s n _).2 ⟨i, C, I, k, ⟨hd, hsum⟩, by show clampIdx 18 ((1 : Nat) + (n : Int)) = _; rw [clamp_add]; omega, e, hnew⟩, hnew⟩
  · intro hno
    refine Classical.byContradiction fun hr => ?_
    have hm : Rx.ssccElem.fullmatch s = true := by
      cases hm : Rx.ssccElem.fullmatch s with
      | true => rfl
      | false =>
        exfalso
        refine hr ?_
        unfold SSCC.fromGs1ElementString
        rw [hm]
        rfl
    obtain ⟨d, ⟨hd, hl⟩, rfl⟩ := (SSCC.elem_lang s).1 hm
    cases d with
    | nil => simp at hl
    | cons i d => ?_
    cases hok : SSCC.fromGs1ElementString (py "(00)" ++ (i :: d)) n with
    | ok x =>
      obtain ⟨i₁, C₁, I₁, k₁, ⟨hd₁, hl₁⟩, hcl, es, hu⟩ := (SSCC.from_iff _ _ _).1 hok
      have hcl' : min 18 (1 + n) = C₁.length + 1 := by rw [← clamp_add]; exact hcl
      obtain ⟨C', I', ⟨⟨_, q1⟩, _⟩, hb, e', _⟩ := SSCC.new_iff.1 hu
      obtain ⟨e1, -⟩ := uri2_inj (Dec.no_dot (Dec.append.1 (Dec.cons.1 hd₁).2).1) q1.no_dot e'
      have hb' := hb.2
      rw [← e1] at hb'
      exact hno ⟨_, rfl, (uDigits_iff _).2 hd, hl, by omega, by omega⟩
    | error er =>
      refine hr ?_
      rw [hok]
      rw [SSCC.from_eq n hd hl] at hok
      rw [SSCC.new_error hok]

example : ((SSCC.fromGs1ElementString (py "(00)195211412345678900") 7).toOption.isSome) = true := by decide +kernel

/-- GSRN. -/
theorem C59_gsrn (s : Str) (n : Nat) :
    (∀ C I k, s = py "(8018)" ++ (C ++ (I ++ [k])) → UDigits (C ++ (I ++ [k])) → C.length = n → C.length + I.length = 17 → 6 ≤ n → n ≤ 12 →
      ∃ x, GSRN.fromGs1ElementString s n = .ok x ∧ GSRN.new (py "urn:epc:id:gsrn:" ++ joinWith '.' [C, I]) = .ok x) ∧
    ((¬ ∃ d, s = py "(8018)" ++ d ∧ UDigits d ∧ d.length = 18 ∧ 6 ≤ n ∧ n ≤ 12) → GSRN.fromGs1ElementString s n = .error .convert) := by
  refine ⟨?_, ?_⟩
  · intro C I k e hd hn hsum hlo hhi
    rw [uDigits_iff] at hd
    have hC : Dec C := (Dec.append.1 hd).1
    have hI : Dec I := (Dec.append.1 (Dec.append.1 hd).2).1
    have hnew := (GSRN.new_iff (u := py "urn:epc:id:gsrn" ++ ':' :: (C ++ '.' :: (I)))).2
      ⟨C, I, ⟨⟨dec_ne_nil hn (by omega), hC⟩, ⟨dec_ne_nil rfl (by omega), hI⟩⟩, ⟨hsum, by omega, by omega⟩, rfl, rfl⟩
    exact ⟨_, (GSRN.from_iff s n _).2 ⟨C, I, k, ⟨hd, hsum⟩, by rw [clamp_nat]; omega, e, hnew⟩, hnew⟩
  · intro hno
    refine Classical.byContradiction fun hr => ?_
    have hm : Rx.gsrnElem.fullmatch s = true := by
      cases hm : Rx.gsrnElem.fullmatch s with
      | true => rfl
      | false =>
        exfalso
        refine hr ?_
        unfold GSRN.fromGs1ElementString
        rw [hm]
        rfl
    obtain ⟨d, ⟨hd, hl⟩, rfl⟩ := (GSRN.elem_lang s).1 hm
    cases hok : GSRN.fromGs1ElementString (py "(8018)" ++ d) n with
    | ok x =>
      obtain ⟨C₁, I₁, k₁, ⟨hd₁, hl₁⟩, hcl, es, hu⟩ := (GSRN.from_iff _ _ _).1 hok
      have hcl' : min 18 n = C₁.length := by rw [← clamp_nat]; exact hcl
      obtain ⟨C', I', ⟨⟨_, q1⟩, _⟩, hb, e', _⟩ := GSRN.new_iff.1 hu
      obtain ⟨e1, -⟩ := uri2_inj (Dec.no_dot (Dec.append.1 hd₁).1) q1.no_dot e'
      have hb' := hb.2
      rw [← e1] at hb'
      exact hno ⟨_, rfl, (uDigits_iff _).2 hd, hl, by omega, by omega⟩
    | error er =>
      refine hr ?_
      rw [hok]
      rw [GSRN.from_eq n hd hl] at hok
      rw [GSRN.new_error hok]

example : ((GSRN.fromGs1ElementString (py "(8018)952114112345678906") 7).toOption.isSome) = true := by decide +kernel

/-- GSRNP. -/
theorem C59_gsrnp (s : Str) (n : Nat) :
    (∀ C I k, s = py "(8017)" ++ (C ++ (I ++ [k])) → UDigits (C ++ (I ++ [k])) → C.length = n → C.length + I.length = 17 → 6 ≤ n → n ≤ 12 →
      ∃ x, GSRNP.fromGs1ElementString s n = .ok x ∧ GSRNP.new (py "urn:epc:id:gsrnp:" ++ joinWith '.' [C, I]) = .ok x) ∧
    ((¬ ∃ d, s = py "(8017)" ++ d ∧ UDigits d ∧ d.length = 18 ∧ 6 ≤ n ∧ n ≤ 12) → GSRNP.fromGs1ElementString s n = .error .convert) := by
  refine ⟨?_, ?_⟩
  · intro C I k e hd hn hsum hlo hhi
    rw [uDigits_iff] at hd
    have hC : Dec C := (Dec.append.1 hd).1
    have hI : Dec I := (Dec.append.1 (Dec.append.1 hd).2).1
    have hnew := (GSRNP.new_iff (u := py "urn:epc:id:gsrnp" ++ ':' :: (C ++ '.' :: (I)))).2
      ⟨C, I, ⟨⟨dec_ne_nil hn (by omega), hC⟩, ⟨dec_ne_nil rfl (by omega), hI⟩⟩, ⟨hsum, by omega, by omega⟩, rfl, rfl⟩
    exact ⟨_, (GSRNP.from_iff s n _).2 ⟨C, I, k, ⟨hd, hsum⟩, by rw [clamp_nat]; omega, e, hnew⟩, hnew⟩
  · intro hno
    refine Classical.byContradiction fun hr => ?_
    have hm : Rx.gsrnpElem.fullmatch s = true := by
      cases hm : Rx.gsrnpElem.fullmatch s with
      | true => rfl
      | false =>
        exfalso
        refine hr ?_
        unfold GSRNP.fromGs1ElementString
        rw [hm]
        rfl
    obtain ⟨d, ⟨hd, hl⟩, rfl⟩ := (GSRNP.elem_lang s).1 hm
    cases hok : GSRNP.fromGs1ElementString (py "(8017)" ++ d) n with
    | ok x =>
      obtain ⟨C₁, I₁, k₁, ⟨hd₁, hl₁⟩, hcl, es, hu⟩ := (GSRNP.from_iff _ _ _).1 hok
      have hcl' : min 18 n = C₁.length := by rw [← clamp_nat]; exact hcl
      obtain ⟨C', I', ⟨⟨_, q1⟩, _⟩, hb, e', _⟩ := GSRNP.new_iff.1 hu
      obtain ⟨e1, -⟩ := uri2_inj (Dec.no_dot (Dec.append.1 hd₁).1) q1.no_dot e'
      have hb' := hb.2
      rw [← e1] at hb'
      exact hno ⟨_, rfl, (uDigits_iff _).2 hd, hl, by omega, by omega⟩
    | error er =>
      refine hr ?_
      rw [hok]
      rw [GSRNP.from_eq n hd hl] at hok
      rw [GSRNP.new_error hok]

example : ((GSRNP.fromGs1ElementString (py "(8017)952114112345678906") 7).toOption.isSome) = true := by decide +kernel

/-- PGLN. -/
theorem C59_pgln (s : Str) (n : Nat) :
    (∀ C I k, s = py "(417)" ++ (C ++ (I ++ [k])) → UDigits (C ++ (I ++ [k])) → C.length = n → C.length + I.length = 12 → 6 ≤ n → n ≤ 12 →
      ∃ x, PGLN.fromGs1ElementString s n = .ok x ∧ PGLN.new (py "urn:epc:id:pgln:" ++ joinWith '.' [C, I]) = .ok x) ∧
    ((¬ ∃ d, s = py "(417)" ++ d ∧ UDigits d ∧ d.length = 13 ∧ 6 ≤ n ∧ n ≤ 12) → PGLN.fromGs1ElementString s n = .error .convert) := by
  refine ⟨?_, ?_⟩
  · intro C I k e hd hn hsum hlo hhi
    rw [uDigits_iff] at hd
    have hC : Dec C := (Dec.append.1 hd).1
    have hI : Dec I := (Dec.append.1 (Dec.append.1 hd).2).1
    have hnew := (PGLN.new_iff (u := py "urn:epc:id:pgln" ++ ':' :: (C ++ '.' :: (I)))).2
      ⟨C, I, ⟨⟨dec_ne_nil hn (by omega), hC⟩, hI⟩, ⟨hsum, by omega, by omega⟩, rfl, rfl⟩
    exact ⟨_, (PGLN.from_iff s n _).2 ⟨C, I, k, ⟨hd, hsum⟩, by rw [clamp_nat]; omega, e, hnew⟩, hnew⟩
  · intro hno
    refine Classical.byContradiction fun hr => ?_
    have hm : Rx.pglnElem.fullmatch s = true := by
      cases hm : Rx.pglnElem.fullmatch s with
      | true => rfl
      | false =>
        exfalso
        refine hr ?_
        unfold PGLN.fromGs1ElementString
        rw [hm]
        rfl
    obtain ⟨d, ⟨hd, hl⟩, rfl⟩ := (PGLN.elem_lang s).1 hm
    cases hok : PGLN.fromGs1ElementString (py "(417)" ++ d) n with
    | ok x =>
      obtain ⟨C₁, I₁, k₁, ⟨hd₁, hl₁⟩, hcl, es, hu⟩ := (PGLN.from_iff _ _ _).1 hok
      have hcl' : min 13 n = C₁.length := by rw [← clamp_nat]; exact hcl
      obtain ⟨C', I', ⟨⟨_, q1⟩, _⟩, hb, e', _⟩ := PGLN.new_iff.1 hu
      obtain ⟨e1, -⟩ := uri2_inj (Dec.no_dot (Dec.append.1 hd₁).1) q1.no_dot e'
      have hb' := hb.2
      rw [← e1] at hb'
      exact hno ⟨_, rfl, (uDigits_iff _).2 hd, hl, by omega, by omega⟩
    | error er =>
      refine hr ?_
      rw [hok]
      rw [PGLN.from_eq n hd hl] at hok
      rw [PGLN.new_error hok]

example : ((PGLN.fromGs1ElementString (py "(417)9521141890127") 7).toOption.isSome) = true := by decide +kernel

/-- GSIN. -/
theorem C59_gsin (s : Str) (n : Nat) :
    (∀ C I k, s = py "(402)" ++ (C ++ (I ++ [k])) → UDigits (C ++ (I ++ [k])) → C.length = n → C.length + I.length = 16 → 6 ≤ n → n ≤ 12 →
      ∃ x, GSIN.fromGs1ElementString s n = .ok x ∧ GSIN.new (py "urn:epc:id:gsin:" ++ joinWith '.' [C, I]) = .ok x) ∧
    ((¬ ∃ d, s = py "(402)" ++ d ∧ UDigits d ∧ d.length = 17 ∧ 6 ≤ n ∧ n ≤ 12) → GSIN.fromGs1ElementString s n = .error .convert) := by
  refine ⟨?_, ?_⟩
  · intro C I k e hd hn hsum hlo hhi
    rw [uDigits_iff] at hd
    have hC : Dec C := (Dec.append.1 hd).1
    have hI : Dec I := (Dec.append.1 (Dec.append.1 hd).2).1
    have hnew := (GSIN.new_iff (u := py "urn:epc:id:gsin" ++ ':' :: (C ++ '.' :: (I)))).2
      ⟨C, I, ⟨⟨dec_ne_nil hn (by omega), hC⟩, ⟨dec_ne_nil rfl (by omega), hI⟩⟩, ⟨hsum, by omega, by omega⟩, rfl, rfl⟩
    exact ⟨_, (GSIN.from_iff s n _).2 ⟨C, I, k, ⟨hd, hsum⟩, by rw [clamp_nat]; omega, e, hnew⟩, hnew⟩
  · intro hno
    refine Classical.byContradiction fun hr => ?_
    have hm : Rx.gsinElem.fullmatch s = true := by
      cases hm : Rx.gsinElem.fullmatch s with
      | true => rfl
      | false =>
        exfalso
        refine hr ?_
        unfold GSIN.fromGs1ElementString
        rw [hm]
        rfl
    obtain ⟨d, ⟨hd, hl⟩, rfl⟩ := (GSIN.elem_lang s).1 hm
    cases hok : GSIN.fromGs1ElementString (py "(402)" ++ d) n with
    | ok x =>
      obtain ⟨C₁, I₁, k₁, ⟨hd₁, hl₁⟩, hcl, es, hu⟩ := (GSIN.from_iff _ _ _).1 hok
      have hcl' : min 16 n = C₁.length := by rw [← clamp_nat]; exact hcl
      obtain ⟨C', I', ⟨⟨_, q1⟩, _⟩, hb, e', _⟩ := GSIN.new_iff.1 hu
      obtain ⟨e1, -⟩ := uri2_inj (Dec.no_dot (Dec.append.1 hd₁).1) q1.no_dot e'
      have hb' := hb.2
      rw [← e1] at hb'
      exact hno ⟨_, rfl, (uDigits_iff _).2 hd, hl, by omega, by omega⟩
    | error er =>
      refine hr ?_
      rw [hok]
      rw [GSIN.from_eq n hd hl] at hok
      rw [GSIN.new_error hok]

example : ((GSIN.fromGs1ElementString (py "(402)95211411234567892") 7).toOption.isSome) = true := by decide +kernel

/-- SGCN. -/
theorem C59_sgcn (s : Str) (n : Nat) :
    (∀ C I k S, s = py "(255)" ++ (C ++ (I ++ [k]) ++ S) → UDigits (C ++ (I ++ [k])) → C.length = n → C.length + I.length = 12 →
      6 ≤ n → n ≤ 12 → Digits S → 1 ≤ S.length → S.length ≤ 12 →
      ∃ x, SGCN.fromGs1ElementString s n = .ok x ∧ SGCN.new (py "urn:epc:id:sgcn:" ++ joinWith '.' [C, I, S]) = .ok x) ∧
    ((¬ ∃ d S, s = py "(255)" ++ (d ++ S) ∧ UDigits d ∧ d.length = 13 ∧ Digits S ∧ 1 ≤ S.length ∧ S.length ≤ 12 ∧ 6 ≤ n ∧ n ≤ 12) →
      SGCN.fromGs1ElementString s n = .error .convert) := by
  refine ⟨?_, ?_⟩
  · intro C I k S e hd hn hsum hlo hhi hS h1 h2
    rw [uDigits_iff] at hd
    have hC : Dec C := (Dec.append.1 hd).1
    have hI : Dec I := (Dec.append.1 (Dec.append.1 hd).2).1
    have hgs : ∀ a ∈ S, a ∈ gs82 := fun a ha => gs3a3_gs82 (gs3a3_digits hS (by rintro rfl; simp at h1)) a ha
    have hnew := (SGCN.new_iff (u := py "urn:epc:id:sgcn" ++ ':' :: (C ++ '.' :: (I ++ '.' :: S)))).2
      ⟨C, I, S, ⟨⟨dec_ne_nil hn (by omega), hC⟩, hI, ⟨by rintro rfl; simp at h1, dec_of_digits hS⟩⟩, ⟨hsum, h2, by omega, by omega⟩, rfl, rfl⟩
    refine ⟨_, (SGCN.from_iff s n _).2 ⟨C, I, k, S, ⟨hd, hsum⟩, ⟨hgs, h1, h2⟩, by rw [clamp_nat]; omega, e, ?_⟩, hnew⟩
    rw [escape_digits hS]
    exact hnew
  · intro hno
    refine Classical.byContradiction fun hr => ?_
    have hm : Rx.sgcnElem.fullmatch s = true := by
      cases hm : Rx.sgcnElem.fullmatch s with
      | true => rfl
      | false =>
        exfalso
        refine hr ?_
        unfold SGCN.fromGs1ElementString
        rw [hm]
        rfl
    obtain ⟨d, raw, ⟨hd, hl⟩, ⟨hc, h1, h2⟩, rfl⟩ := (SGCN.elem_lang s).1 hm
    cases hok : SGCN.fromGs1ElementString (py "(255)" ++ (d ++ raw)) n with
    | ok x =>
      obtain ⟨C, I, k, c, ⟨hd₁, hl₁⟩, hc₁, hcl, es, hu⟩ := (SGCN.from_iff _ _ _).1 hok
      have hcl' : min 13 n = C.length := by rw [← clamp_nat]; exact hcl
      obtain ⟨C', I', S', ⟨⟨_, q1⟩, q2, ⟨_, q3⟩⟩, hb, e', _⟩ := SGCN.new_iff.1 hu
      obtain ⟨rfl, rfl, rfl⟩ := uri3_inj (Dec.append.1 hd₁).1.no_dot (Dec.append.1 (Dec.append.1 hd₁).2).1.no_dot q1.no_dot q2.no_dot e'
      have hcd : Digits (escape c) :=
        digits_of_dec_ascii q3 (gs3a3_ascii (gs3a3_escape hc₁.1 (by rintro rfl; simp at hc₁)))
      have hesc : escape c = c := by
        have := replaceUriEscapes_escape (escape c)
        rw [escape_digits hcd] at this
        rw [← this, replaceUriEscapes_escape]
      rw [hesc] at hcd
      refine hno ⟨_, c, es, (uDigits_iff _).2 hd₁, ?_, hcd, hc₁.2.1, hc₁.2.2, by omega, by omega⟩
      simp only [List.length_append, List.length_cons, List.length_nil]
      omega
    | error er =>
      refine hr ?_
      rw [hok]
      rw [SGCN.from_eq n hd hl ⟨hc, h1, h2⟩] at hok
      rw [SGCN.new_error hok]

example : ((SGCN.fromGs1ElementString (py "(255)952114167890904711") 7).toOption.isSome) = true := by decide +kernel

private theorem escape_len_ge (raw : Str) : raw.length ≤ (escape raw).length := by
  induction raw with
  | nil => simp
  | cons c raw ih =>
    rw [escape, List.flatMap_cons, List.length_append, List.length_cons]
    have : 1 ≤ (escChar c).length := by
      unfold escChar
      repeat' split
      all_goals simp
    have h2 : (escape raw).length = (List.flatMap escChar raw).length := rfl
    omega

private theorem from_cut (p b : Str) (k n : Nat) (hp : p.length = k) :
    sliceI (p ++ b) (k : Nat) (k + (n : Int)) = b.take n ∧ sliceFromI (p ++ b) (k + (n : Int)) = b.drop n := by
  have hk : clampIdx (p ++ b).length (k : Int) = k := by rw [clamp_nat, List.length_append]; omega
  have hkn : clampIdx (p ++ b).length ((k : Int) + (n : Int)) = min (k + b.length) (k + n) := by
    rw [clamp_add, List.length_append, hp]
  constructor
  · have := sliceI_append (a := p) (b := b.take n) (c := b.drop n) (lo := (k : Int)) (hi := (k : Int) + (n : Int))
      (by rw [List.take_append_drop, hk, hp]) (by rw [List.take_append_drop, hkn, List.length_take, hp]; omega)
    rwa [List.take_append_drop] at this
  · unfold sliceFromI
    rw [hkn]
    by_cases hle : n ≤ b.length
    · rw [show min (k + b.length) (k + n) = p.length + n by omega, List.drop_append]
      simp
    · rw [show min (k + b.length) (k + n) = p.length + b.length by omega, List.drop_append, List.drop_eq_nil_of_le (by omega : b.length ≤ n)]
      simp

/-- GIAI. -/
theorem C59_giai (s : Str) (n : Nat) :
    (∀ C c, s = py "(8004)" ++ (C ++ c) → UDigits C → C.length = n → 6 ≤ n → n ≤ 12 → (∀ a ∈ c, a ∈ gs82) → 1 ≤ c.length →
      n + (escape c).length ≤ 30 → ':' ∉ c → LoneLetterEscapes c →
      ∃ x, GIAI.fromGs1ElementString s n = .ok x ∧ GIAI.new (py "urn:epc:id:giai:" ++ joinWith '.' [C, escape c]) = .ok x) ∧
    (':' ∉ s → '.' ∉ (s.drop 6).take n →
      (¬ ∃ C c, s = py "(8004)" ++ (C ++ c) ∧ UDigits C ∧ C.length = n ∧ (∀ a ∈ c, a ∈ gs82) ∧ 1 ≤ c.length ∧
        (¬ LoneLetterEscapes c ∨ (6 ≤ n ∧ n ≤ 12 ∧ n + (escape c).length ≤ 30))) →
      GIAI.fromGs1ElementString s n = .error .convert) ∧
    (∀ C c, s = py "(8004)" ++ (C ++ c) → UDigits C → C.length = n → (∀ a ∈ c, a ∈ gs82) → 1 ≤ c.length → ':' ∉ c → ¬ LoneLetterEscapes c →
      ∃ e, GIAI.fromGs1ElementString s n = .error e ∧ (e = .convert ∨ e = .value ∨ e = .overflow)) := by
  have key : ∀ b : Str, Rx.giaiElem.fullmatch (py "(8004)" ++ b) = true → GIAI.fromGs1ElementString (py "(8004)" ++ b) n =
      GIAI.new (py "urn:epc:id:giai" ++ ':' :: (b.take n ++ '.' :: escape (b.drop n))) := by
    intro b hm
    have hcut := from_cut (py "(8004)") b 6 n rfl
    rw [GIAI.from_eq n hm, show ((6 : Int) + (n : Int)) = ((6 : Nat) : Int) + (n : Int) from rfl, hcut.1, hcut.2]
  have hhead : ∀ c : Str, ':' ∉ c → (split ':' (escape c)).headD [] = escape c := by
    intro c hc
    rw [split_notMem (escape_no_colon hc)]
    rfl
  refine ⟨?_, ?_, ?_⟩
  · intro C c e hd hn hlo hhi hc h1 hlim hcol hl
    rw [uDigits_iff] at hd
    have hne : c ≠ [] := by rintro rfl; simp at h1
    have hv := (verify_escape_iff hc hne).2 hl
    have hu := replaceUriEscapes_escape c
    have hle := escape_len_ge c
    have hnew := (GIAI.new_iff (u := py "urn:epc:id:giai" ++ ':' :: (C ++ '.' :: escape c))).2
      ⟨C, escape c, ⟨⟨dec_ne_nil hn (by omega), hd⟩, gs3a3_escape hc hne⟩, ⟨⟨by omega, by omega⟩, by rw [hhead c hcol]; exact hv, by rw [hhead c hcol]; omega⟩, rfl, rfl⟩
    have hm : Rx.giaiElem.fullmatch s = true := (GIAI.elem_lang s).2 ⟨C, c, ⟨hd, by omega, by omega⟩, ⟨hc, h1, by omega⟩, e⟩
    refine ⟨_, ?_, hnew⟩
    subst e
    rw [key _ hm, ← hn, List.take_left' rfl, List.drop_left' rfl]
    exact hnew
  · intro hcs hdot hno
    refine Classical.byContradiction fun hr => ?_
    have hm : Rx.giaiElem.fullmatch s = true := by
      cases hm : Rx.giaiElem.fullmatch s with
      | true => rfl
      | false =>
        exfalso
        refine hr ?_
        unfold GIAI.fromGs1ElementString
        rw [hm]
        rfl
    obtain ⟨d, q, _, _, e⟩ := (GIAI.elem_lang s).1 hm
    have e0 : s = py "(8004)" ++ (d ++ q) := e
    generalize d ++ q = b at e0
    subst e0
    have hdb : (py "(8004)" ++ b).drop 6 = b := rfl
    rw [hdb] at hdot
    have hsplit : py "(8004)" ++ b = py "(8004)" ++ (b.take n ++ b.drop n) := by rw [List.take_append_drop]
    have hclen : b.drop n ≠ [] → (b.take n).length = n := by
      intro hne
      rw [List.length_take]
      have : n < b.length := by
        refine Classical.byContradiction fun hn => hne (List.drop_eq_nil_of_le (by omega))
      omega
    have hnocol : ':' ∉ b.drop n := fun hx => hcs (List.mem_append_right _ (List.mem_of_mem_drop hx))
    cases hok : GIAI.fromGs1ElementString (py "(8004)" ++ b) n with
    | ok x =>
      rw [key b hm] at hok
      obtain ⟨C', S', ⟨⟨_, q1⟩, hS⟩, hb, e', _⟩ := GIAI.new_iff.1 hok
      obtain ⟨e1, e2⟩ := uri2_inj hdot q1.no_dot e'
      rw [← e1] at q1 hb
      rw [← e2] at hS hb
      obtain ⟨g1, g2⟩ := gs82_of_lang hS
      have hn := hclen g2
      rw [hhead _ hnocol, hn] at hb
      exact hno ⟨b.take n, b.drop n, hsplit, (uDigits_iff _).2 q1, hn, g1, List.length_pos_iff.2 g2, .inr ⟨hb.1.1, hb.1.2, hb.2.2⟩⟩
    | error er =>
      refine hr ?_
      rw [hok]
      rw [key b hm] at hok
      rcases GIAI.new_error hok with rfl | ⟨C', S', ⟨⟨_, q1⟩, hS⟩, e', hve⟩
      · rfl
      exfalso
      obtain ⟨e1, e2⟩ := uri2_inj hdot q1.no_dot e'
      rw [← e1] at q1
      rw [← e2] at hS hve
      obtain ⟨g1, g2⟩ := gs82_of_lang hS
      refine hno ⟨b.take n, b.drop n, hsplit, (uDigits_iff _).2 q1, hclen g2, g1, List.length_pos_iff.2 g2, .inl fun hl => ?_⟩
      rw [hhead _ hnocol] at hve
      rw [(verify_escape_iff g1 g2).2 hl] at hve
      cases hve
  · intro C c e hd hn hc h1 hcol hlone
    rw [uDigits_iff] at hd
    subst e
    have hne : c ≠ [] := by rintro rfl; simp at h1
    cases hm : Rx.giaiElem.fullmatch (py "(8004)" ++ (C ++ c)) with
    | false =>
      refine ⟨.convert, ?_, .inl rfl⟩
      unfold GIAI.fromGs1ElementString
      rw [hm]
      rfl
    | true =>
      rw [key _ hm, ← hn, List.take_left' rfl, List.drop_left' rfl]
      cases hok : GIAI.new _ with
      | ok x =>
        exfalso
        obtain ⟨C', S', ⟨⟨_, q1⟩, hS⟩, hb, e', _⟩ := GIAI.new_iff.1 hok
        obtain ⟨e1, e2⟩ := uri2_inj hd.no_dot q1.no_dot e'
        have hv := hb.2.1
        rw [← e2, hhead _ hcol] at hv
        exact hlone ((verify_escape_iff hc hne).1 hv)
      | error er =>
        refine ⟨er, rfl, ?_⟩
        rcases GIAI.new_error hok with rfl | ⟨C', S', _, e', hve⟩
        · exact .inl rfl
        · exact verify_error hve

example : ((GIAI.fromGs1ElementString (py "(8004)9521141xyz/.1") 7).toOption.isSome) = true := by decide +kernel

/-- GINC. -/
theorem C59_ginc (s : Str) (n : Nat) :
    (∀ C c, s = py "(401)" ++ (C ++ c) → UDigits C → C.length = n → 6 ≤ n → n ≤ 12 → (∀ a ∈ c, a ∈ gs82) → 1 ≤ c.length →
      n + c.length ≤ 30 → LoneLetterEscapes c →
      ∃ x, GINC.fromGs1ElementString s n = .ok x ∧ GINC.new (py "urn:epc:id:ginc:" ++ joinWith '.' [C, escape c]) = .ok x) ∧
    ('.' ∉ (s.drop 5).take n →
      (¬ ∃ C c, s = py "(401)" ++ (C ++ c) ∧ UDigits C ∧ C.length = n ∧ (∀ a ∈ c, a ∈ gs82) ∧ 1 ≤ c.length ∧
        (¬ LoneLetterEscapes c ∨ (6 ≤ n ∧ n ≤ 12 ∧ n + c.length ≤ 30))) →
      GINC.fromGs1ElementString s n = .error .convert) ∧
    (∀ C c, s = py "(401)" ++ (C ++ c) → UDigits C → C.length = n → (∀ a ∈ c, a ∈ gs82) → 1 ≤ c.length → ¬ LoneLetterEscapes c →
      ∃ e, GINC.fromGs1ElementString s n = .error e ∧ (e = .convert ∨ e = .value ∨ e = .overflow)) := by
  have key : ∀ b : Str, Rx.gincElem.fullmatch (py "(401)" ++ b) = true → GINC.fromGs1ElementString (py "(401)" ++ b) n =
      GINC.new (py "urn:epc:id:ginc" ++ ':' :: (b.take n ++ '.' :: escape (b.drop n))) := by
    intro b hm
    have hcut := from_cut (py "(401)") b 5 n rfl
    rw [GINC.from_eq n hm, show ((5 : Int) + (n : Int)) = ((5 : Nat) : Int) + (n : Int) from rfl, hcut.1, hcut.2]
  refine ⟨?_, ?_, ?_⟩
  · intro C c e hd hn hlo hhi hc h1 hlim hl
    rw [uDigits_iff] at hd
    have hne : c ≠ [] := by rintro rfl; simp at h1
    have hv := (verify_escape_iff hc hne).2 hl
    have hu := replaceUriEscapes_escape c
    have hle := escape_len_ge c
    have hnew := (GINC.new_iff (u := py "urn:epc:id:ginc" ++ ':' :: (C ++ '.' :: escape c))).2
      ⟨C, escape c, ⟨⟨dec_ne_nil hn (by omega), hd⟩, gs3a3_escape hc hne⟩, ⟨⟨by omega, by omega⟩, hv, by rw [hu]; omega, by rw [hu]; omega⟩, rfl, rfl⟩
    have hm : Rx.gincElem.fullmatch s = true := (GINC.elem_lang s).2 ⟨C, c, ⟨hd, by omega, by omega⟩, ⟨hc, h1, by omega⟩, e⟩
    refine ⟨_, ?_, hnew⟩
    subst e
    rw [key _ hm, ← hn, List.take_left' rfl, List.drop_left' rfl]
    exact hnew
  · intro hdot hno
    refine Classical.byContradiction fun hr => ?_
    have hm : Rx.gincElem.fullmatch s = true := by
      cases hm : Rx.gincElem.fullmatch s with
      | true => rfl
      | false =>
        exfalso
        refine hr ?_
        unfold GINC.fromGs1ElementString
        rw [hm]
        rfl
    obtain ⟨d, q, _, _, e⟩ := (GINC.elem_lang s).1 hm
    have e0 : s = py "(401)" ++ (d ++ q) := e
    generalize d ++ q = b at e0
    subst e0
    have hdb : (py "(401)" ++ b).drop 5 = b := rfl
    rw [hdb] at hdot
    have hsplit : py "(401)" ++ b = py "(401)" ++ (b.take n ++ b.drop n) := by rw [List.take_append_drop]
    have hclen : b.drop n ≠ [] → (b.take n).length = n := by
      intro hne
      rw [List.length_take]
      have : n < b.length := by
        refine Classical.byContradiction fun hn => hne (List.drop_eq_nil_of_le (by omega))
      omega
    have hnocol : True := trivial
    cases hok : GINC.fromGs1ElementString (py "(401)" ++ b) n with
    | ok x =>
      rw [key b hm] at hok
      obtain ⟨C', S', ⟨⟨_, q1⟩, hS⟩, hb, e', _⟩ := GINC.new_iff.1 hok
      obtain ⟨e1, e2⟩ := uri2_inj hdot q1.no_dot e'
      rw [← e1] at q1 hb
      rw [← e2] at hS hb
      obtain ⟨g1, g2⟩ := gs82_of_lang hS
      have hn := hclen g2
      rw [replaceUriEscapes_escape, hn] at hb
      exact hno ⟨b.take n, b.drop n, hsplit, (uDigits_iff _).2 q1, hn, g1, List.length_pos_iff.2 g2, .inr ⟨hb.1.1, hb.1.2, hb.2.2.2⟩⟩
    | error er =>
      refine hr ?_
      rw [hok]
      rw [key b hm] at hok
      rcases GINC.new_error hok with rfl | ⟨C', S', ⟨⟨_, q1⟩, hS⟩, e', hve⟩
      · rfl
      exfalso
      obtain ⟨e1, e2⟩ := uri2_inj hdot q1.no_dot e'
      rw [← e1] at q1
      rw [← e2] at hS hve
      obtain ⟨g1, g2⟩ := gs82_of_lang hS
      refine hno ⟨b.take n, b.drop n, hsplit, (uDigits_iff _).2 q1, hclen g2, g1, List.length_pos_iff.2 g2, .inl fun hl => ?_⟩
      skip
      rw [(verify_escape_iff g1 g2).2 hl] at hve
      cases hve
  · intro C c e hd hn hc h1 hlone
    rw [uDigits_iff] at hd
    subst e
    have hne : c ≠ [] := by rintro rfl; simp at h1
    cases hm : Rx.gincElem.fullmatch (py "(401)" ++ (C ++ c)) with
    | false =>
      refine ⟨.convert, ?_, .inl rfl⟩
      unfold GINC.fromGs1ElementString
      rw [hm]
      rfl
    | true =>
      rw [key _ hm, ← hn, List.take_left' rfl, List.drop_left' rfl]
      cases hok : GINC.new _ with
      | ok x =>
        exfalso
        obtain ⟨C', S', ⟨⟨_, q1⟩, hS⟩, hb, e', _⟩ := GINC.new_iff.1 hok
        obtain ⟨e1, e2⟩ := uri2_inj hd.no_dot q1.no_dot e'
        have hv := hb.2.1
        rw [← e2] at hv
        exact hlone ((verify_escape_iff hc hne).1 hv)
      | error er =>
        refine ⟨er, rfl, ?_⟩
        rcases GINC.new_error hok with rfl | ⟨C', S', _, e', hve⟩
        · exact .inl rfl
        · exact verify_error hve

example : ((GINC.fromGs1ElementString (py "(401)9521141xyz/.1") 7).toOption.isSome) = true := by decide +kernel

/-- CPI. -/
theorem C59_cpi (s : Str) (n : Nat) :
    (∀ C r t, s = py "(8010)" ++ (C ++ r ++ (py "(8011)" ++ t)) → UDigits C → C.length = n → 6 ≤ n → n ≤ 12 →
      (∀ a ∈ r, a ∈ gs39) → 1 ≤ r.length → n + (escape39 r).length ≤ 30 → UNumeral t → t.length ≤ 12 →
      ∃ x, CPI.fromGs1ElementString s n = .ok x ∧ CPI.new (py "urn:epc:id:cpi:" ++ joinWith '.' [C, escape39 r, t]) = .ok x) ∧
    ((¬ ∃ C r t, s = py "(8010)" ++ (C ++ r ++ (py "(8011)" ++ t)) ∧ UDigits C ∧ C.length = n ∧ 6 ≤ n ∧ n ≤ 12 ∧
        (∀ a ∈ r, a ∈ gs39) ∧ 1 ≤ r.length ∧ n + (escape39 r).length ≤ 30 ∧ UNumeral t ∧ t.length ≤ 12) →
      CPI.fromGs1ElementString s n = .error .convert) := by
  refine ⟨?_, ?_⟩
  · intro C r t e hd hn hlo hhi hr h1 hlim ht h2
    rw [uDigits_iff] at hd
    rw [uNumeral_iff] at ht
    have hne : r ≠ [] := by rintro rfl; simp at h1
    have hle := length_escape39_ge r
    have htd : Dec t ∧ 1 ≤ t.length := ⟨ht.dec, List.length_pos_iff.2 ht.ne_nil⟩
    have hnew := (CPI.new_iff (u := py "urn:epc:id:cpi" ++ ':' :: (C ++ '.' :: (escape39 r ++ '.' :: t)))).2
      ⟨C, escape39 r, t, ⟨⟨dec_ne_nil hn (by omega), hd⟩, (lang_cpref _).2 ⟨r, hne, hr, rfl⟩, ht⟩, ⟨by omega, h2, by omega, by omega⟩, rfl, rfl⟩
    have hm : Rx.cpiElem.fullmatch s = true := (CPI.elem_lang s).2
      ⟨C, r, t, ⟨hd, by omega, by omega⟩, ⟨hr, by omega⟩, ⟨htd.1, htd.2, h2⟩, by rw [e]; simp⟩
    refine ⟨_, (CPI.from_iff s n _).2 ⟨C, r, t, hm, ⟨?_, htd.1.no_paren⟩, ?_, e, hnew⟩, hnew⟩
    · intro hx
      rcases List.mem_append.1 hx with hx | hx
      · exact hd.no_paren hx
      · exact CPI.gs39_no_paren hr hx
    · rw [clamp_nat, List.length_append]; omega
  · intro hno
    refine Classical.byContradiction fun hr => ?_
    have hm : Rx.cpiElem.fullmatch s = true := by
      cases hm : Rx.cpiElem.fullmatch s with
      | true => rfl
      | false =>
        exfalso
        refine hr ?_
        unfold CPI.fromGs1ElementString
        rw [hm]
        rfl
    obtain ⟨d, q, t', ⟨hd, _⟩, ⟨hq, _⟩, ⟨ht', _⟩, es⟩ := (CPI.elem_lang _).1 hm
    have hp' : '(' ∉ d ++ q := by
      intro hx
      rcases List.mem_append.1 hx with hx | hx
      · exact hd.no_paren hx
      · exact CPI.gs39_no_paren hq hx
    cases hok : CPI.fromGs1ElementString s n with
    | ok x =>
      obtain ⟨C, r, t, _, ⟨hp, _⟩, hcl, e, hu⟩ := (CPI.from_iff _ _ _).1 hok
      rw [clamp_nat, List.length_append] at hcl
      obtain ⟨C', D', S', ⟨⟨_, h1⟩, h2, h3⟩, hb, e', rfl⟩ := CPI.new_iff.1 hu
      have e'' : (C ++ r) ++ '(' :: (py "8011)" ++ t) = (d ++ q) ++ '(' :: (py "8011)" ++ t') := by
        rw [es] at e
        have := List.append_cancel_left e
        simpa using this.symm
      have hre := (append_sep_inj hp hp' e'').1
      have hch : ∀ a ∈ C ++ r, a ≠ '.' ∧ a ≠ '%' := by
        intro a ha
        rw [hre] at ha
        rcases List.mem_append.1 ha with ha | ha
        · exact ⟨isDecimal_ne_dot (hd a ha), fun e => by rw [e] at ha; exact absurd (hd _ ha) (by decide)⟩
        · exact ⟨fun e => by rw [e] at ha; exact absurd (hq _ ha) (by decide), fun e => by rw [e] at ha; exact absurd (hq _ ha) (by decide)⟩
      obtain ⟨rfl, rfl, rfl⟩ := uri3_inj (fun hx => (hch _ (List.mem_append_left _ hx)).1 rfl)
        (escape39_no_dot' (fun hx => (hch _ (List.mem_append_right _ hx)).1 rfl)) h1.no_dot (cpref_no_dot h2) e'
      obtain ⟨raw, hne, hraw, hesc⟩ := (lang_cpref _).1 h2
      have hrr : r = raw := by
        rw [← replaceCpi_escape39' (fun a ha => (hch a (List.mem_append_right _ ha)).2), hesc, replaceCpi_escape39 hraw]
      subst hrr
      have hpos : 1 ≤ r.length := List.length_pos_iff.2 hne
      have hn : C.length = n := by omega
      exact hno ⟨C, r, t, e, (uDigits_iff _).2 h1, hn, by omega, by omega, hraw, hpos, by omega, (uNumeral_iff _).2 h3, hb.2.1⟩
    | error er =>
      refine hr ?_
      have hok' := hok
      rw [es, show py "(8010)" ++ (d ++ (q ++ (py "(8011)" ++ t'))) = py "(8010)" ++ ((d ++ q) ++ (py "(8011)" ++ t')) by simp,
        CPI.from_eq n (by rw [es] at hm; simpa using hm) hp' ht'.no_paren] at hok'
      rw [hok, CPI.new_error hok']

example : ((CPI.fromGs1ElementString (py "(8010)95211415PQ7/Z43(8011)12345") 7).toOption.isSome) = true := by decide +kernel

private theorem clamp_neg_eq (N k : Nat) (hk : 1 ≤ k) : clampIdx N (-(k : Int)) = clampIdx N ((N - k : Nat) : Int) := by
  unfold clampIdx
  split <;> split <;> omega

private theorem clamp_neg_key (N k : Nat) (hk : 2 ≤ k) (hN : k ≤ N) : clampIdx N (1 + -(k : Int)) = clampIdx N (1 + ((N - k : Nat) : Int)) := by
  unfold clampIdx
  split <;> split <;> omega

private theorem clamp_neg_body (N K k : Nat) (hk : K < k) (hN : k ≤ N) : clampIdx N (K + -(k : Int)) = clampIdx N (K + ((N - k : Nat) : Int)) := by
  unfold clampIdx
  split <;> split <;> omega

private theorem sliceI_clamp {s : Str} {i j i' j' : Int} (hi : clampIdx s.length i = clampIdx s.length i')
    (hj : clampIdx s.length j = clampIdx s.length j') : sliceI s i j = sliceI s i' j' := by
  unfold sliceI
  rw [hi, hj]

private theorem sliceToI_clamp {s : Str} {j j' : Int} (hj : clampIdx s.length j = clampIdx s.length j') : sliceToI s j = sliceToI s j' := by
  unfold sliceToI
  rw [hj]

private theorem sliceFromI_clamp {s : Str} {j j' : Int} (hj : clampIdx s.length j = clampIdx s.length j') : sliceFromI s j = sliceFromI s j' := by
  unfold sliceFromI
  rw [hj]

/-- SGTIN: negative company prefix lengths. -/
theorem C59_sgtin_negative (s : Str) (k : Nat) :
    (2 ≤ k → k ≤ 14 → SGTIN.fromGs1ElementString s (-(k : Int)) = SGTIN.fromGs1ElementString s ((14 - k : Nat) : Int)) ∧
    (k = 1 ∨ 14 < k → ∀ x, SGTIN.fromGs1ElementString s (-(k : Int)) ≠ .ok x) := by
  refine ⟨fun h1 h2 => ?_, fun h x hx => ?_⟩
  rotate_left
  · obtain ⟨i, C, I, q, c, _, _, _, hcl, _⟩ := (SGTIN.from_iff _ _ _).1 hx
    unfold clampIdx at hcl
    split at hcl <;> omega
  have hk := clamp_neg_key 14 k h1 h2
  cases hm : Rx.sgtinElem.fullmatch s with
  | false =>
    unfold SGTIN.fromGs1ElementString
    rw [hm]
    rfl
  | true =>
    obtain ⟨d, c, ⟨hd, hl⟩, hc, rfl⟩ := (SGTIN.elem_lang s).1 hm
    cases d with
    | nil => simp at hl
    | cons i d => ?_
    by_cases hg : HasGroup 2 c
    · rw [SGTIN.from_group _ hd hl hc hg, SGTIN.from_group _ hd hl hc hg]
    have e0 : sliceI (i :: d) 1 (1 + (-(k : Int))) = sliceI (i :: d) 1 (1 + ((14 - k : Nat) : Int)) := sliceI_clamp rfl (by rw [hl]; exact hk)
    have e1 : ∀ m, sliceI (i :: d) (1 + (-(k : Int))) m = sliceI (i :: d) (1 + ((14 - k : Nat) : Int)) m := fun m => sliceI_clamp (by rw [hl]; exact hk) rfl
    rw [SGTIN.from_eq _ hd hl hc hg, SGTIN.from_eq _ hd hl hc hg, e0, e1]

/-- LGTIN: negative company prefix lengths. -/
theorem C59_lgtin_negative (s : Str) (k : Nat) :
    (2 ≤ k → k ≤ 14 → LGTIN.fromGs1ElementString s (-(k : Int)) = LGTIN.fromGs1ElementString s ((14 - k : Nat) : Int)) ∧
    (k = 1 ∨ 14 < k → ∀ x, LGTIN.fromGs1ElementString s (-(k : Int)) ≠ .ok x) := by
  refine ⟨fun h1 h2 => ?_, fun h x hx => ?_⟩
  rotate_left
  · obtain ⟨i, C, I, q, c, _, _, _, hcl, _⟩ := (LGTIN.from_iff _ _ _).1 hx
    unfold clampIdx at hcl
    split at hcl <;> omega
  have hk := clamp_neg_key 14 k h1 h2
  cases hm : Rx.lgtinElem.fullmatch s with
  | false =>
    unfold LGTIN.fromGs1ElementString
    rw [hm]
    rfl
  | true =>
    obtain ⟨d, c, ⟨hd, hl⟩, hc, rfl⟩ := (LGTIN.elem_lang s).1 hm
    cases d with
    | nil => simp at hl
    | cons i d => ?_
    by_cases hg : HasGroup 2 c
    · rw [LGTIN.from_group _ hd hl hc hg, LGTIN.from_group _ hd hl hc hg]
    have e0 : sliceI (i :: d) 1 (1 + (-(k : Int))) = sliceI (i :: d) 1 (1 + ((14 - k : Nat) : Int)) := sliceI_clamp rfl (by rw [hl]; exact hk)
    have e1 : ∀ m, sliceI (i :: d) (1 + (-(k : Int))) m = sliceI (i :: d) (1 + ((14 - k : Nat) : Int)) m := fun m => sliceI_clamp (by rw [hl]; exact hk) rfl
    rw [LGTIN.from_eq _ hd hl hc hg, LGTIN.from_eq _ hd hl hc hg, e0, e1]

/-- UPUI: negative company prefix lengths. -/
theorem C59_upui_negative (s : Str) (k : Nat) :
    (2 ≤ k → k ≤ 14 → UPUI.fromGs1ElementString s (-(k : Int)) = UPUI.fromGs1ElementString s ((14 - k : Nat) : Int)) ∧
    (k = 1 ∨ 14 < k → ∀ x, UPUI.fromGs1ElementString s (-(k : Int)) ≠ .ok x) := by
  refine ⟨fun h1 h2 => ?_, fun h x hx => ?_⟩
  rotate_left
  · obtain ⟨i, C, I, q, c, _, _, hcl, _⟩ := (UPUI.from_iff _ _ _).1 hx
    unfold clampIdx at hcl
    split at hcl <;> omega
  have hk := clamp_neg_key 14 k h1 h2
  cases hm : Rx.upuiElem.fullmatch s with
  | false =>
    unfold UPUI.fromGs1ElementString
    rw [hm]
    rfl
  | true =>
    obtain ⟨d, c, ⟨hd, hl⟩, hc, rfl⟩ := (UPUI.elem_lang s).1 hm
    cases d with
    | nil => simp at hl
    | cons i d => ?_
    have e0 : sliceI (i :: d) 1 (1 + (-(k : Int))) = sliceI (i :: d) 1 (1 + ((14 - k : Nat) : Int)) := sliceI_clamp rfl (by rw [hl]; exact hk)
    have e1 : ∀ m, sliceI (i :: d) (1 + (-(k : Int))) m = sliceI (i :: d) (1 + ((14 - k : Nat) : Int)) m := fun m => sliceI_clamp (by rw [hl]; exact hk) rfl
    rw [UPUI.from_eq _ hd hl hc, UPUI.from_eq _ hd hl hc, e0, e1]

/-- SGLN: negative company prefix lengths. -/
theorem C59_sgln_negative (s : Str) (k : Nat) :
    1 ≤ k → SGLN.fromGs1ElementString s (-(k : Int)) = SGLN.fromGs1ElementString s ((13 - k : Nat) : Int) := by
  intro h1
  have hk := clamp_neg_eq 13 k h1
  cases hm : Rx.sglnElem.fullmatch s with
  | false =>
    unfold SGLN.fromGs1ElementString
    rw [hm]
    rfl
  | true =>
    obtain ⟨d, c, ⟨hd, hl⟩, hc, rfl⟩ := (SGLN.elem_lang s).1 hm
    by_cases hg : HasGroup 3 c
    · rw [SGLN.from_group _ hd hl hc hg, SGLN.from_group _ hd hl hc hg]
    have e0 : sliceToI d (-(k : Int)) = sliceToI d ((13 - k : Nat) : Int) := sliceToI_clamp (by rw [hl]; exact hk)
    have e1 : sliceI d (-(k : Int)) (-1) = sliceI d ((13 - k : Nat) : Int) (-1) := sliceI_clamp (by rw [hl]; exact hk) rfl
    rw [SGLN.from_eq _ hd hl hc hg, SGLN.from_eq _ hd hl hc hg, e0, e1]

/-- GRAI: negative company prefix lengths. -/
theorem C59_grai_negative (s : Str) (k : Nat) :
    1 ≤ k → GRAI.fromGs1ElementString s (-(k : Int)) = GRAI.fromGs1ElementString s ((13 - k : Nat) : Int) := by
  intro h1
  have hk := clamp_neg_eq 13 k h1
  cases hm : Rx.graiElem.fullmatch s with
  | false =>
    unfold GRAI.fromGs1ElementString
    rw [hm]
    rfl
  | true =>
    obtain ⟨d, c, ⟨hd, hl⟩, hc, rfl⟩ := (GRAI.elem_lang s).1 hm
    have e0 : sliceToI d (-(k : Int)) = sliceToI d ((13 - k : Nat) : Int) := sliceToI_clamp (by rw [hl]; exact hk)
    have e1 : sliceI d (-(k : Int)) (-1) = sliceI d ((13 - k : Nat) : Int) (-1) := sliceI_clamp (by rw [hl]; exact hk) rfl
    rw [GRAI.from_eq _ hd hl hc, GRAI.from_eq _ hd hl hc, e0, e1]

/-- GDTI: negative company prefix lengths. -/
theorem C59_gdti_negative (s : Str) (k : Nat) :
    1 ≤ k → GDTI.fromGs1ElementString s (-(k : Int)) = GDTI.fromGs1ElementString s ((13 - k : Nat) : Int) := by
  intro h1
  have hk := clamp_neg_eq 13 k h1
  cases hm : Rx.gdtiElem.fullmatch s with
  | false =>
    unfold GDTI.fromGs1ElementString
    rw [hm]
    rfl
  | true =>
    obtain ⟨d, c, ⟨hd, hl⟩, hc, rfl⟩ := (GDTI.elem_lang s).1 hm
    have e0 : sliceToI d (-(k : Int)) = sliceToI d ((13 - k : Nat) : Int) := sliceToI_clamp (by rw [hl]; exact hk)
    have e1 : sliceI d (-(k : Int)) (-1) = sliceI d ((13 - k : Nat) : Int) (-1) := sliceI_clamp (by rw [hl]; exact hk) rfl
    rw [GDTI.from_eq _ hd hl hc, GDTI.from_eq _ hd hl hc, e0, e1]

/-- ITIP: negative company prefix lengths. -/
theorem C59_itip_negative (s : Str) (k : Nat) :
    (2 ≤ k → k ≤ 18 → ITIP.fromGs1ElementString s (-(k : Int)) = ITIP.fromGs1ElementString s ((18 - k : Nat) : Int)) ∧
    (k = 1 ∨ 18 < k → ∀ x, ITIP.fromGs1ElementString s (-(k : Int)) ≠ .ok x) := by
  refine ⟨fun h1 h2 => ?_, fun h x hx => ?_⟩
  rotate_left
  · obtain ⟨i, C, I, q, A, B, c, _, _, hcl, _⟩ := (ITIP.from_iff _ _ _).1 hx
    unfold clampIdx at hcl
    split at hcl <;> omega
  have hk := clamp_neg_key 18 k h1 h2
  cases hm : Rx.itipElem.fullmatch s with
  | false =>
    unfold ITIP.fromGs1ElementString
    rw [hm]
    rfl
  | true =>
    obtain ⟨d, c, ⟨hd, hl⟩, hc, rfl⟩ := (ITIP.elem_lang s).1 hm
    cases d with
    | nil => simp at hl
    | cons i d => ?_
    have e0 : sliceI (i :: d) 1 (1 + (-(k : Int))) = sliceI (i :: d) 1 (1 + ((18 - k : Nat) : Int)) := sliceI_clamp rfl (by rw [hl]; exact hk)
    have e1 : ∀ m, sliceI (i :: d) (1 + (-(k : Int))) m = sliceI (i :: d) (1 + ((18 - k : Nat) : Int)) m := fun m => sliceI_clamp (by rw [hl]; exact hk) rfl
    rw [ITIP.from_eq _ hd hl hc, ITIP.from_eq _ hd hl hc, e0, e1]

/-- SGCN: negative company prefix lengths. -/
theorem C59_sgcn_negative (s : Str) (k : Nat) :
    1 ≤ k → SGCN.fromGs1ElementString s (-(k : Int)) = SGCN.fromGs1ElementString s ((13 - k : Nat) : Int) := by
  intro h1
  have hk := clamp_neg_eq 13 k h1
  cases hm : Rx.sgcnElem.fullmatch s with
  | false =>
    unfold SGCN.fromGs1ElementString
    rw [hm]
    rfl
  | true =>
    obtain ⟨d, c, ⟨hd, hl⟩, hc, rfl⟩ := (SGCN.elem_lang s).1 hm
    have e0 : sliceToI d (-(k : Int)) = sliceToI d ((13 - k : Nat) : Int) := sliceToI_clamp (by rw [hl]; exact hk)
    have e1 : sliceI d (-(k : Int)) (-1) = sliceI d ((13 - k : Nat) : Int) (-1) := sliceI_clamp (by rw [hl]; exact hk) rfl
    rw [SGCN.from_eq _ hd hl hc, SGCN.from_eq _ hd hl hc, e0, e1]

/-- SSCC: negative company prefix lengths. -/
theorem C59_sscc_negative (s : Str) (k : Nat) :
    (2 ≤ k → k ≤ 18 → SSCC.fromGs1ElementString s (-(k : Int)) = SSCC.fromGs1ElementString s ((18 - k : Nat) : Int)) ∧
    (k = 1 ∨ 18 < k → ∀ x, SSCC.fromGs1ElementString s (-(k : Int)) ≠ .ok x) := by
  refine ⟨fun h1 h2 => ?_, fun h x hx => ?_⟩
  rotate_left
  · obtain ⟨i, C, I, q, _, hcl, _⟩ := (SSCC.from_iff _ _ _).1 hx
    unfold clampIdx at hcl
    split at hcl <;> omega
  have hk := clamp_neg_key 18 k h1 h2
  cases hm : Rx.ssccElem.fullmatch s with
  | false =>
    unfold SSCC.fromGs1ElementString
    rw [hm]
    rfl
  | true =>
    obtain ⟨d, ⟨hd, hl⟩, rfl⟩ := (SSCC.elem_lang s).1 hm
    cases d with
    | nil => simp at hl
    | cons i d => ?_
    have e0 : sliceI (i :: d) 1 (1 + (-(k : Int))) = sliceI (i :: d) 1 (1 + ((18 - k : Nat) : Int)) := sliceI_clamp rfl (by rw [hl]; exact hk)
    have e1 : ∀ m, sliceI (i :: d) (1 + (-(k : Int))) m = sliceI (i :: d) (1 + ((18 - k : Nat) : Int)) m := fun m => sliceI_clamp (by rw [hl]; exact hk) rfl
    rw [SSCC.from_eq _ hd hl, SSCC.from_eq _ hd hl, e0, e1]

/-- GSRN: negative company prefix lengths. -/
theorem C59_gsrn_negative (s : Str) (k : Nat) :
    1 ≤ k → GSRN.fromGs1ElementString s (-(k : Int)) = GSRN.fromGs1ElementString s ((18 - k : Nat) : Int) := by
  intro h1
  have hk := clamp_neg_eq 18 k h1
  cases hm : Rx.gsrnElem.fullmatch s with
  | false =>
    unfold GSRN.fromGs1ElementString
    rw [hm]
    rfl
  | true =>
    obtain ⟨d, ⟨hd, hl⟩, rfl⟩ := (GSRN.elem_lang s).1 hm
    have e0 : sliceToI d (-(k : Int)) = sliceToI d ((18 - k : Nat) : Int) := sliceToI_clamp (by rw [hl]; exact hk)
    have e1 : sliceI d (-(k : Int)) (-1) = sliceI d ((18 - k : Nat) : Int) (-1) := sliceI_clamp (by rw [hl]; exact hk) rfl
    rw [GSRN.from_eq _ hd hl, GSRN.from_eq _ hd hl, e0, e1]

/-- GSRNP: negative company prefix lengths. -/
theorem C59_gsrnp_negative (s : Str) (k : Nat) :
    1 ≤ k → GSRNP.fromGs1ElementString s (-(k : Int)) = GSRNP.fromGs1ElementString s ((18 - k : Nat) : Int) := by
  intro h1
  have hk := clamp_neg_eq 18 k h1
  cases hm : Rx.gsrnpElem.fullmatch s with
  | false =>
    unfold GSRNP.fromGs1ElementString
    rw [hm]
    rfl
  | true =>
    obtain ⟨d, ⟨hd, hl⟩, rfl⟩ := (GSRNP.elem_lang s).1 hm
    have e0 : sliceToI d (-(k : Int)) = sliceToI d ((18 - k : Nat) : Int) := sliceToI_clamp (by rw [hl]; exact hk)
    have e1 : sliceI d (-(k : Int)) (-1) = sliceI d ((18 - k : Nat) : Int) (-1) := sliceI_clamp (by rw [hl]; exact hk) rfl
    rw [GSRNP.from_eq _ hd hl, GSRNP.from_eq _ hd hl, e0, e1]

/-- PGLN: negative company prefix lengths. -/
theorem C59_pgln_negative (s : Str) (k : Nat) :
    1 ≤ k → PGLN.fromGs1ElementString s (-(k : Int)) = PGLN.fromGs1ElementString s ((13 - k : Nat) : Int) := by
  intro h1
  have hk := clamp_neg_eq 13 k h1
  cases hm : Rx.pglnElem.fullmatch s with
  | false =>
    unfold PGLN.fromGs1ElementString
    rw [hm]
    rfl
  | true =>
    obtain ⟨d, ⟨hd, hl⟩, rfl⟩ := (PGLN.elem_lang s).1 hm
    have e0 : sliceToI d (-(k : Int)) = sliceToI d ((13 - k : Nat) : Int) := sliceToI_clamp (by rw [hl]; exact hk)
    have e1 : sliceI d (-(k : Int)) (-1) = sliceI d ((13 - k : Nat) : Int) (-1) := sliceI_clamp (by rw [hl]; exact hk) rfl
    rw [PGLN.from_eq _ hd hl, PGLN.from_eq _ hd hl, e0, e1]

/-- GSIN: negative company prefix lengths. -/
theorem C59_gsin_negative (s : Str) (k : Nat) :
    1 ≤ k → GSIN.fromGs1ElementString s (-(k : Int)) = GSIN.fromGs1ElementString s ((16 - k : Nat) : Int) := by
  intro h1
  have hk := clamp_neg_eq 16 k h1
  cases hm : Rx.gsinElem.fullmatch s with
  | false =>
    unfold GSIN.fromGs1ElementString
    rw [hm]
    rfl
  | true =>
    obtain ⟨d, ⟨hd, hl⟩, rfl⟩ := (GSIN.elem_lang s).1 hm
    have e0 : sliceToI (d.take 16) (-(k : Int)) = sliceToI (d.take 16) ((16 - k : Nat) : Int) := sliceToI_clamp (by rw [show (d.take 16).length = 16 by rw [List.length_take]; omega]; exact hk)
    have e1 : sliceFromI (d.take 16) (-(k : Int)) = sliceFromI (d.take 16) ((16 - k : Nat) : Int) := sliceFromI_clamp (by rw [show (d.take 16).length = 16 by rw [List.length_take]; omega]; exact hk)
    rw [GSIN.from_eq _ hd hl, GSIN.from_eq _ hd hl, e0, e1]

/-- GIAI: negative company prefix lengths. -/
theorem C59_giai_negative (s : Str) (k : Nat) :
    (6 < k → k ≤ s.length → GIAI.fromGs1ElementString s (-(k : Int)) = GIAI.fromGs1ElementString s ((s.length - k : Nat) : Int)) ∧
    (1 ≤ k → k ≤ 6 ∨ s.length < k → ∀ x, GIAI.fromGs1ElementString s (-(k : Int)) ≠ .ok x) := by
  refine ⟨fun h1 h2 => ?_, fun h0 h x hx => ?_⟩
  rotate_left
  · obtain ⟨C, c, hm, hcl, e, hnew⟩ := (GIAI.from_iff _ _ _).1 hx
    obtain ⟨C', S', ⟨⟨hne, q1⟩, _⟩, _, e', _⟩ := GIAI.new_iff.1 hnew
    obtain ⟨d, q, ⟨_, hd, _⟩, _, es⟩ := (GIAI.elem_lang s).1 hm
    have hlen : s.length = 6 + d.length + q.length := by
      rw [es, List.length_append, List.length_append, show (py "(8004)").length = 6 from rfl]
      omega
    have hC : C = [] := by
      refine List.length_eq_zero_iff.1 ?_
      unfold clampIdx at hcl
      split at hcl <;> omega
    subst hC
    have e2 := List.append_cancel_left e'
    injection e2 with _ e2
    cases C' with
    | nil => exact hne rfl
    | cons a C' =>
      injection e2 with e3 _
      have := q1 a (List.mem_cons_self ..)
      rw [← e3] at this
      exact absurd this (by decide)
  have hk := clamp_neg_body s.length 6 k h1 h2
  cases hm : Rx.giaiElem.fullmatch s with
  | false =>
    unfold GIAI.fromGs1ElementString
    rw [hm]
    rfl
  | true =>
    have e0 : sliceI s (6 : Nat) (6 + (-(k : Int))) = sliceI s (6 : Nat) (6 + ((s.length - k : Nat) : Int)) := sliceI_clamp rfl hk
    have e1 : sliceFromI s (6 + (-(k : Int))) = sliceFromI s (6 + ((s.length - k : Nat) : Int)) := sliceFromI_clamp hk
    rw [GIAI.from_eq _ hm, GIAI.from_eq _ hm, e0, e1]

/-- GINC: negative company prefix lengths. -/
theorem C59_ginc_negative (s : Str) (k : Nat) :
    (5 < k → k ≤ s.length → GINC.fromGs1ElementString s (-(k : Int)) = GINC.fromGs1ElementString s ((s.length - k : Nat) : Int)) ∧
    (1 ≤ k → k ≤ 5 ∨ s.length < k → ∀ x, GINC.fromGs1ElementString s (-(k : Int)) ≠ .ok x) := by
  refine ⟨fun h1 h2 => ?_, fun h0 h x hx => ?_⟩
  rotate_left
  · obtain ⟨C, c, hm, hcl, e, hnew⟩ := (GINC.from_iff _ _ _).1 hx
    obtain ⟨C', S', ⟨⟨hne, q1⟩, _⟩, _, e', _⟩ := GINC.new_iff.1 hnew
    obtain ⟨d, q, ⟨_, hd, _⟩, _, es⟩ := (GINC.elem_lang s).1 hm
    have hlen : s.length = 5 + d.length + q.length := by
      rw [es, List.length_append, List.length_append, show (py "(401)").length = 5 from rfl]
      omega
    have hC : C = [] := by
      refine List.length_eq_zero_iff.1 ?_
      unfold clampIdx at hcl
      split at hcl <;> omega
    subst hC
    have e2 := List.append_cancel_left e'
    injection e2 with _ e2
    cases C' with
    | nil => exact hne rfl
    | cons a C' =>
      injection e2 with e3 _
      have := q1 a (List.mem_cons_self ..)
      rw [← e3] at this
      exact absurd this (by decide)
  have hk := clamp_neg_body s.length 5 k h1 h2
  cases hm : Rx.gincElem.fullmatch s with
  | false =>
    unfold GINC.fromGs1ElementString
    rw [hm]
    rfl
  | true =>
    have e0 : sliceI s (5 : Nat) (5 + (-(k : Int))) = sliceI s (5 : Nat) (5 + ((s.length - k : Nat) : Int)) := sliceI_clamp rfl hk
    have e1 : sliceFromI s (5 + (-(k : Int))) = sliceFromI s (5 + ((s.length - k : Nat) : Int)) := sliceFromI_clamp hk
    rw [GINC.from_eq _ hm, GINC.from_eq _ hm, e0, e1]

/-- CPI: negative company prefix lengths. -/
theorem C59_cpi_negative (s b t : Str) (k : Nat) (hs : s = py "(8010)" ++ (b ++ (py "(8011)" ++ t))) (hb : '(' ∉ b) (ht : '(' ∉ t) (h1 : 1 ≤ k) :
    CPI.fromGs1ElementString s (-(k : Int)) = CPI.fromGs1ElementString s ((b.length - k : Nat) : Int) := by
  have hk := clamp_neg_eq b.length k h1
  cases hm : Rx.cpiElem.fullmatch s with
  | false =>
    unfold CPI.fromGs1ElementString
    rw [hm]
    rfl
  | true =>
    subst hs
    have e0 : sliceToI b (-(k : Int)) = sliceToI b ((b.length - k : Nat) : Int) := sliceToI_clamp hk
    have e1 : sliceFromI b (-(k : Int)) = sliceFromI b ((b.length - k : Nat) : Int) := sliceFromI_clamp hk
    rw [CPI.from_eq _ hm hb ht, CPI.from_eq _ hm hb ht, e0, e1]

/-- A negative length is accepted. -/
example : (SGTIN.fromGs1ElementString (py "(01)09521141123454(21)32a/b") (-7)).toOption.isSome = true ∧
    (GIAI.fromGs1ElementString (py "(8004)9521141xyz") (-9)).toOption.isSome = true := by decide +kernel

end Epc
