/-
The tests of `tag_uri`: numeric serials that fit, lengths of unescaped texts.
-/
import Verif.Lemmas.TagUri
import Verif.Spec.Tables

namespace Epc
open Spec Re

/-- Decimal digits are numeric. -/
theorem isNumeric_of_decimal {s : Str} (hne : s ≠ []) (h : ∀ c ∈ s, isDecimal c = true) : isNumeric s = true := by
  simp only [isNumeric, isNumericChar, Bool.and_eq_true, Bool.not_eq_true', List.isEmpty_eq_false_iff, List.all_eq_true]
  exact ⟨hne, fun c hc => by rw [h c hc]; rfl⟩

theorem numericRanges_high : ∀ r ∈ numericRanges, 128 ≤ r.1 := by decide +kernel

/-- Within ASCII, only the decimal digits are numeric. -/
theorem isNumericChar_ascii {c : Char} (h : c.toNat < 128) : isNumericChar c = isDecimal c := by
  unfold isNumericChar
  rw [show numericRanges.any (fun r => decide (r.1 ≤ c.toNat) && decide (c.toNat ≤ r.2)) = false by
    rw [List.any_eq_false]
    intro r hr
    have := numericRanges_high r hr
    simp only [Bool.and_eq_true, decide_eq_true_eq]
    omega, Bool.or_false]

theorem isNumeric_ascii {s : Str} (ha : Ascii s) (h : isNumeric s = true) : s ≠ [] ∧ ∀ c ∈ s, isDecimal c = true := by
  simp only [isNumeric, Bool.and_eq_true, Bool.not_eq_true', List.isEmpty_eq_false_iff, List.all_eq_true] at h
  exact ⟨h.1, fun c hc => by rw [← isNumericChar_ascii (ha c hc)]; exact h.2 c hc⟩

theorem badNumeric_good {s : Str} {bits : Nat} (h : Numeral s) (hlt : number s < 2 ^ bits) : badNumericSerial s bits = .ok false := by
  unfold badNumericSerial
  have h1 : isNumeric s = true := isNumeric_of_decimal h.2.1 (fun c hc => isDecimal_of_Digits h.1 c hc)
  rw [h1, Bool.not_true, if_neg (by simp), pyInt_Digits h.1 h.2.1, ok_bind, pure_ok]
  congr 1
  have h3 := h.2.2
  rw [show decide (((number s : Nat) : Int) ≥ ((2 ^ bits : Nat) : Int)) = false by
    rw [decide_eq_false_iff_not]; omega, Bool.false_or]
  by_cases hl : 1 < s.length
  · have : s.head? ≠ some '0' := fun e => h3 ⟨hl, e⟩
    simp [this]
  · simp [hl]

theorem badNumeric_bad {s : Str} {bits : Nat} (ha : Ascii s) (h : ¬ (Numeral s ∧ number s < 2 ^ bits)) : badNumericSerial s bits = .ok true := by
  unfold badNumericSerial
  cases hn : isNumeric s with
  | false => simp
  | true =>
    replace hn := isNumeric_ascii ha hn
    have hd : Digits s := isDigitA_of_decimal_ascii ha hn.2
    rw [Bool.not_true, if_neg (by simp), pyInt_Digits hd hn.1, ok_bind, pure_ok]
    congr 1
    by_cases hlt : number s < 2 ^ bits
    · have hz : 1 < s.length ∧ s.head? = some '0' := Classical.byContradiction fun hz => h ⟨⟨hd, hn.1, hz⟩, hlt⟩
      simp [hz.1, hz.2]
    · rw [show decide (((number s : Nat) : Int) ≥ ((2 ^ bits : Nat) : Int)) = true by rw [decide_eq_true_eq]; omega, Bool.true_or]

/-- The test of `tag_uri` on an ASCII serial: exactly the numerals below the bound pass. -/
theorem badNumeric_ok_iff {s : Str} {bits : Nat} (ha : Ascii s) :
    badNumericSerial s bits = .ok false ↔ Numeral s ∧ number s < 2 ^ bits := by
  constructor
  · intro h
    refine Classical.byContradiction fun hn => ?_
    rw [badNumeric_bad ha hn] at h
    cases h
  · rintro ⟨h1, h2⟩
    exact badNumeric_good h1 h2

theorem length_replaceGo {pat rep : Str} (h : rep.length ≤ pat.length) (hp : pat ≠ []) (s : Str) (k : Nat) :
    (replaceGo pat rep k s).length ≤ s.length - k := by
  have hp1 : 1 ≤ pat.length := List.length_pos_iff.2 hp
  induction s generalizing k with
  | nil => cases k <;> simp [replaceGo]
  | cons x xs ih =>
    cases k with
    | succ k =>
      rw [replaceGo]
      have := ih k
      simp only [List.length_cons]; omega
    | zero =>
      rw [replaceGo]
      split
      · rename_i hpre
        have h2 := (List.isPrefixOf_iff_prefix.1 hpre).length_le
        have := ih (pat.length - 1)
        simp only [List.length_append, List.length_cons] at *
        omega
      · have := ih 0
        simp only [List.length_cons] at *; omega

theorem length_replaceAll {pat rep : Str} (h : rep.length ≤ pat.length) (hp : pat ≠ []) (s : Str) :
    (replaceAll pat rep s).length ≤ s.length := by
  have := length_replaceGo h hp s 0
  simpa [replaceAll] using this

theorem length_replaceUriEscapes (s : Str) : (replaceUriEscapes s).length ≤ s.length := by
  unfold replaceUriEscapes
  refine Nat.le_trans (length_replaceAll (by decide) (by decide) _) ?_
  refine Nat.le_trans (length_replaceAll (by decide) (by decide) _) ?_
  refine Nat.le_trans (length_replaceAll (by decide) (by decide) _) ?_
  refine Nat.le_trans (length_replaceAll (by decide) (by decide) _) ?_
  refine Nat.le_trans (length_replaceAll (by decide) (by decide) _) ?_
  refine Nat.le_trans (length_replaceAll (by decide) (by decide) _) ?_
  exact length_replaceAll (by decide) (by decide) _

theorem gs3a3_star_prefix {s : Str} (h : Star (Lang Rx.gs3a3Char) s) : ∀ a r, s = a ++ ':' :: r → Star (Lang Rx.gs3a3Char) a := by
  induction h with
  | nil => intro a r h; simp at h
  | @cons x y hx _ ih =>
    intro a r h
    rcases (lang_gs3a3Char _).1 hx with ⟨c, hc, rfl⟩ | ⟨c, hc, rfl⟩
    · match a, h with
      | [], h => simp at h
      | [_], h =>
        simp at h
        rw [h.2.1] at hc; exact absurd hc (by decide)
      | p :: q :: a', h =>
        simp only [List.cons_append, List.nil_append, List.cons.injEq] at h
        obtain ⟨rfl, rfl, h⟩ := h
        exact Star.cons (a := ['%', c]) hx (ih a' r h)
    · match a, h with
      | [], h => exact Star.nil
      | p :: a', h =>
        simp only [List.cons_append, List.nil_append, List.cons.injEq] at h
        obtain ⟨rfl, h⟩ := h
        exact Star.cons (a := [c]) hx (ih a' r h)

/-- The part of a GS3A3 text before its first colon is again one, unless empty. -/
theorem gs3a3_head {s : Str} (h : Lang Rx.gs3a3 s) (hne : (split ':' s).headD [] ≠ []) : Lang Rx.gs3a3 ((split ':' s).headD []) := by
  obtain ⟨t, ht, h2⟩ := headD_split_append ':' s
  refine gs3a3_of_star ?_ hne
  rcases h2 with rfl | ⟨t', rfl⟩
  · rw [List.append_nil] at ht; rw [← ht]; exact gs3a3_star h
  · exact gs3a3_star_prefix (gs3a3_star h) _ _ ht

/-- The row of a table for each admissible company prefix length. -/
theorem rowByL_ok {t : List Row} {n : Nat} (h1 : 6 ≤ n) (h2 : n ≤ 12) (ht : t.map (fun r => (r.M, r.L)) = (mkTable (List.replicate 7 (0, 0))).map (fun r => (r.M, r.L))) :
    ∃ r ∈ t, rowByL t n = .ok r ∧ r.L = n ∧ r.M = prefixBits n := by
  have hm : ∀ n, 6 ≤ n → n ≤ 12 → (prefixBits n, n) ∈ (mkTable (List.replicate 7 (0, 0))).map (fun r => (r.M, r.L)) := by
    intro n h1 h2
    have : ∀ n : Fin 13, 6 ≤ n.val → (prefixBits n.val, n.val) ∈ (mkTable (List.replicate 7 (0, 0))).map (fun r => (r.M, r.L)) := by decide
    exact this ⟨n, by omega⟩ h1
  have hu : ∀ p ∈ (mkTable (List.replicate 7 (0, 0))).map (fun r => (r.M, r.L)), p.1 = prefixBits p.2 := by decide
  have h3 := hm n h1 h2
  rw [← ht] at h3 hu
  obtain ⟨r, hr, he⟩ := List.mem_map.1 h3
  have hL : r.L = n := by injection he
  unfold rowByL
  cases hf : t.find? (fun r => r.L == n) with
  | none =>
    have := List.find?_eq_none.1 hf r hr
    simp [hL] at this
  | some r' =>
    have h4 := List.find?_some hf
    have h5 := List.mem_of_find?_eq_some hf
    have hL' : r'.L = n := by simpa using h4
    refine ⟨r', h5, rfl, hL', ?_⟩
    have := hu (r'.M, r'.L) (List.mem_map.2 ⟨r', h5, rfl⟩)
    rw [hL'] at this; exact this

/-- The bit width that GIAI-96 has for the asset reference. -/
theorem GIAI.row96 {n : Nat} (h1 : 6 ≤ n) (h2 : n ≤ 12) : ∃ r ∈ GIAI.table96, rowByL GIAI.table96 n = .ok r ∧ r.K = 25 - n ∧ r.N = 82 - prefixBits n := by
  obtain ⟨r, hr, hrow, hL, hM⟩ := rowByL_ok (t := GIAI.table96) h1 h2 (by decide)
  have hall : ∀ r ∈ GIAI.table96, r.K = 25 - r.L ∧ r.N = 82 - prefixBits r.L := by decide
  have := hall r hr
  rw [hL] at this
  exact ⟨r, hr, hrow, this⟩

end Epc
