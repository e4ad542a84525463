/-
C17: the 96-bit (ITIP: 110-bit) coding schemes are offered exactly for the serials that fit.

`Numeral s`: a non-empty string of ASCII digits without superfluous leading zero.  The tag URI returned is the body of the object's
pure identity URI behind the coding scheme and the filter value.
Generated by tools/gen_c17.py.
-/
import Verif.Lemmas.TagForm

namespace Epc
open Spec Re

/-- SGTIN: sgtin-96 is offered for numeric serials below 2^38, and `tag_uri` raises `ConvertException` for all others. -/
theorem C17_sgtin (body : Str) (x : SGTIN) (f : Fin 8) (hu : SGTIN.new (py "urn:epc:id:sgtin:" ++ body) = .ok x) :
    (Numeral x.serial ∧ number x.serial < 2 ^ 38 →
      x.tagUri .sgtin96 f = .ok (py "urn:epc:tag:sgtin-96:" ++ natStr f ++ '.' :: body)) ∧
    (¬ (Numeral x.serial ∧ number x.serial < 2 ^ 38) → x.tagUri .sgtin96 f = .error .convert) := by
  have ha : Ascii x.serial := by
    obtain ⟨_, _, S, ⟨_, _, hS⟩, _, e, rfl⟩ := SGTIN.new_iff.1 hu
    exact gs3a3_ascii hS
  constructor
  · rintro ⟨h1, h2⟩
    have : ∃ t, x.tagUri .sgtin96 f = .ok t := by
      unfold SGTIN.tagUri SGTIN.badSerial
      dsimp only
      rw [badNumeric_good h1 h2, ok_bind, if_neg (by simp)]
      exact ⟨_, rfl⟩
    obtain ⟨t, ht⟩ := this
    obtain ⟨b, eb, rfl⟩ := SGTIN.tagUri_form hu ht
    rw [ht, List.append_cancel_left eb]
    simp [tagUriPrefix, SGTIN.Coding.value]
  · intro h
    unfold SGTIN.tagUri SGTIN.badSerial
    dsimp only
    rw [badNumeric_bad ha h, ok_bind, if_pos rfl]

example : ((do let x ← SGTIN.new (py "urn:epc:id:sgtin:9521141.012345.274877906943"); x.tagUri .sgtin96 3) : Except Err Str) =
    .ok (py "urn:epc:tag:sgtin-96:3.9521141.012345.274877906943") := by decide +kernel

example : ((do let x ← SGTIN.new (py "urn:epc:id:sgtin:9521141.012345.274877906944"); x.tagUri .sgtin96 3) : Except Err Str) = .error .convert ∧
    ((do let x ← SGTIN.new (py "urn:epc:id:sgtin:9521141.012345.0274877906943"); x.tagUri .sgtin96 3) : Except Err Str) = .error .convert ∧
    ((do let x ← SGTIN.new (py "urn:epc:id:sgtin:9521141.012345.1A"); x.tagUri .sgtin96 3) : Except Err Str) = .error .convert := by decide +kernel

/-- SGLN: sgln-96 is offered for numeric serials below 2^41, and `tag_uri` raises `ConvertException` for all others. -/
theorem C17_sgln (body : Str) (x : SGLN) (f : Fin 8) (hu : SGLN.new (py "urn:epc:id:sgln:" ++ body) = .ok x) :
    (Numeral x.serial ∧ number x.serial < 2 ^ 41 →
      x.tagUri .sgln96 f = .ok (py "urn:epc:tag:sgln-96:" ++ natStr f ++ '.' :: body)) ∧
    (¬ (Numeral x.serial ∧ number x.serial < 2 ^ 41) → x.tagUri .sgln96 f = .error .convert) := by
  have ha : Ascii x.serial := by
    obtain ⟨_, _, S, ⟨_, _, hS⟩, _, e, rfl⟩ := SGLN.new_iff.1 hu
    exact gs3a3_ascii hS
  constructor
  · rintro ⟨h1, h2⟩
    have : ∃ t, x.tagUri .sgln96 f = .ok t := by
      unfold SGLN.tagUri SGLN.badSerial
      dsimp only
      rw [badNumeric_good h1 h2, ok_bind, if_neg (by simp)]
      exact ⟨_, rfl⟩
    obtain ⟨t, ht⟩ := this
    obtain ⟨b, eb, rfl⟩ := SGLN.tagUri_form hu ht
    rw [ht, List.append_cancel_left eb]
    simp [tagUriPrefix, SGLN.Coding.value]
  · intro h
    unfold SGLN.tagUri SGLN.badSerial
    dsimp only
    rw [badNumeric_bad ha h, ok_bind, if_pos rfl]

example : ((do let x ← SGLN.new (py "urn:epc:id:sgln:9521141.12345.2199023255551"); x.tagUri .sgln96 3) : Except Err Str) =
    .ok (py "urn:epc:tag:sgln-96:3.9521141.12345.2199023255551") := by decide +kernel

example : ((do let x ← SGLN.new (py "urn:epc:id:sgln:9521141.12345.2199023255552"); x.tagUri .sgln96 3) : Except Err Str) = .error .convert ∧
    ((do let x ← SGLN.new (py "urn:epc:id:sgln:9521141.12345.02199023255551"); x.tagUri .sgln96 3) : Except Err Str) = .error .convert ∧
    ((do let x ← SGLN.new (py "urn:epc:id:sgln:9521141.12345.1A"); x.tagUri .sgln96 3) : Except Err Str) = .error .convert := by decide +kernel

/-- GRAI: grai-96 is offered for numeric serials below 2^38, and `tag_uri` raises `ConvertException` for all others. -/
theorem C17_grai (body : Str) (x : GRAI) (f : Fin 8) (hu : GRAI.new (py "urn:epc:id:grai:" ++ body) = .ok x) :
    (Numeral x.serial ∧ number x.serial < 2 ^ 38 →
      x.tagUri .grai96 f = .ok (py "urn:epc:tag:grai-96:" ++ natStr f ++ '.' :: body)) ∧
    (¬ (Numeral x.serial ∧ number x.serial < 2 ^ 38) → x.tagUri .grai96 f = .error .convert) := by
  have ha : Ascii x.serial := by
    obtain ⟨_, _, S, ⟨_, _, hS⟩, _, e, rfl⟩ := GRAI.new_iff.1 hu
    exact gs3a3_ascii hS
  constructor
  · rintro ⟨h1, h2⟩
    have : ∃ t, x.tagUri .grai96 f = .ok t := by
      unfold GRAI.tagUri GRAI.badSerial
      dsimp only
      rw [badNumeric_good h1 h2, ok_bind, if_neg (by simp)]
      exact ⟨_, rfl⟩
    obtain ⟨t, ht⟩ := this
    obtain ⟨b, eb, rfl⟩ := GRAI.tagUri_form hu ht
    rw [ht, List.append_cancel_left eb]
    simp [tagUriPrefix, GRAI.Coding.value]
  · intro h
    unfold GRAI.tagUri GRAI.badSerial
    dsimp only
    rw [badNumeric_bad ha h, ok_bind, if_pos rfl]

example : ((do let x ← GRAI.new (py "urn:epc:id:grai:9521141.12345.274877906943"); x.tagUri .grai96 3) : Except Err Str) =
    .ok (py "urn:epc:tag:grai-96:3.9521141.12345.274877906943") := by decide +kernel

example : ((do let x ← GRAI.new (py "urn:epc:id:grai:9521141.12345.274877906944"); x.tagUri .grai96 3) : Except Err Str) = .error .convert ∧
    ((do let x ← GRAI.new (py "urn:epc:id:grai:9521141.12345.0274877906943"); x.tagUri .grai96 3) : Except Err Str) = .error .convert ∧
    ((do let x ← GRAI.new (py "urn:epc:id:grai:9521141.12345.1A"); x.tagUri .grai96 3) : Except Err Str) = .error .convert := by decide +kernel

/-- GDTI: gdti-96 is offered for numeric serials below 2^41, and `tag_uri` raises `ConvertException` for all others. -/
theorem C17_gdti (body : Str) (x : GDTI) (f : Fin 8) (hu : GDTI.new (py "urn:epc:id:gdti:" ++ body) = .ok x) :
    (Numeral x.serial ∧ number x.serial < 2 ^ 41 →
      x.tagUri .gdti96 f = .ok (py "urn:epc:tag:gdti-96:" ++ natStr f ++ '.' :: body)) ∧
    (¬ (Numeral x.serial ∧ number x.serial < 2 ^ 41) → x.tagUri .gdti96 f = .error .convert) := by
  have ha : Ascii x.serial := by
    obtain ⟨_, _, S, ⟨_, _, hS⟩, _, e, rfl⟩ := GDTI.new_iff.1 hu
    exact gs3a3_ascii hS
  constructor
  · rintro ⟨h1, h2⟩
    have : ∃ t, x.tagUri .gdti96 f = .ok t := by
      unfold GDTI.tagUri GDTI.badSerial
      dsimp only
      rw [badNumeric_good h1 h2, ok_bind, if_neg (by simp)]
      exact ⟨_, rfl⟩
    obtain ⟨t, ht⟩ := this
    obtain ⟨b, eb, rfl⟩ := GDTI.tagUri_form hu ht
    rw [ht, List.append_cancel_left eb]
    simp [tagUriPrefix, GDTI.Coding.value]
  · intro h
    unfold GDTI.tagUri GDTI.badSerial
    dsimp only
    rw [badNumeric_bad ha h, ok_bind, if_pos rfl]

example : ((do let x ← GDTI.new (py "urn:epc:id:gdti:9521141.12345.2199023255551"); x.tagUri .gdti96 3) : Except Err Str) =
    .ok (py "urn:epc:tag:gdti-96:3.9521141.12345.2199023255551") := by decide +kernel

example : ((do let x ← GDTI.new (py "urn:epc:id:gdti:9521141.12345.2199023255552"); x.tagUri .gdti96 3) : Except Err Str) = .error .convert ∧
    ((do let x ← GDTI.new (py "urn:epc:id:gdti:9521141.12345.02199023255551"); x.tagUri .gdti96 3) : Except Err Str) = .error .convert ∧
    ((do let x ← GDTI.new (py "urn:epc:id:gdti:9521141.12345.1A"); x.tagUri .gdti96 3) : Except Err Str) = .error .convert := by decide +kernel

/-- ITIP: itip-110 is offered for numeric serials below 2^38, and `tag_uri` raises `ConvertException` for all others. -/
theorem C17_itip (body : Str) (x : ITIP) (f : Fin 8) (hu : ITIP.new (py "urn:epc:id:itip:" ++ body) = .ok x) :
    (Numeral x.serial ∧ number x.serial < 2 ^ 38 →
      x.tagUri .itip110 f = .ok (py "urn:epc:tag:itip-110:" ++ natStr f ++ '.' :: body)) ∧
    (¬ (Numeral x.serial ∧ number x.serial < 2 ^ 38) → x.tagUri .itip110 f = .error .convert) := by
  have ha : Ascii x.serial := by
    obtain ⟨_, _, _, _, S, ⟨_, _, _, _, hS⟩, _, e, rfl⟩ := ITIP.new_iff.1 hu
    exact gs3a3_ascii hS
  constructor
  · rintro ⟨h1, h2⟩
    have : ∃ t, x.tagUri .itip110 f = .ok t := by
      unfold ITIP.tagUri ITIP.badSerial
      dsimp only
      rw [badNumeric_good h1 h2, ok_bind, if_neg (by simp)]
      exact ⟨_, rfl⟩
    obtain ⟨t, ht⟩ := this
    obtain ⟨b, eb, rfl⟩ := ITIP.tagUri_form hu ht
    rw [ht, List.append_cancel_left eb]
    simp [tagUriPrefix, ITIP.Coding.value]
  · intro h
    unfold ITIP.tagUri ITIP.badSerial
    dsimp only
    rw [badNumeric_bad ha h, ok_bind, if_pos rfl]

example : ((do let x ← ITIP.new (py "urn:epc:id:itip:9521141.012345.02.04.274877906943"); x.tagUri .itip110 3) : Except Err Str) =
    .ok (py "urn:epc:tag:itip-110:3.9521141.012345.02.04.274877906943") := by decide +kernel

example : ((do let x ← ITIP.new (py "urn:epc:id:itip:9521141.012345.02.04.274877906944"); x.tagUri .itip110 3) : Except Err Str) = .error .convert ∧
    ((do let x ← ITIP.new (py "urn:epc:id:itip:9521141.012345.02.04.0274877906943"); x.tagUri .itip110 3) : Except Err Str) = .error .convert ∧
    ((do let x ← ITIP.new (py "urn:epc:id:itip:9521141.012345.02.04.1A"); x.tagUri .itip110 3) : Except Err Str) = .error .convert := by decide +kernel

/-- GIAI: giai-96 is offered for numeric asset references that have at most 25 digits together with the company prefix and fit in the
82 bits left by the company prefix; `tag_uri` raises `ConvertException` for all others. -/
theorem C17_giai (u : Str) (x : GIAI) (f : Fin 8) (hu : GIAI.new u = .ok x) :
    let fits := Numeral x.assetRef ∧ x.companyPref.length + x.assetRef.length ≤ 25 ∧
      number x.assetRef < 2 ^ (82 - prefixBits x.companyPref.length)
    (fits → x.tagUri .giai96 f = .ok (py "urn:epc:tag:giai-96:" ++ natStr f ++ '.' :: x.companyPref ++ '.' :: x.assetRef)) ∧
    (¬ fits → x.tagUri .giai96 f = .error .convert) := by
  intro fits
  obtain ⟨C, S, ⟨_, hS⟩, ⟨⟨hl1, hl2⟩, _, _⟩, e, hx⟩ := GIAI.new_iff.1 hu
  have hC : x.companyPref = C := by rw [hx]
  have ha : Ascii x.assetRef := by
    rw [hx]
    exact fun c hc => gs3a3_ascii hS c (headD_split_mem hc)
  obtain ⟨r, -, hrow, hK, hN⟩ := GIAI.row96 hl1 hl2
  rw [← hC] at hrow hK hN
  constructor
  · rintro ⟨h1, h2, h3⟩
    have hn : isNumeric x.assetRef = true := isNumeric_of_decimal h1.2.1 (fun c hc => isDecimal_of_Digits h1.1 c hc)
    have hb : x.badAssetRef .giai96 = .ok false := by
      unfold GIAI.badAssetRef
      simp only [hn, Bool.not_true, Bool.false_eq_true, if_false]
      rw [hrow, ok_bind, if_neg (by omega)]
      exact badNumeric_good h1 (hN ▸ h3)
    unfold GIAI.tagUri
    rw [hb, ok_bind, if_neg (by simp), pure_ok]
    simp [tagUriPrefix, GIAI.Coding.value, filterStr]
  · intro h
    have hb : x.badAssetRef .giai96 = .ok true := by
      unfold GIAI.badAssetRef
      cases hn : isNumeric x.assetRef with
      | false => simp
      | true =>
        simp only [Bool.not_true, Bool.false_eq_true, if_false]
        rw [hrow, ok_bind]
        by_cases hlen : x.assetRef.length > r.K
        · rw [if_pos hlen]; rfl
        · rw [if_neg hlen]
          refine badNumeric_bad ha fun hg => h ⟨hg.1, ?_, hN ▸ hg.2⟩
          rw [hC] at *; omega
    unfold GIAI.tagUri
    rw [hb, ok_bind, if_pos rfl]

example : ((do let x ← GIAI.new (py "urn:epc:id:giai:9521141.5678"); x.tagUri .giai96 3) : Except Err Str) = .ok (py "urn:epc:tag:giai-96:3.9521141.5678") ∧
    ((do let x ← GIAI.new (py "urn:epc:id:giai:952114123456.4398046511104"); x.tagUri .giai96 3) : Except Err Str) = .error .convert := by decide +kernel

/-- CPI: cpi-96 is offered for serials below 2^31 and component/part references that are numerals of at most 15 digits together with
the company prefix; `tag_uri` raises `ConvertException` for all others. -/
theorem C17_cpi (body : Str) (x : CPI) (f : Fin 8) (hu : CPI.new (py "urn:epc:id:cpi:" ++ body) = .ok x) :
    let fits := unumber x.serial < 2 ^ 31 ∧ Numeral x.cpRef ∧ x.companyPref.length + x.cpRef.length ≤ 15
    (fits → x.tagUri .cpi96 f = .ok (py "urn:epc:tag:cpi-96:" ++ natStr f ++ '.' :: body)) ∧
    (¬ fits → x.tagUri .cpi96 f = .error .convert) := by
  intro fits
  obtain ⟨C, D, S, ⟨_, hD, hS⟩, _, e, hx⟩ := CPI.new_iff.1 hu
  have hser : pyInt 10 x.serial = .ok ((unumber x.serial : Nat) : Int) := by
    rw [hx]; show pyInt 10 S = _
    rw [pyInt_decimal hS.dec hS.ne_nil, unumber_eq hS.dec]
  have ha : Ascii x.cpRef := by
    rw [hx]; show Ascii D
    obtain ⟨raw, _, hraw, rfl⟩ := (lang_cpref _).1 hD
    exact fun c hc => (escape39_mem hraw c hc).1
  constructor
  · rintro ⟨h1, h2, h3⟩
    have hn : isNumeric x.cpRef = true := isNumeric_of_decimal h2.2.1 (fun c hc => isDecimal_of_Digits h2.1 c hc)
    have hz : (decide (x.cpRef.length > 1) && x.cpRef.head? == some '0') = false := by
      have := h2.2.2
      by_cases hl : 1 < x.cpRef.length
      · have : x.cpRef.head? ≠ some '0' := fun e => this ⟨hl, e⟩
        simp [this]
      · simp [hl]
    have hb : x.badSerial .cpi96 = .ok false := by
      unfold CPI.badSerial
      rw [hser, ok_bind, hn, hz, show decide (((unumber x.serial : Nat) : Int) ≥ ((2 ^ 31 : Nat) : Int)) = false by
        rw [decide_eq_false_iff_not]; omega, show decide ((x.cpRef.length : Int) > 15 - (x.companyPref.length : Int)) = false by
        rw [decide_eq_false_iff_not]; omega]
      rfl
    have : ∃ t, x.tagUri .cpi96 f = .ok t := by
      unfold CPI.tagUri
      rw [hb, ok_bind, if_neg (by simp)]
      exact ⟨_, rfl⟩
    obtain ⟨t, ht⟩ := this
    obtain ⟨b, eb, rfl⟩ := CPI.tagUri_form hu ht
    rw [ht, List.append_cancel_left eb]
    simp [tagUriPrefix, CPI.Coding.value]
  · intro h
    have hb : x.badSerial .cpi96 = .ok true := by
      unfold CPI.badSerial
      dsimp only
      rw [hser, ok_bind, pure_ok, Except.ok.injEq]
      refine Classical.byContradiction fun hb => h ?_
      rw [Bool.not_eq_true] at hb
      simp only [Bool.or_eq_false_iff, Bool.not_eq_false', Bool.and_eq_false_iff, decide_eq_false_iff_not] at hb
      obtain ⟨⟨⟨h1, h2⟩, h3⟩, h4⟩ := hb
      replace h2 := isNumeric_ascii ha h2
      refine ⟨by omega, ⟨isDigitA_of_decimal_ascii ha h2.2, h2.1, ?_⟩, by omega⟩
      rintro ⟨hl, hz⟩
      rcases h3 with h3 | h3
      · exact h3 hl
      · simp [hz] at h3
    unfold CPI.tagUri
    rw [hb, ok_bind, if_pos rfl]

example : ((do let x ← CPI.new (py "urn:epc:id:cpi:9521141.11111111.2147483647"); x.tagUri .cpi96 3) : Except Err Str) = .ok (py "urn:epc:tag:cpi-96:3.9521141.11111111.2147483647") ∧
    ((do let x ← CPI.new (py "urn:epc:id:cpi:9521141.11111111.2147483648"); x.tagUri .cpi96 3) : Except Err Str) = .error .convert ∧
    ((do let x ← CPI.new (py "urn:epc:id:cpi:9521141.111111111.1"); x.tagUri .cpi96 3) : Except Err Str) = .error .convert := by decide +kernel

end Epc
