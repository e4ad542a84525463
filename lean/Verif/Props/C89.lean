/-
C89: `SGTIN.from_gtin_plus_serial(gtin, k, n)` with a number `k` as serial.  Numbers of up to 20 characters are accepted, negative ones included; the
serial is the decimal form of the number, different numbers give different objects, and the object can be written as SGTIN-96 exactly if the number
is in the range of the 38 bits.
-/
import Verif.Props.C35
import Verif.Props.C65
import Verif.Model.Numbers
import Verif.Spec.Numbers
import Verif.Lemmas.Serial
import Verif.Lemmas.Verify

namespace Epc
open Spec Re

theorem writes_intStr (k : Int) : WritesInt (intStr k) k := by
  refine ⟨natStr k.natAbs, numeral_natStr _, ?_⟩
  rw [number_natStr]
  unfold intStr
  by_cases hk : k < 0
  · rw [if_pos hk]; exact .inr ⟨rfl, by omega, hk⟩
  · rw [if_neg hk]; exact .inl ⟨rfl, by omega⟩

private theorem intStr_mem {k : Int} {c : Char} (h : c ∈ intStr k) : c = '-' ∨ c ∈ py "0123456789" := by
  unfold intStr at h
  split at h
  · rcases List.mem_cons.1 h with h | h
    · exact .inl h
    · exact .inr (Digits_natStr _ c h)
  · exact .inr (Digits_natStr _ c h)

private theorem intStr_ne (k : Int) : intStr k ≠ [] := by
  unfold intStr
  split
  · exact List.cons_ne_nil _ _
  · exact natStr_ne_nil _

private theorem intStr_escape (k : Int) : escape (intStr k) = intStr k := by
  unfold intStr
  split
  · rw [escape_cons, escape_digits (Digits_natStr _)]; rfl
  · exact escape_digits (Digits_natStr _)

private theorem gs82_intStr (k : Int) : ∀ c ∈ intStr k, c ∈ gs82 := by
  intro c hc
  have key : ∀ c ∈ '-' :: py "0123456789", c ∈ gs82 := by decide +kernel
  exact key c (List.mem_cons.2 (intStr_mem hc))

private theorem verify_intStr (k : Int) : verifyGs3a3 (intStr k) = .ok () := by
  rw [← intStr_escape k]
  refine (verify_escape_iff (gs82_intStr k) (intStr_ne k)).2 (loneLetter_of_none fun c hc => ?_)
  have key : ∀ c ∈ '-' :: py "0123456789", c ∉ py "/<>?" := by decide +kernel
  exact key c (List.mem_cons.2 (intStr_mem hc))

private theorem unescape_intStr (k : Int) : replaceUriEscapes (intStr k) = intStr k := by
  conv => lhs; rw [← intStr_escape k]
  exact replaceUriEscapes_escape _

private theorem natStr_le_iff {n m : Nat} (hm : 0 < m) : (natStr n).length ≤ m ↔ n < 10 ^ m := by
  constructor
  · intro h
    have := number_lt (Digits_natStr n)
    rw [number_natStr] at this
    exact Nat.lt_of_lt_of_le this (Nat.pow_le_pow_right (by decide) h)
  · exact natStr_length_le hm

private theorem length_intStr (k : Int) : (intStr k).length ≤ 20 ↔ -10 ^ 19 < k ∧ k < 10 ^ 20 := by
  unfold intStr
  split
  · rw [List.length_cons, show (natStr k.natAbs).length + 1 ≤ 20 ↔ (natStr k.natAbs).length ≤ 19 by omega, natStr_le_iff (by decide)]
    omega
  · rw [natStr_le_iff (by decide)]
    omega

private theorem uri_eq (C I s : Str) : py "urn:epc:id:sgtin:" ++ joinWith '.' [C, I, s] = py "urn:epc:id:sgtin" ++ ':' :: (C ++ '.' :: (I ++ '.' :: s)) := by
  simp [joinWith]

private theorem plus_cut {g s : Str} {n : Int} (hg : UDigits g) (hl : g.length ≤ 14) (hn : (6 ≤ n ∧ n ≤ 12) ∨ (-8 ≤ n ∧ n ≤ -2)) :
    ∃ C i I, Dec C ∧ Dec (i :: I) ∧ C.length + (I.length + 1) = 13 ∧ 6 ≤ C.length ∧ C.length ≤ 12 ∧
      SGTIN.fromGtinPlusSerial g s n = SGTIN.new (py "urn:epc:id:sgtin" ++ ':' :: (C ++ '.' :: ((i :: I) ++ '.' :: s))) := by
  have nat : ∀ m : Nat, 6 ≤ m → m ≤ 12 → ∃ C i I, Dec C ∧ Dec (i :: I) ∧ C.length + (I.length + 1) = 13 ∧ 6 ≤ C.length ∧ C.length ≤ 12 ∧
      SGTIN.fromGtinPlusSerial g s m = SGTIN.new (py "urn:epc:id:sgtin" ++ ':' :: (C ++ '.' :: ((i :: I) ++ '.' :: s))) := by
    intro m h6 h12
    generalize hG : List.replicate (14 - g.length) '0' ++ g = G
    have hGl : G.length = 14 := by rw [← hG, List.length_append, List.length_replicate]; omega
    have hGd : Dec G := by
      rw [← hG]
      intro c hc
      rcases List.mem_append.1 hc with hc | hc
      · rw [(List.mem_replicate.1 hc).2]; decide
      · exact (uDigits_iff _).1 hg c hc
    cases G with
    | nil => cases hGl
    | cons i d =>
      have hd : d.length = 13 := by simpa using hGl
      have e : d = d.take m ++ ((d.drop m).dropLast ++ [(d.drop m).getLast (by intro h; have := congrArg List.length h; simp at this; omega)]) := by
        rw [List.dropLast_concat_getLast, List.take_append_drop]
      have hmem : ∀ c ∈ (d.drop m).dropLast, c ∈ d := fun c hc => List.mem_of_mem_drop ((List.dropLast_subset _) hc)
      refine ⟨d.take m, i, (d.drop m).dropLast, fun c hc => hGd c (List.mem_cons_of_mem _ (List.mem_of_mem_take hc)),
        fun c hc => ?_, ?_, ?_, ?_, ?_⟩
      · rcases List.mem_cons.1 hc with rfl | hc
        · exact hGd _ (List.mem_cons_self ..)
        · exact hGd c (List.mem_cons_of_mem _ (hmem c hc))
      · simp; omega
      · simp; omega
      · simp; omega
      · rw [← uri_eq]
        exact C65_returns g s m i _ (d.take m) (d.drop m).dropLast hg (by rw [hG, ← e]) (by simp; omega)
  rcases hn with ⟨h1, h2⟩ | ⟨h1, h2⟩
  · obtain ⟨m, rfl⟩ := Int.eq_ofNat_of_zero_le (show 0 ≤ n by omega)
    exact nat m (by omega) (by omega)
  · obtain ⟨m, hm⟩ := Int.eq_ofNat_of_zero_le (show 0 ≤ -n by omega)
    obtain rfl : n = -(m : Int) := by omega
    rw [C65_negative g s m hl (by omega) (by omega)]
    exact nat (14 - m) (by omega) (by omega)

/-- Which numbers (and which company prefix lengths) are accepted. -/
theorem C89_accepts (g : Str) (k n : Int) (hg : UDigits g) (hl : g.length ≤ 14) :
    (∃ y, SGTIN.fromGtinPlusInt g k n = .ok y) ↔
      ((6 ≤ n ∧ n ≤ 12) ∨ (-8 ≤ n ∧ n ≤ -2)) ∧ -10 ^ 19 < k ∧ k < 10 ^ 20 := by
  unfold SGTIN.fromGtinPlusInt
  by_cases hn : (6 ≤ n ∧ n ≤ 12) ∨ (-8 ≤ n ∧ n ≤ -2)
  · obtain ⟨C, i, I, hC, hI, hlen, h6, h12, e⟩ := plus_cut (s := intStr k) hg hl hn
    rw [e, ← length_intStr]
    constructor
    · rintro ⟨y, hy⟩
      obtain ⟨C', I', S', ⟨⟨_, hC'⟩, ⟨_, hI'⟩, _⟩, ⟨_, _, _, _, hle⟩, e', _⟩ := SGTIN.new_iff.1 hy
      obtain ⟨-, -, rfl⟩ := uri3_inj hC.no_dot hI.no_dot hC'.no_dot hI'.no_dot e'
      rw [unescape_intStr] at hle
      exact ⟨hn, hle⟩
    · rintro ⟨-, hle⟩
      refine ⟨_, SGTIN.new_iff.2 ⟨C, i :: I, intStr k, ⟨⟨?_, hC⟩, ⟨List.cons_ne_nil _ _, hI⟩, ?_⟩, ⟨?_, ⟨h6, h12⟩, verify_intStr k, ?_, ?_⟩, rfl, rfl⟩⟩
      · intro h; rw [h] at h6; simp at h6
      · rw [← intStr_escape k]; exact gs3a3_escape (gs82_intStr k) (intStr_ne k)
      · rw [List.length_cons]; exact hlen
      · rw [unescape_intStr]; exact List.length_pos_iff.2 (intStr_ne k)
      · rw [unescape_intStr]; exact hle
  · constructor
    · rintro ⟨y, hy⟩
      rw [C65_refused g _ n (Dec.no_dot ((uDigits_iff _).1 hg)) (.inr (.inr (.inr (.inr hn))))] at hy
      cases hy
    · rintro ⟨h, -⟩; exact absurd h hn

private theorem serial_eq {g : Str} {k n : Int} {y : SGTIN} (hg : UDigits g) (hl : g.length ≤ 14) (h : SGTIN.fromGtinPlusInt g k n = .ok y) :
    y.serial = intStr k := by
  obtain ⟨hn, -⟩ := (C89_accepts g k n hg hl).1 ⟨y, h⟩
  obtain ⟨C, i, I, hC, hI, -, -, -, e⟩ := plus_cut (s := intStr k) hg hl hn
  rw [SGTIN.fromGtinPlusInt, e] at h
  obtain ⟨C', I', S', ⟨⟨_, hC'⟩, ⟨_, hI'⟩, _⟩, _, e', rfl⟩ := SGTIN.new_iff.1 h
  exact (uri3_inj hC.no_dot hI.no_dot hC'.no_dot hI'.no_dot e').2.2.symm

/-- The serial of the object is the decimal form of the number, and its GTIN is the given one with the check digit put right. -/
theorem C89_serial (g : Str) (k n : Int) (y : SGTIN) (hg : Digits g) (hl : g.length ≤ 14) (h : SGTIN.fromGtinPlusInt g k n = .ok y) :
    WritesInt y.serial k ∧ ∃ t, y.gtin = .ok t ∧ Corrected [] 13 (List.replicate (14 - g.length) '0' ++ g) t := by
  refine ⟨?_, ?_⟩
  · rw [serial_eq ((uDigits_iff _).2 (dec_of_digits hg)) hl h]; exact writes_intStr k
  · obtain ⟨t, h1, h2, -⟩ := C35_gtin g (intStr k) n y hg hl h
    exact ⟨t, h1, h2⟩

/-- Different numbers give different objects, also across GTINs and lengths. -/
theorem C89_distinct (g g' : Str) (k k' n n' : Int) (y : SGTIN) (hg : UDigits g) (hl : g.length ≤ 14) (hg' : UDigits g') (hl' : g'.length ≤ 14)
    (h : SGTIN.fromGtinPlusInt g k n = .ok y) (h' : SGTIN.fromGtinPlusInt g' k' n' = .ok y) : k = k' := by
  have e := (serial_eq hg hl h).symm.trans (serial_eq hg' hl' h')
  obtain ⟨d, hd, h1⟩ := writes_intStr k
  obtain ⟨d', hd', h2⟩ := writes_intStr k'
  have minus : ∀ {a : Str}, Digits a → ∀ {b : Str}, a ≠ '-' :: b := by
    intro a ha b hab
    have := ha '-' (by rw [hab]; exact List.mem_cons_self ..)
    revert this; decide
  rcases h1 with ⟨e1, v1⟩ | ⟨e1, v1, -⟩ <;> rcases h2 with ⟨e2, v2⟩ | ⟨e2, v2, -⟩
  · rw [v1, v2, ← e1, ← e2, e]
  · exact absurd (e1.symm.trans (e.trans e2)) (minus hd.1)
  · exact absurd (e2.symm.trans (e.symm.trans e1)) (minus hd'.1)
  · have : d = d' := (List.cons.inj (e1.symm.trans (e.trans e2))).2
    rw [v1, v2, this]

/-- The object has an SGTIN-96 tag URI exactly if the number fits 38 bits; the tag URI of SGTIN-198 is always there. -/
theorem C89_tag (g : Str) (k n : Int) (f : Fin 8) (y : SGTIN) (hg : UDigits g) (hl : g.length ≤ 14) (h : SGTIN.fromGtinPlusInt g k n = .ok y) :
    ((∃ t, y.tagUri .sgtin96 f = .ok t) ↔ 0 ≤ k ∧ k < 2 ^ 38) ∧ ∃ t, y.tagUri .sgtin198 f = .ok t := by
  have hs := serial_eq hg hl h
  have ha : Ascii (intStr k) := fun c hc => gs82_lt (gs82_intStr k c hc)
  constructor
  · have hb : y.badSerial .sgtin96 = badNumericSerial (intStr k) 38 := by rw [← hs]; rfl
    have hfit : (Numeral (intStr k) ∧ number (intStr k) < 2 ^ 38) ↔ 0 ≤ k ∧ k < 2 ^ 38 := by
      unfold intStr
      split
      · rename_i hk
        constructor
        · rintro ⟨hN, -⟩
          exact absurd (hN.1 '-' (List.mem_cons_self ..)) (by decide)
        · omega
      · rw [number_natStr]
        constructor
        · rintro ⟨-, h⟩; omega
        · intro h; exact ⟨numeral_natStr _, by omega⟩
    rw [← hfit, ← badNumeric_ok_iff ha, ← hb]
    unfold SGTIN.tagUri
    constructor
    · rintro ⟨t, ht⟩
      obtain ⟨bad, hbad, ht⟩ := bind_ok_iff.1 ht
      cases bad with
      | false => exact hbad
      | true => cases ht
    · intro hbad
      rw [hbad]
      exact ⟨_, rfl⟩
  · unfold SGTIN.tagUri
    exact ⟨_, rfl⟩

/-- The hypotheses are met, by negative numbers as well. -/
example : (SGTIN.fromGtinPlusInt (py "10614141123459") 6789 7).toOption.map SGTIN.epcUri = some (py "urn:epc:id:sgtin:0614141.112345.6789") ∧
    (SGTIN.fromGtinPlusInt (py "10614141123459") (-5) 7).toOption.map SGTIN.epcUri = some (py "urn:epc:id:sgtin:0614141.112345.-5") ∧
    (SGTIN.fromGtinPlusInt (py "10614141123459") (10 ^ 20) 7).toBool = false := by decide +kernel

end Epc
