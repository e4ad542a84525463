/-
C55: decoding of ADI-var, the encoding of variable length, specified completely.

For every bit string with the header of ADI-var and at least 50 bits: let `t` be the position of the first six consecutive zero bits from bit
50 on, aligned to the six-bit groups or not.  If there is none, decoding raises ConvertException.  Otherwise the part number is the text in the
six-bit groups before `t`, and the serial number is the text in the six-bit groups that start after the six zeros and that do not reach into the
last six bits.  If the 36 bits after the filter value are a CAGE code and the texts are, after escaping, those of a part number and of a serial
number, and are not too long, decoding yields exactly the EPC with these components; otherwise, ConvertException is raised.
-/
import Verif.Lemmas.LayoutAdi

namespace Epc
open Spec Re

theorem C55_adi_var {b : Str} (hB : Bits b) (hb : b.take 8 = py "00111011") (hl : 50 ≤ b.length) :
    (∀ t part serial, FirstZeros b t → part = sixText (b.take t) 50 t → serial = sixText (b.take (b.length - 6)) (t + 6) b.length →
      (∀ P S, CageCode (cageText b) → part.length ≤ 32 → serial.length ≤ 30 → AdiPart P → escape39 part = escape39 P →
        AdiSerial S → escape39 serial = escape39 S →
        ∃ x, ADI.fromBinary b = .ok x ∧ x.epcUri = py "urn:epc:id:adi:" ++ joinWith '.' [cageText b, escape39 P, escape39 S]) ∧
      (¬ (CageCode (cageText b) ∧ part.length ≤ 32 ∧ serial.length ≤ 30 ∧ (∃ P, AdiPart P ∧ escape39 part = escape39 P) ∧
          ∃ S, AdiSerial S ∧ escape39 serial = escape39 S) →
        ADI.fromBinary b = .error .convert)) ∧
    ((¬ ∃ t, FirstZeros b t) → ADI.fromBinary b = .error .convert) := by
  have hfb : ∀ e : Except Err ADI, ((do
      guardConvert (ADI.hasTerminator (b.drop 50))
      let (partBinary, _, rest) ← unpack2s (splitCap ADI.zerosLen (b.drop 50))
      let serialTrimmed := sliceToI rest.flatten (-6)
      let part ← decodeStringSixBits partBinary 32
      let serial ← decodeStringSixBits serialTrimmed 30
      ADI.fromTagUri (tagUriPrefix ++ ADI.Coding.value .adiVar ++ ':' :: (natStr (bitField b 8 6) ++ '.' ::
        (escape39 (cageText b) ++ '.' :: (part ++ '.' :: serial))))) = e) → ADI.fromBinary b = e := by
    rintro e rfl
    unfold ADI.fromBinary
    rw [parseHeader_var (cs := ADI.Coding.adiVar) (p := py "adi") (sz := py "var") hb (by decide) (by decide) (by decide), ok_bind]
    dsimp only
    refine congrArg _ (funext fun _ => congrArg _ (funext fun x => ?_))
    rw [cage_decode hB hl, slice_eq, binaryToInt_bits (bits_take (bits_drop hB 8) _)
      (ne_nil_of_length (n := 6) (by rw [List.length_take, List.length_drop]; omega) (by decide)), ok_bind, ok_bind, intStr_ofNat]
    refine congrArg _ (funext fun P => congrArg _ (funext fun S => ?_))
    exact congrArg _ (by simp [bitField])
  constructor
  · rintro t part serial hF hpart hserial
    obtain ⟨h1, h2⟩ := adi_split hB hF
    obtain ⟨h50, ht6, -⟩ := hF
    have hdp : decodeStringSixBits ((b.take t).drop 50) 32 = if part.length > 32 then .error .convert else .ok (escape39 part) := by
      rw [decodeSix_rest (bits_take hB t) 50 t 32 (by rw [List.length_take]; omega), hpart]
    have hds : decodeStringSixBits (sliceToI (splitCap ADI.zerosLen (b.drop (t + 6))).flatten (-6)) 30 =
        if serial.length > 30 then .error .convert else .ok (escape39 serial) := by
      rw [show (splitCap ADI.zerosLen (b.drop (t + 6))).flatten = b.drop (t + 6) from flatten_splitCap (by decide) _,
        show (-6 : Int) = -((6 : Nat) : Int) from rfl, sliceToI_neg_any _ _ (by decide),
        show (b.drop (t + 6)).take ((b.drop (t + 6)).length - 6) = (b.take (b.length - 6)).drop (t + 6) by
          rw [List.drop_take, List.length_drop]; congr 1; omega,
        decodeSix_rest (bits_take hB _) (t + 6) b.length 30 (by rw [List.length_take]; omega), hserial]
    have e0 := fromTagUri_filter (new := ADI.new) (n := ADI.Coding.value .adiVar) (f := natStr (bitField b 8 6))
      (b := escape39 (cageText b) ++ '.' :: (escape39 part ++ '.' :: escape39 serial)) (by decide) (num_natStr _)
    constructor
    · intro P S hC hpl hsl hP heP hS heS
      have hC' := cageCode_iff.1 hC
      have hPg : ∀ c ∈ P, c ∈ gs39 := fun c h => (hP.1 c h).1
      have hlen : ((replaceAll (py "%2F") (py "/") (escape39 P)).length ≤ 32 ∧
          1 ≤ (replaceAll (py "%23") (py "#") (replaceAll (py "%2F") (py "/") (escape39 S))).length ∧
          (replaceAll (py "%23") (py "#") (replaceAll (py "%2F") (py "/") (escape39 S))).length ≤ 30) := by
        rw [replace_2F hPg, flatMap_escHash_of_no_hash (fun h => (hP.1 _ h).2 rfl), replace_2F hS.1, replace_23 hS.1]
        exact ⟨hP.2, List.length_pos_iff.2 hS.2.2.1, hS.2.2.2.2⟩
      have hn := ADI.new_iff.2 ⟨cageText b, escape39 P, escape39 S, ⟨hC', (lang_adiPart _).2 ⟨P, hP.1, rfl⟩,
        (lang_adiSerial' _).2 ⟨S, ⟨hS.1, hS.2.1, hS.2.2.1, hS.2.2.2.1⟩, rfl⟩⟩, hlen, rfl, rfl⟩
      obtain ⟨x, hx, hu⟩ : ∃ x, ADI.new (py "urn:epc:id:adi:" ++ joinWith '.' [cageText b, escape39 P, escape39 S]) = .ok x ∧
        x.epcUri = py "urn:epc:id:adi:" ++ joinWith '.' [cageText b, escape39 P, escape39 S] := ⟨_, hn, rfl⟩
      refine ⟨x, hfb _ ?_, hu⟩
      rw [guard_true h1, ok_bind, h2]
      simp only [unpack2s, ok_bind]
      rw [hdp, if_neg (by omega), ok_bind, hds, if_neg (by omega), ok_bind, heP, heS, escape39_cage ((lang_cage _).1 hC').2]
      exact ADI.fromTagUri_of_new (num_natStr _) hx
    · intro hno
      apply hfb
      rw [guard_true h1, ok_bind, h2]
      simp only [unpack2s, ok_bind]
      rw [hdp]
      by_cases hpl : part.length > 32
      · rw [if_pos hpl, error_bind]
      rw [if_neg hpl, ok_bind, hds]
      by_cases hsl : serial.length > 30
      · rw [if_pos hsl, error_bind]
      rw [if_neg hsl, ok_bind]
      show Epc.fromTagUri ADI.new true _ = _
      rw [e0]
      split
      · cases hx : ADI.new (py "urn:epc:id:" ++ (split '-' (ADI.Coding.value .adiVar)).headD [] ++ ':' :: (escape39 (cageText b) ++ '.' :: (escape39 part ++ '.' :: escape39 serial))) with
        | error e' => rw [ADI.new_error hx]
        | ok x =>
          exfalso
          obtain ⟨C', D', S', ⟨hC', hD', hS'⟩, -, hu, -⟩ := ADI.new_iff.1 hx
          have key : ∀ a d s : Str, py "urn:epc:id:adi" ++ ':' :: (a ++ '.' :: (d ++ '.' :: s)) =
              py "urn:epc:id:adi" ++ ':' :: (C' ++ '.' :: (D' ++ '.' :: S')) → '.' ∉ a ∧ '.' ∉ d := by
            intro a d s hu
            have hcount := congrArg (List.count '.') hu
            have z := fun {s : Str} (h : '.' ∉ s) => List.count_eq_zero.2 h
            simp only [List.count_append, List.count_cons_self, List.count_cons, z (cage_no_dot hC'), z (adiPart_no_dot hD'),
              z (adiSerial_no_dot hS')] at hcount
            constructor
            · exact List.count_eq_zero.1 (by omega)
            · exact List.count_eq_zero.1 (by omega)
          obtain ⟨k1, k2⟩ := key _ _ _ hu
          obtain ⟨e1, rfl, rfl⟩ := uri3_inj (q := py "urn:epc:id:adi") k1 k2 (cage_no_dot hC') (adiPart_no_dot hD') hu
          obtain ⟨P, hP, heP⟩ := (lang_adiPart _).1 hD'
          obtain ⟨S, hS, heS⟩ := (lang_adiSerial' _).1 hS'
          refine hno ⟨?_, by omega, by omega, ⟨P, ⟨hP, ?_⟩, heP⟩, S, ⟨hS.1, hS.2.1, hS.2.2.1, hS.2.2.2, ?_⟩, heS⟩
          · rw [cageCode_iff]
            have hc := ((lang_cage _).1 hC').2
            rw [← e1] at hc
            have : escape39 (cageText b) = cageText b := escape39_plain fun c hc' => by
              have h := hc '%'
              intro hbad
              have : '%' ∈ escape39 (cageText b) := by
                unfold escape39
                rw [List.mem_flatMap]
                refine ⟨c, hc', ?_⟩
                rcases hbad with rfl | rfl <;> decide
              exact absurd (h this) (by decide)
            rw [this] at e1
            rw [e1]; exact hC'
          · have := escape39_length_le (fun c h => (hP c h).1) heP
            omega
          · have := escape39_length_le hS.1 heS
            omega
      · rfl
  · intro hno
    apply hfb
    rw [guard_false (adi_noSplit hB hno), error_bind]

/-- The encoding of `W81X9C.3KL984PX1.2WMA-52`. -/
example : ∃ b, b = py "00111011000011010111111000110001011000111001000011110011001011001100111001111000110100010000011000110001000000110010010111001101000001101101110101110010000000" ∧
    Bits b ∧ b.take 8 = py "00111011" ∧ 50 ≤ b.length ∧ FirstZeros b 104 ∧ CageCode (cageText b) ∧ cageText b = py "W81X9C" ∧
    sixText (b.take 104) 50 104 = py "3KL984PX1" ∧ sixText (b.take (b.length - 6)) 110 b.length = py "2WMA-52" ∧
    AdiPart (py "3KL984PX1") ∧ AdiSerial (py "2WMA-52") :=
  ⟨_, rfl, by unfold Bits; decide +kernel, by decide +kernel, by decide +kernel,
    ⟨by decide, by decide +kernel, by decide +kernel,
      fun s h1 h2 => (by decide +kernel : ∀ s : Nat, s < 104 → 50 ≤ s → bitField (py "00111011000011010111111000110001011000111001000011110011001011001100111001111000110100010000011000110001000000110010010111001101000001101101110101110010000000") s 6 ≠ 0) s h2 h1⟩,
    by unfold CageCode; decide +kernel, by decide +kernel, by decide +kernel, by decide +kernel,
    by unfold AdiPart; decide +kernel, by unfold AdiSerial; decide +kernel⟩

end Epc
