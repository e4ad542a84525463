/-
C54: decoding of CPI-var, the encoding of variable length, specified completely.

For every bit string with the header of CPI-var that is long enough for the company prefix: if the partition value is at most 6, the company
prefix has its number of digits and the six-bit text of the reference ends before the maximal number of characters is exceeded, then decoding
yields exactly the EPC with this company prefix, reference and serial number if the escaped text is a valid part reference (the escaped form of
a non-empty text of digits, capital letters, '#', '-' and '/'), the serial number has at most twelve digits and company prefix and reference
have at most thirty characters; in all other cases, ConvertException is raised.  (The last clause shows that a tag which is cut off
before the serial number is decoded with the serial number 0.)
-/
import Verif.Lemmas.LayoutSix

namespace Epc
open Spec Re

theorem C54_cpi_var {b : Str} (hB : Bits b) (hb : b.take 8 = py "00111101") (hl : 14 + prefixBits (12 - bitField b 11 3) ≤ b.length) :
    (∀ C raw e S, VarFields b C raw e → Plain (bitField b e 40) S →
      (∀ part, part ≠ [] → (∀ c ∈ part, c ∈ gs39) → escape39 raw = escape39 part → bitField b e 40 < 10 ^ 12 →
        C.length + (escape39 raw).length ≤ 30 →
        ∃ x, CPI.fromBinary b = .ok x ∧ x.epcUri = py "urn:epc:id:cpi:" ++ joinWith '.' [C, escape39 part, S]) ∧
      (¬ ((∃ part, part ≠ [] ∧ (∀ c ∈ part, c ∈ gs39) ∧ escape39 raw = escape39 part) ∧ bitField b e 40 < 10 ^ 12 ∧
          C.length + (escape39 raw).length ≤ 30) →
        CPI.fromBinary b = .error .convert)) ∧
    ((¬ ∃ C raw e, VarFields b C raw e) → CPI.fromBinary b = .error .convert) := by
  obtain ⟨k, k'⟩ := varFields_decode hB hl
  have hfb : CPI.fromBinary b = (CPI.decodeParts .cpiVar b >>= fun x => binIntStr x.2 >>= fun S =>
      CPI.fromTagUri (tagUriPrefix ++ CPI.Coding.value .cpiVar ++ ':' :: (natStr (bitField b 8 3) ++ '.' :: (x.1 ++ '.' :: S)))) := by
    unfold CPI.fromBinary
    rw [parseHeader_var (cs := CPI.Coding.cpiVar) (p := py "cpi") (sz := py "var") hb (by decide) (by decide) (by decide), ok_bind]
    dsimp only
    refine congrArg _ (funext fun x => ?_)
    rw [slice_eq, binaryToInt_bits (bits_take (bits_drop hB 8) _)
      (ne_nil_of_length (n := 3) (by rw [List.length_take, List.length_drop]; omega) (by decide)), ok_bind, intStr_ofNat]
    refine congrArg _ (funext fun S => ?_)
    exact congrArg _ (by simp [bitField])
  rw [hfb]
  constructor
  · intro C raw e S hF hS
    rw [k C raw e hF, ok_bind]
    dsimp only
    have hser : binIntStr (if e < b.length then (b.drop e).take 40 else py "0") = .ok S := by
      rw [plain_iff.1 hS]
      split
      · next h => exact binIntStr_bits (bits_take (bits_drop hB e) 40) (ne_nil_of_length (n := min 40 (b.length - e)) (by rw [List.length_take, List.length_drop]) (by omega))
      · next h =>
        rw [show bitField b e 40 = 0 by unfold bitField; rw [List.drop_of_length_le (by omega)]; rfl]
        decide
    rw [hser, ok_bind]
    obtain ⟨p, hp6, -, hC, -, -, -⟩ := hF
    have hCl : C.length = 12 - p := hC.2.1
    have hCd := hC.1
    have hCne : C ≠ [] := ne_nil_of_length hCl (by omega)
    have e0 := fromTagUri_filter (new := CPI.new) (n := CPI.Coding.value .cpiVar) (f := natStr (bitField b 8 3))
      (b := C ++ '.' :: (escape39 raw ++ '.' :: S)) (by decide) (num_natStr _)
    rw [show (C ++ '.' :: escape39 raw) ++ '.' :: S = C ++ '.' :: (escape39 raw ++ '.' :: S) from by simp]
    constructor
    · intro part hne hg he hs hlen
      obtain ⟨_, _, _, _, k5, _, _, k8, k9⟩ := plain_facts hS (m := 12) (by decide) hs
      have hn := CPI.new_iff.2 ⟨C, escape39 raw, S, ⟨⟨hCne, dec_digits hCd⟩, by rw [lang_cpref]; exact ⟨part, hne, hg, he⟩, k8⟩,
        ⟨hlen, k5, by omega, by omega⟩, rfl, rfl⟩
      obtain ⟨x, hx, hu⟩ : ∃ x, CPI.new (py "urn:epc:id:cpi:" ++ joinWith '.' [C, escape39 raw, S]) = .ok x ∧
        x.epcUri = py "urn:epc:id:cpi:" ++ joinWith '.' [C, escape39 raw, S] := ⟨_, hn, rfl⟩
      exact ⟨x, CPI.fromTagUri_of_new (num_natStr _) hx, by rw [hu, he]⟩
    · intro hno
      show Epc.fromTagUri CPI.new true _ = _
      rw [e0]
      split
      · cases hx : CPI.new (py "urn:epc:id:" ++ (split '-' (CPI.Coding.value .cpiVar)).headD [] ++ ':' :: (C ++ '.' :: (escape39 raw ++ '.' :: S))) with
        | error e' => rw [CPI.new_error hx]
        | ok x =>
          exfalso
          obtain ⟨C', D', S', ⟨hC', hD', hS'⟩, ⟨h1, h2, h3, h4⟩, hu, -⟩ := CPI.new_iff.1 hx
          have hSd : Dec S := by rw [plain_iff.1 hS]; exact (num_natStr _).dec
          have hdot : '.' ∉ escape39 raw := by
            intro hd
            have hcount := congrArg (List.count '.') hu
            have z := fun {s : Str} (h : Dec s) => List.count_eq_zero.2 h.no_dot
            have zD : List.count '.' D' = 0 := List.count_eq_zero.2 (cpref_no_dot hD')
            have pd : 0 < List.count '.' (escape39 raw) := List.count_pos_iff.2 hd
            rw [show py "urn:epc:id:" ++ (split '-' (CPI.Coding.value .cpiVar)).headD [] = py "urn:epc:id:cpi" by decide] at hcount
            simp only [List.count_append, List.count_cons_self, List.count_cons, z (dec_digits hCd), z hSd, z hC'.2, zD, z hS'.dec] at hcount
            omega
          have := uri3_inj (q := py "urn:epc:id:cpi") (dec_digits hCd).no_dot hdot hC'.2.no_dot (cpref_no_dot hD') hu
          obtain ⟨rfl, rfl, rfl⟩ := this
          refine hno ⟨(lang_cpref _).1 hD', ?_, h1⟩
          have hlt := number_lt hS.1.1
          rw [hS.2] at hlt
          exact Nat.lt_of_lt_of_le hlt (Nat.pow_le_pow_right (by decide) h2)
      · rfl
  · intro hno
    rw [k' hno, error_bind]

/-- A tag that is cut off before the serial number is decoded as if the serial number were 0. -/
theorem C54_cut_off {b : Str} (hB : Bits b) (hb : b.take 8 = py "00111101") (hl : 14 + prefixBits (12 - bitField b 11 3) ≤ b.length)
    {C raw : Str} {e : Nat} (hF : VarFields b C raw e) (he : b.length ≤ e) (hne : raw ≠ []) (hg : ∀ c ∈ raw, c ∈ gs39)
    (hle : C.length + (escape39 raw).length ≤ 30) :
    ∃ x, CPI.fromBinary b = .ok x ∧ x.epcUri = py "urn:epc:id:cpi:" ++ joinWith '.' [C, escape39 raw, py "0"] := by
  have h0 : bitField b e 40 = 0 := by unfold bitField; rw [List.drop_of_length_le he]; rfl
  exact ((C54_cpi_var hB hb hl).1 C raw e (py "0") hF (by rw [h0]; exact plain_iff.2 (by decide))).1 raw hne hg rfl (by rw [h0]; decide) hle

/-- The encoding of `0614141.5PQ7/Z43.12345`. -/
example : ∃ b, b = py "001111010111010000100101011110111111011101010100000100011101111011110110101101001100110000000000000000000000000000000011000000111001" ∧
    Bits b ∧ b.take 8 = py "00111101" ∧ 14 + prefixBits (12 - bitField b 11 3) ≤ b.length ∧
    VarFields b (py "0614141") (py "5PQ7/Z43") 92 ∧ Plain (bitField b 92 40) (py "12345") :=
  ⟨_, rfl, by unfold Bits; decide +kernel, by decide +kernel, by decide +kernel,
    ⟨5, by decide, by decide +kernel, ⟨by unfold Digits; decide +kernel, by decide +kernel, by decide +kernel⟩, by decide +kernel, by decide +kernel, by decide +kernel⟩,
    ⟨⟨by unfold Digits; decide +kernel, by decide +kernel, by decide +kernel⟩, by decide +kernel⟩⟩

/-- Two texts with the same escaped form: the texts `#` and `%23` are decoded to the same EPC. -/
example : CPI.fromBinary (py "00111101000101" ++ List.replicate 24 '0' ++ py "100101110010110011000000" ++ List.replicate 40 '0') =
    CPI.fromBinary (py "00111101000101" ++ List.replicate 24 '0' ++ py "100011000000" ++ List.replicate 40 '0') ∧
    (CPI.fromBinary (py "00111101000101" ++ List.replicate 24 '0' ++ py "100011000000" ++ List.replicate 40 '0')).isOk = true := by
  decide +kernel

/-- A tag that is cut off. -/
example : VarFields (py "00111101000101" ++ List.replicate 24 '0' ++ py "100011") (py "0000000") (py "#") 50 ∧
    (py "00111101000101" ++ List.replicate 24 '0' ++ py "100011").length = 44 :=
  ⟨⟨5, by decide, by decide +kernel, ⟨by unfold Digits; decide +kernel, by decide +kernel, by decide +kernel⟩, by decide +kernel, by decide +kernel, by decide +kernel⟩,
    by decide +kernel⟩

end Epc
