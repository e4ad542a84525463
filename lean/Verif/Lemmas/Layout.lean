/-
Decoding of the fields of a GS1 key.
-/
import Verif.Lemmas.Reencode
import Verif.Spec.Layout
import Verif.Lemmas.Alias
import Verif.Lemmas.SpecDigits

namespace Epc
open Spec Re

theorem padded_iff {w n : Nat} (hw : 0 < w) {s : Str} : Padded w n s ↔ n < 10 ^ w ∧ s = padLeft '0' w (natStr n) := by
  constructor
  · rintro ⟨hd, hl, rfl⟩
    exact ⟨by rw [← hl]; exact number_lt hd, (natStr_number_pad hd hl hw).symm⟩
  · rintro ⟨hn, rfl⟩
    exact ⟨digits_padLeft (Digits_natStr n) w, length_pad_natStr hw hn, number_padLeft n w⟩

theorem numeral_natStr (n : Nat) : Numeral (natStr n) := by
  refine ⟨Digits_natStr n, natStr_ne_nil n, fun ⟨h1, h2⟩ => ?_⟩
  rcases num_natStr n with h | ⟨c, t, h, _, hc, _⟩
  · rw [h] at h1; simp at h1
  · rw [h] at h2; exact hc (by simpa using h2)

theorem plain_iff {n : Nat} {s : Str} : Plain n s ↔ s = natStr n := by
  constructor
  · rintro ⟨⟨hd, hne, hz⟩, rfl⟩
    exact (natStr_number_of_no_zero hd hne (by simpa using hz)).symm
  · rintro rfl
    refine ⟨?_, number_natStr n⟩
    exact numeral_natStr n

theorem bitField3 {b : Str} {W : Nat} (h : 3 ≤ W) : bitsNumber (((b.drop 11).take W).take 3) = bitField b 11 3 := by
  rw [field_take h]; rfl

theorem keyFields_decode {t : List Row} {K : Nat → Nat} {W : Nat} (ht : StdTable t) (hK : ∀ r ∈ t, r.K = K r.P ∧ 3 + r.M + r.N = W)
    {b : Str} (hB : Bits b) (hl : 11 + W ≤ b.length) (hW : 3 ≤ W) :
    (∀ C D, KeyFields b W K C D → decodePartitionTable ((b.drop 11).take W) t = .ok (C ++ '.' :: D)) ∧
    ((¬ ∃ C D, KeyFields b W K C D) → decodePartitionTable ((b.drop 11).take W) t = .error .convert) := by
  have hF : Bits ((b.drop 11).take W) := bits_take (bits_drop hB 11) W
  have hFl : ((b.drop 11).take W).length = W := field_length (by omega)
  have hf3 : ((b.drop 11).take W).take 3 = (b.drop 11).take 3 := field_take hW
  have main : ∀ p ≤ 6, bitField b 11 3 = p → decodePartitionTable ((b.drop 11).take W) t =
      if 10 ^ (12 - p) ≤ bitField b 14 (prefixBits (12 - p)) then .error .convert
      else if K p ≠ 0 ∧ 10 ^ K p ≤ bitField b (14 + prefixBits (12 - p)) (W - 3 - prefixBits (12 - p)) then .error .convert
      else .ok (padLeft '0' (12 - p) (natStr (bitField b 14 (prefixBits (12 - p)))) ++ '.' ::
        (if K p = 0 then [] else padLeft '0' (K p) (natStr (bitField b (14 + prefixBits (12 - p)) (W - 3 - prefixBits (12 - p)))))) := by
    intro p hp6 hp
    obtain ⟨r, hr, rfl⟩ := ht.row hp6
    obtain ⟨e1, e2⟩ := ht.2.2.1 r hr
    obtain ⟨e3, e4⟩ := hK r hr
    have hN : W - 3 - r.M = r.N := by omega
    rw [decodePartition_bits ht.1 hr hF (by omega) (by rw [hf3]; exact hp), ← e2, ← e1, ← e3, hN]
    unfold bitField
    rw [field_field (by omega), field_field (by omega), ← Nat.add_assoc]
  constructor
  · rintro C D ⟨p, hp6, hp, hC, hD⟩
    rw [main p hp6 hp]
    obtain ⟨hC1, rfl⟩ := (padded_iff (by omega)).1 hC
    rw [if_neg (by omega)]
    by_cases hk : K p = 0
    · rw [if_pos hk] at hD
      rw [if_neg (by simp [hk]), if_pos hk, hD]
    · rw [if_neg hk] at hD
      obtain ⟨hD1, rfl⟩ := (padded_iff (by omega)).1 hD
      rw [if_neg (by omega), if_neg hk]
  · intro hno
    by_cases h7 : bitField b 11 3 ≤ 6
    · rw [main _ h7 rfl]
      by_cases hc : 10 ^ (12 - bitField b 11 3) ≤ bitField b 14 (prefixBits (12 - bitField b 11 3))
      · rw [if_pos hc]
      · rw [if_neg hc]
        by_cases hk : K (bitField b 11 3) = 0
        · exact absurd ⟨_, [], _, h7, rfl, (padded_iff (by omega)).2 ⟨by omega, rfl⟩, by rw [if_pos hk]⟩ hno
        · by_cases hd : 10 ^ K (bitField b 11 3) ≤ bitField b (14 + prefixBits (12 - bitField b 11 3)) (W - 3 - prefixBits (12 - bitField b 11 3))
          · rw [if_pos ⟨hk, hd⟩]
          · exact absurd ⟨_, _, _, h7, rfl, (padded_iff (by omega)).2 ⟨by omega, rfl⟩, by
              rw [if_neg hk]; exact (padded_iff (by omega)).2 ⟨by omega, rfl⟩⟩ hno
    · have h8 : bitField b 11 3 < 2 ^ 3 := by
        have := bitsNumber_lt (bits_take (bits_drop hB 11) 3)
        rw [field_length (by omega)] at this
        exact this
      exact reject7 ht hF (by omega) (by rw [hf3]; show bitField b 11 3 = 7; omega)

theorem freeFields_decode {t : List Row} {W : Nat} (ht : StdTable t) (hK : ∀ r ∈ t, r.K ≠ 0 ∧ 3 + r.M + r.N = W)
    {b : Str} (hB : Bits b) (hl : 11 + W ≤ b.length) (hW : 3 ≤ W) :
    (∀ C D, FreeFields b W C D → decodePartitionTable ((b.drop 11).take W) t .unpadded = .ok (C ++ '.' :: D)) ∧
    ((¬ ∃ C D, FreeFields b W C D) → decodePartitionTable ((b.drop 11).take W) t .unpadded = .error .convert) := by
  have hF : Bits ((b.drop 11).take W) := bits_take (bits_drop hB 11) W
  have hFl : ((b.drop 11).take W).length = W := field_length (by omega)
  have hf3 : ((b.drop 11).take W).take 3 = (b.drop 11).take 3 := field_take hW
  have main : ∀ p ≤ 6, bitField b 11 3 = p → decodePartitionTable ((b.drop 11).take W) t .unpadded =
      if 10 ^ (12 - p) ≤ bitField b 14 (prefixBits (12 - p)) then .error .convert
      else .ok (padLeft '0' (12 - p) (natStr (bitField b 14 (prefixBits (12 - p)))) ++ '.' ::
        natStr (bitField b (14 + prefixBits (12 - p)) (W - 3 - prefixBits (12 - p)))) := by
    intro p hp6 hp
    obtain ⟨r, hr, rfl⟩ := ht.row hp6
    obtain ⟨e1, e2⟩ := ht.2.2.1 r hr
    obtain ⟨e3, e4⟩ := hK r hr
    have hN : W - 3 - r.M = r.N := by omega
    rw [decodePartition_bits_unpadded ht.1 hr e3 hF (by omega) (by rw [hf3]; exact hp), ← e2, ← e1, hN]
    unfold bitField
    rw [field_field (by omega), field_field (by omega), ← Nat.add_assoc]
  constructor
  · rintro C D ⟨p, hp6, hp, hC, hD⟩
    rw [main p hp6 hp]
    obtain ⟨hC1, rfl⟩ := (padded_iff (by omega)).1 hC
    rw [if_neg (by omega), plain_iff.1 hD]
  · intro hno
    by_cases h7 : bitField b 11 3 ≤ 6
    · rw [main _ h7 rfl]
      by_cases hc : 10 ^ (12 - bitField b 11 3) ≤ bitField b 14 (prefixBits (12 - bitField b 11 3))
      · rw [if_pos hc]
      · exact absurd ⟨_, _, _, h7, rfl, (padded_iff (by omega)).2 ⟨by omega, rfl⟩, plain_iff.2 rfl⟩ hno
    · have h8 : bitField b 11 3 < 2 ^ 3 := by
        have := bitsNumber_lt (bits_take (bits_drop hB 11) 3)
        rw [field_length (by omega)] at this
        exact this
      exact reject7 ht hF (by omega) (by rw [hf3]; show bitField b 11 3 = 7; omega)

theorem keyFields_facts {b : Str} {W : Nat} {K : Nat → Nat} {C D : Str} (h : KeyFields b W K C D) :
    ∃ p ≤ 6, Digits C ∧ C.length = 12 - p ∧ C ≠ [] ∧ Digits D ∧ D.length = K p := by
  obtain ⟨p, hp, _, hC, hD⟩ := h
  refine ⟨p, hp, hC.1, hC.2.1, ne_nil_of_length hC.2.1 (by omega), ?_⟩
  by_cases hk : K p = 0
  · rw [if_pos hk] at hD
    subst hD
    exact ⟨fun c hc => absurd hc (by simp), by rw [hk]; rfl⟩
  · rw [if_neg hk] at hD
    exact ⟨hD.1, hD.2.1⟩

theorem natStr_length_le {n m : Nat} (hm : 0 < m) (h : n < 10 ^ m) : (natStr n).length ≤ m := length_toDigits_le (by decide) hm h

theorem bitField_lt {b : Str} (hB : Bits b) {lo k : Nat} (h : lo + k ≤ b.length) : bitField b lo k < 2 ^ k := by
  have := bitsNumber_lt (bits_take (bits_drop hB lo) k)
  rw [field_length h] at this
  exact this

theorem plain_facts {n m : Nat} {S : Str} (h : Plain n S) (hm : 0 < m) (hn : n < 10 ^ m) :
    Lang Rx.gs3a3 S ∧ verifyGs3a3 S = .ok () ∧ 1 ≤ (replaceUriEscapes S).length ∧ (replaceUriEscapes S).length = S.length ∧
    S.length ≤ m ∧ ':' ∉ S ∧ S ≠ [] ∧ Num S ∧ Dec S := by
  have hS := plain_iff.1 h
  have hd : Digits S := h.1.1
  have hne : S ≠ [] := h.1.2.1
  have hnum : number S = n := h.2
  obtain ⟨k1, k2, k3, k4, k5, k6, k7⟩ := strip_serial hd hne
  rw [hnum, ← hS] at k1 k2 k3 k4
  refine ⟨k1, k2, k3, k4, ?_, no_colon_digits hd, hne, ?_, dec_digits hd⟩
  · rw [hS]; exact natStr_length_le hm hn
  · rw [hS]; exact num_natStr n

theorem freeFields_facts {b : Str} (hB : Bits b) {W : Nat} {C D : Str} (h : FreeFields b W C D) :
    ∃ p ≤ 6, Digits C ∧ Digits D ∧ C ≠ [] ∧
      ((∀ p ≤ 6, 2 ^ (W - 3 - prefixBits (12 - p)) ≤ 10 ^ (18 + p)) → 6 ≤ C.length ∧ C.length ≤ 12 ∧ C.length + D.length ≤ 30) ∧
      Lang Rx.gs3a3 D ∧ verifyGs3a3 D = .ok () ∧ ':' ∉ D ∧ Lang Rx.cpref D := by
  obtain ⟨p, hp, _, hC, hD⟩ := h
  have hCl := hC.2.1
  have hWp : 43 ≤ W ∨ W < 43 := by omega
  obtain ⟨k1, k2, k3, k4, k5, k6, k7, k8, k9⟩ := plain_facts hD (m := bitField b (14 + prefixBits (12 - p)) (W - 3 - prefixBits (12 - p)) + 1) (by omega)
    (Nat.lt_of_lt_of_le (Nat.lt_succ_self _) (Nat.le_of_lt (Nat.lt_pow_self (by decide))))
  refine ⟨p, hp, hC.1, hD.1.1, ne_nil_of_length hCl (by omega), fun hw => ⟨by omega, by omega, ?_⟩, k1, k2, k6, cpref_digits hD.1.1 k7⟩
  have hlt : bitField b (14 + prefixBits (12 - p)) (W - 3 - prefixBits (12 - p)) < 10 ^ (18 + p) := by
    refine Nat.lt_of_lt_of_le ?_ (hw p hp)
    unfold bitField
    refine Nat.lt_of_lt_of_le (bitsNumber_lt (bits_take (bits_drop hB _) _)) (Nat.pow_le_pow_right (by decide) ?_)
    rw [List.length_take]
    exact Nat.min_le_left _ _
  have := (plain_facts hD (m := 18 + p) (by omega) hlt).2.2.2.2.1
  omega

theorem decodeNumeric_spec {b : Str} (hB : Bits b) (hne : b ≠ []) :
    (∀ S, Digits S → S ≠ [] → number ('1' :: S) = bitsNumber b → decodeNumericString b = .ok S) ∧
    ((¬ ∃ S, Digits S ∧ S ≠ [] ∧ number ('1' :: S) = bitsNumber b) → decodeNumericString b = .error .convert) := by
  constructor
  · intro S hd hS hn
    have := decodeNumeric_ok (w := b.length) hd hS
    rw [hn, bin_bitsNumber hB rfl (List.length_pos_iff.2 hne)] at this
    exact this
  · intro hno
    unfold decodeNumericString
    have hi : pyInt 2 b = .ok (bitsNumber b : Int) := binaryToInt_bits hB hne
    rw [hi, ok_bind]
    dsimp only
    split
    · rfl
    · next h =>
      exfalso
      rw [not_or, Classical.not_not] at h
      have e : intStr (bitsNumber b : Int) = natStr (bitsNumber b) := rfl
      rw [e] at h
      cases hs : natStr (bitsNumber b) with
      | nil => rw [hs] at h; simp at h
      | cons c t =>
        rw [hs] at h
        have hc : c = '1' := by simpa using h.2
        subst hc
        have hd := Digits_natStr (bitsNumber b)
        have hn := number_natStr (bitsNumber b)
        rw [hs] at hd hn
        refine hno ⟨t, fun c hc => hd c (List.mem_cons_of_mem _ hc), ?_, hn⟩
        rintro rfl
        simp at h

theorem decodeFixed_spec {b : Str} (hB : Bits b) (hl : b.length = 7) :
    (∀ A, Padded 2 (bitsNumber b) A → decodeFixedWidthInteger b = .ok A) ∧
    ((¬ ∃ A, Padded 2 (bitsNumber b) A) → decodeFixedWidthInteger b = .error .convert) := by
  have hne : b ≠ [] := ne_nil_of_length hl (by decide)
  have h2 : fixedDigits 7 = 2 := by decide
  have e : decodeFixedWidthInteger b = if 99 < bitsNumber b then .error .convert else .ok (padLeft '0' 2 (natStr (bitsNumber b))) := by
    unfold decodeFixedWidthInteger
    have hi : pyInt 2 b = .ok (bitsNumber b : Int) := binaryToInt_bits hB hne
    rw [hi, ok_bind]
    rw [hl, h2]
    by_cases h : 99 < bitsNumber b
    · rw [if_pos h, if_pos (by show ((10 ^ 2 : Nat) : Int) - 1 < _; omega)]
    · rw [if_neg h, if_neg (by show ¬ ((10 ^ 2 : Nat) : Int) - 1 < _; omega)]
      rfl
  constructor
  · intro A hA
    obtain ⟨h1, rfl⟩ := (padded_iff (by decide)).1 hA
    rw [e, if_neg (by omega)]
  · intro hno
    rw [e, if_pos]
    exact Classical.byContradiction fun h => hno ⟨_, (padded_iff (by decide)).2 ⟨by omega, rfl⟩⟩

theorem chr_byte {n : Nat} (h : n < 256) : chr (n : Int) = .ok (Char.ofNat n) := by
  have hall : ∀ n : Nat, n < 256 → chr (n : Int) = .ok (Char.ofNat n) := by decide +kernel
  exact hall n h

theorem bytes_loop {b : Str} (hB : Bits b) (k : Nat) : ∀ lo, lo + 8 * k ≤ b.length →
    ∃ ps : List Str, (splitCap (bitsLen 8) ((b.drop lo).take (8 * k))).mapM (fun g =>
      if g = [] then (.ok [] : Except Err Str) else do
        let i ← pyInt 2 g
        let c ← chr i
        return [c]) = .ok ps ∧ ps.flatten = byteText b lo k := by
  induction k with
  | zero => intro lo _; exact ⟨[[]], by rw [Nat.mul_zero, List.take_zero]; decide, rfl⟩
  | succ k ih =>
    intro lo hl
    obtain ⟨ps, e1, e2⟩ := ih (lo + 8) (by omega)
    have hb : ((b.drop lo).take 8).length = 7 + 1 := field_length (by omega)
    have hbits : Bits ((b.drop lo).take 8) := bits_take (bits_drop hB lo) 8
    have hlt := bitField_lt hB (lo := lo) (k := 8) (by omega)
    have hsp : (b.drop lo).take (8 * (k + 1)) = (b.drop lo).take 8 ++ (b.drop (lo + 8)).take (8 * k) := by
      rw [show 8 * (k + 1) = 8 + 8 * k by omega, List.take_add, List.drop_drop]
    refine ⟨[] :: [Char.ofNat (bitField b lo 8)] :: ps, ?_, by simp [e2, byteText]⟩
    rw [hsp, splitCap_chunk hb (isBit_of_Bits hbits)]
    refine mapM_cons_ok (if_pos rfl) (mapM_cons_ok ?_ e1)
    have hi : pyInt 2 ((b.drop lo).take 8) = .ok (bitField b lo 8 : Int) := binaryToInt_bits hbits (ne_nil_of_length hb (by decide))
    rw [if_neg (ne_nil_of_length hb (by decide)), hi, ok_bind, chr_byte (by omega), ok_bind, pure_ok]

theorem flatMap_remove (c : Char) (s : Str) : s.flatMap (fun x => if x = c then ([] : Str) else [x]) = s.filter (· ≠ c) := by
  induction s with
  | nil => rfl
  | cons a t ih =>
    rw [List.flatMap_cons, ih, List.filter_cons]
    by_cases h : a = c <;> simp [h]

theorem decodeCage_spec {b : Str} (hB : Bits b) (hl : 60 ≤ b.length) :
    decodeCageCode ((b.drop 12).take 48) = .ok ((byteText b 12 6).filter (· ≠ ' ')) := by
  obtain ⟨ps, e1, e2⟩ := bytes_loop hB 6 12 (by omega)
  unfold decodeCageCode
  rw [e1, ok_bind, e2, pure_ok, show py " " = [' '] from rfl, replaceAll_char, flatMap_remove]

theorem cageCode_iff {s : Str} : CageCode s ↔ Lang Rx.cage s := by
  rw [lang_cage]
  unfold CageCode
  simp only [mem_cage]
  exact And.comm

theorem usdod_cage {t S u : Str} {x : USDOD} (hu : u = py "urn:epc:id:usdod:" ++ (t ++ '.' :: S)) (h : USDOD.new u = .ok x) : CageCode t := by
  obtain ⟨C, S', ⟨hC, hS'⟩, _, e, _⟩ := USDOD.new_iff.1 h
  rw [hu] at e
  have hCd := cage_no_dot hC
  by_cases ht : '.' ∈ t
  · exfalso
    obtain ⟨t1, t2, e1, h1⟩ := List.eq_append_cons_of_mem ht
    subst e1
    have e' : py "urn:epc:id:usdod" ++ ':' :: (t1 ++ '.' :: (t2 ++ '.' :: S)) = py "urn:epc:id:usdod" ++ ':' :: (C ++ '.' :: S') := by
      rw [← e]; simp
    obtain ⟨_, rfl⟩ := uri2_inj h1 hCd e'
    exact hS'.dec.no_dot (by simp)
  · obtain ⟨rfl, _⟩ := uri2_inj (q := py "urn:epc:id:usdod") (a := t) (b := S) ht hCd e
    exact cageCode_iff.2 hC

end Epc
