/-
C66: the helper codecs for single characters, CAGE codes and component/part references, completely.

* `encode_cage_code` writes every character of Latin-1 (code below 256) in eight bits; `decode_cage_code` reads the bits in groups of
  eight — a shorter last group as the number it is — and drops the blanks, so that encoding and decoding gives the text without its
  blanks (`C66_cage_encode`, `C66_cage_decode`, `C66_cage_roundtrip`).
* `encode_cage_code_six_bits` writes a CAGE code in 36 bits, with a blank (`100000`) before one of five characters, and
  `decode_cage_code_six_bits` gives it back (`C66_cage_six_bits`).
* `decode_binary_char` of seven bits is the character with that number, escaped if it has to be in a URI, and nothing for `0000000`
  (`C66_binary_char`).
* `revert_cpi_escapes` escapes `#` and `/` of any text, and `replace_cpi_escapes` undoes it for every text without a percent sign
  (`C66_cpi_escapes`).
-/
import Verif.Lemmas.ElemParse
import Verif.Lemmas.LayoutAdi
import Verif.Lemmas.LayoutEnc

namespace Epc
open Spec

theorem C66_cage_encode (s : Str) (h : ∀ c ∈ s, c.toNat < 256) :
    encodeCageCode s = s.flatMap (fun c => bitsOf 8 c.toNat) ∧ (encodeCageCode s).length = 8 * s.length := by
  have e : encodeCageCode s = s.flatMap (fun c => bitsOf 8 c.toNat) := by
    rw [encodeCage_eq]
    unfold code8
    induction s with
    | nil => rfl
    | cons c t ih => rw [List.flatMap_cons, List.flatMap_cons, ih fun x hx => h x (.tail _ hx), bin_bitsOf (by decide) (h c (.head _))]
  refine ⟨e, ?_⟩
  rw [e]
  clear e h
  induction s with
  | nil => rfl
  | cons c t ih => rw [List.flatMap_cons, List.length_append, ih, length_bitsOf, List.length_cons]; omega

/-- `k` whole groups and `r` further bits. -/
theorem C66_cage_decode (b : Str) (k r : Nat) (hb : Bits b) (hl : b.length = 8 * k + r) (hr : r < 8) :
    decodeCageCode b = .ok ((byteText b 0 k ++ if r = 0 then [] else [Char.ofNat (bitField b (8 * k) r)]).filter (· ≠ ' ')) := by
  have key : ∀ k lo, b.length = lo + 8 * k + r →
      ∃ ps : List Str, (splitCap (bitsLen 8) (b.drop lo)).mapM (fun g =>
        if g = [] then (.ok [] : Except Err Str) else do
          let i ← pyInt 2 g
          let c ← chr i
          return [c]) = .ok ps ∧ ps.flatten = byteText b lo k ++ if r = 0 then [] else [Char.ofNat (bitField b (lo + 8 * k) r)] := by
    intro k
    induction k with
    | zero =>
      intro lo hl
      have hs : (b.drop lo).length = r := by rw [List.length_drop]; omega
      rw [splitCap_short (by omega)]
      by_cases h0 : r = 0
      · subst h0
        rw [List.length_eq_zero_iff.1 hs]
        exact ⟨[[]], by decide, by simp [byteText]⟩
      · have hne : b.drop lo ≠ [] := fun e => by rw [e] at hs; simp at hs; omega
        have hbits := bits_drop hb lo
        have hlt := bitField_lt hb (lo := lo) (k := r) (by omega)
        have hf : (b.drop lo).take r = b.drop lo := List.take_of_length_le (by omega)
        have hlt' : bitField b lo r < 256 := Nat.lt_of_lt_of_le hlt (Nat.pow_le_pow_right (by decide) (by omega : r ≤ 8))
        have hi : pyInt 2 (b.drop lo) = .ok (bitField b lo r : Int) := by
          unfold bitField; rw [hf]; exact binaryToInt_bits hbits hne
        refine ⟨[[Char.ofNat (bitField b lo r)]], mapM_cons_ok ?_ rfl, by simp [byteText, h0]⟩
        rw [if_neg hne, hi, ok_bind, chr_byte hlt', ok_bind, pure_ok]
    | succ k ih =>
      intro lo hl
      obtain ⟨ps, e1, e2⟩ := ih (lo + 8) (by omega)
      have hb8 : ((b.drop lo).take 8).length = 7 + 1 := field_length (by omega)
      have hbits : Bits ((b.drop lo).take 8) := bits_take (bits_drop hb lo) 8
      have hlt := bitField_lt hb (lo := lo) (k := 8) (by omega)
      have hsp : b.drop lo = (b.drop lo).take 8 ++ b.drop (lo + 8) := by
        rw [← List.drop_drop]; exact (List.take_append_drop _ _).symm
      refine ⟨[] :: [Char.ofNat (bitField b lo 8)] :: ps, ?_, ?_⟩
      · rw [hsp, splitCap_chunk hb8 (isBit_of_Bits hbits)]
        refine mapM_cons_ok (if_pos rfl) (mapM_cons_ok ?_ e1)
        have hi : pyInt 2 ((b.drop lo).take 8) = .ok (bitField b lo 8 : Int) := binaryToInt_bits hbits (ne_nil_of_length hb8 (by decide))
        rw [if_neg (ne_nil_of_length hb8 (by decide)), hi, ok_bind, chr_byte (by omega), ok_bind, pure_ok]
      · rw [List.flatten_cons, List.flatten_cons, e2, byteText, show lo + 8 + 8 * k = lo + 8 * (k + 1) by omega]; rfl
  obtain ⟨ps, e1, e2⟩ := key k 0 (by omega)
  rw [List.drop_zero] at e1
  rw [Nat.zero_add] at e2
  unfold decodeCageCode
  rw [e1, ok_bind, e2, pure_ok, show py " " = [' '] from rfl, replaceAll_char, flatMap_remove]

example : encodeCageCode (py " 2S194") = py "001000000011001001010011001100010011100100110100" ∧
    decodeCageCode (py "001000000011001001010011001100010011100100110100") = .ok (py "2S194") ∧
    decodeCageCode (py "0011001000111001001") = .ok (py "29" ++ [Char.ofNat 1]) := by decide +kernel

private theorem byteText_drop (a b : Str) (k : Nat) : ∀ lo, byteText (a ++ b) (a.length + lo) k = byteText b lo k := by
  induction k with
  | zero => intro lo; rfl
  | succ k ih =>
    intro lo
    rw [byteText, byteText, show a.length + lo + 8 = a.length + (lo + 8) by omega, ih]
    unfold bitField
    rw [← List.drop_drop, List.drop_left]

private theorem byteText_bitsOf (s : Str) (h : ∀ c ∈ s, c.toNat < 256) : byteText (s.flatMap (fun c => bitsOf 8 c.toNat)) 0 s.length = s := by
  induction s with
  | nil => rfl
  | cons c t ih =>
    have hf : bitField (bitsOf 8 c.toNat ++ t.flatMap (fun c => bitsOf 8 c.toNat)) 0 8 = c.toNat := by
      unfold bitField
      rw [List.drop_zero, take_append_eq (length_bitsOf 8 c.toNat), bitsNumber_bitsOf, Nat.mod_eq_of_lt (h c (.head _))]
    have hd := byteText_drop (bitsOf 8 c.toNat) (t.flatMap fun c => bitsOf 8 c.toNat) t.length 0
    rw [length_bitsOf] at hd
    rw [List.flatMap_cons, List.length_cons, byteText, hf, Nat.zero_add, Char.ofNat_toNat]
    rw [show 8 + 0 = 8 from rfl] at hd
    rw [hd, ih fun x hx => h x (.tail _ hx)]

theorem C66_cage_roundtrip (s : Str) (h : ∀ c ∈ s, c.toNat < 256) :
    decodeCageCode (encodeCageCode s) = .ok (s.filter (· ≠ ' ')) := by
  obtain ⟨e, hl⟩ := C66_cage_encode s h
  have hb : Bits (encodeCageCode s) := by rw [encodeCage_eq]; exact Bits_code8 s
  rw [C66_cage_decode _ s.length 0 hb (by omega) (by decide), if_pos rfl, List.append_nil, e, byteText_bitsOf s h]

example : decodeCageCode (encodeCageCode (py "  a b é")) = .ok (py "abé") := by decide +kernel

theorem C66_cage_six_bits (C : Str) (h : CageCode C) :
    encodeCageCodeSixBits C = .ok ((if C.length = 5 then py "100000" else []) ++ sixBits C) ∧
    ((if C.length = 5 then py "100000" else []) ++ sixBits C).length = 36 ∧
    decodeCageCodeSixBits ((if C.length = 5 then py "100000" else []) ++ sixBits C) = .ok C := by
  have hL := cageCode_iff.1 h
  obtain ⟨b, e1, _, e3, e4⟩ := cage_six hL
  obtain ⟨hl, hc⟩ := (lang_cage C).1 hL
  have hg : ∀ c ∈ C, c ∈ gs39 := fun c h => (isCage_facts (hc c h)).1
  have he := encodeSix_escape hg
  rw [escape39_cage hc] at he
  have ht : sliceToI (code6 C ++ py "000000") (-6) = code6 C := by
    rw [show (-6 : Int) = -((6 : Nat) : Int) from rfl, sliceToI_neg _ _ (by decide) (by simp)]
    exact take_append_eq (by simp)
  have hlc := length_code6 C
  have hb : b = (if C.length = 5 then py "100000" else []) ++ sixBits C := by
    unfold encodeCageCodeSixBits at e1
    rw [he, ok_bind, ht, pure_ok] at e1
    injection e1 with e1
    rw [← e1, ← code6_sixBits hg]
    by_cases h5 : C.length = 5
    · rw [if_pos (by omega), if_pos h5]
    · rw [if_neg (by omega), if_neg h5]; rfl
  subst hb
  exact ⟨e1, e3, e4⟩

example : CageCode (py "2S194") ∧ CageCode (py "W81X1C") ∧
    encodeCageCodeSixBits (py "2S194") = .ok (py "100000110010010011110001111001110100") ∧
    encodeCageCodeSixBits (py "W81X1C") = .ok (py "010111111000110001011000110001000011") := by
  unfold CageCode
  decide +kernel

theorem C66_binary_char (b : Str) (hb : Bits b) (hl : b.length = 7) :
    decodeBinaryChar b = .ok (if bitsNumber b = 0 then [] else escChar (Char.ofNat (bitsNumber b))) := by
  have key : ∀ n : Fin 128, decodeBinaryChar (bin 7 n) = .ok (if n.val = 0 then [] else escChar (Char.ofNat n)) := by decide +kernel
  have hlt : bitsNumber b < 128 := by
    have := bitField_lt hb (lo := 0) (k := 7) (by omega)
    unfold bitField at this
    rwa [List.drop_zero, List.take_of_length_le (by omega)] at this
  have := key ⟨bitsNumber b, hlt⟩
  dsimp only at this
  rwa [bin_bitsNumber hb hl (by decide)] at this

example : decodeBinaryChar (py "1000001") = .ok (py "A") ∧ decodeBinaryChar (py "0100101") = .ok (py "%25") ∧
    decodeBinaryChar (py "0000000") = .ok [] := by decide +kernel

theorem C66_cpi_escapes (s : Str) :
    CPI.revertCpiEscapes s = s.flatMap (fun c => if c = '#' then py "%23" else if c = '/' then py "%2F" else [c]) ∧
    ('%' ∉ s → CPI.replaceCpiEscapes (CPI.revertCpiEscapes s) = s) := by
  have e : CPI.revertCpiEscapes s = escape39 s := replace39 s
  refine ⟨e, fun h => ?_⟩
  rw [e]
  exact replaceCpi_escape39' fun c hc e => h (e ▸ hc)

example : CPI.revertCpiEscapes (py "5PQ7/Z#43") = py "5PQ7%2FZ%2343" ∧ CPI.replaceCpiEscapes (py "5PQ7%2FZ%2343") = py "5PQ7/Z#43" := by
  decide +kernel

/-- A text with percent signs may change. -/
example : CPI.replaceCpiEscapes (CPI.revertCpiEscapes (py "%23")) = py "#" := by decide +kernel

end Epc
