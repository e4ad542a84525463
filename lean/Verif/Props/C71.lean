/-
C71: reading a tag and writing it again changes only unused bits.

If a binary encoding is decoded to an object, the binary encoding of the object, for the coding scheme and the filter value found in the bits,
is the same bit string, up to its size, except for bits that carry no information: the reference bits if the company prefix has twelve digits and
the reference none, groups of seven zeros before or between the characters of a text, and the blanks around and in a CAGE code.  Each theorem
says which bits come back.  (The encodings SGTIN-96, SSCC-96, GSRN-96, GSRNP-96, GIAI-96, CPI-96 and GID-96 are in C30.)
Generated by tools/gen_c71.py.
-/
import Verif.Props.C55
import Verif.Props.C56
import Verif.Props.C64
import Verif.Lemmas.Rewrite

namespace Epc
open Spec Re

theorem hdr_bits {b : Str} {h : Nat} {s : Str} (hb : b.take 8 = s) (e : bitsOf 8 h = s) : bitsOf 8 h = b.take 8 := e.trans hb.symm

theorem join_one (s : Str) : joinWith '.' [s] = s := rfl

theorem layout_one (w n : Nat) : layout [(w, n)] = bitsOf w n := by
  rw [layout_cons]; exact List.append_nil _

/-- A text stays as it is exactly if no group of seven zeros stands before a group that is not zero. -/
theorem C71_text {b : Str} {lo k : Nat} (hB : Bits b) (hl : lo + 7 * k ≤ b.length) :
    compactText b lo k (7 * k) = (b.drop lo).take (7 * k) ↔
      ∀ i j, i < j → j < k → bitField b (lo + 7 * i) 7 = 0 → bitField b (lo + 7 * j) 7 = 0 :=
  compact_iff hB k lo hl

/-- The key fields stay as they are exactly if the bits of a reference without digits are zero. -/
theorem C71_key {b : Str} {W : Nat} (hB : Bits b) (hW : 43 ≤ W) (hl : 11 + W ≤ b.length) :
    usedKeyBits b W = b.take (11 + W) ↔ (bitField b 11 3 = 0 → bitField b 54 (W - 43) = 0) := by
  unfold usedKeyBits
  by_cases h : bitField b 11 3 = 0
  · rw [if_pos h, show 11 + W = 54 + (W - 43) by omega, ← take_add_field b 54, List.append_cancel_left_eq, ← bitsOf_zero,
      ← bitsOf_bitField hB (by omega)]
    constructor
    · intro e _
      have := congrArg bitsNumber e
      rw [bitsNumber_bitsOf, bitsNumber_bitsOf, Nat.zero_mod, Nat.mod_eq_of_lt (bitField_lt hB (by omega))] at this
      exact this.symm
    · exact fun e => by rw [e h]
  · rw [if_neg h]
    exact ⟨fun _ h' => absurd h' h, fun _ => rfl⟩

/-- SGLN-96. -/
theorem C71_sgln96 (b : Str) (x : SGLN) (hB : Bits b) (hb : b.take 8 = py "00110010") (hx : SGLN.fromBinary b = .ok x) :
    ∃ f : Fin 8, f.val = bitField b 8 3 ∧ x.binary .sgln96 f = .ok (usedKeyBits b 44 ++ (b.drop 55).take 41) := by
  by_cases hl : 96 ≤ b.length
  case neg => rw [C28_sgln96 b hb (by omega)] at hx; cases hx
  refine ⟨⟨_, bitField_lt hB (lo := 8) (k := 3) (by omega)⟩, rfl, ?_⟩
  have H := C52_sgln96 hB hb hl
  by_cases hK : ∃ C D, KeyFields b 44 (fun p => p) C D
  case neg => rw [H.2 hK] at hx; cases hx
  obtain ⟨C, D, hF⟩ := hK
  have hP : Plain (bitField b 55 41) (natStr (bitField b 55 41)) := plain_iff.2 rfl
  have hlt := bitField_lt hB (lo := 55) (k := 41) (by omega)
  obtain ⟨y, hy, hu⟩ := H.1 C D _ hF hP
  rw [hx] at hy; cases hy
  obtain ⟨p, hp, hC, hCl, hCne, hD, hDl⟩ := keyFields_facts hF
  obtain ⟨u, hn⟩ := SGLN.fromBinary_made b x hx
  have hn' := hn
  obtain ⟨C', D', S', ⟨hC', hD', hS'⟩, -, eu, rfl⟩ := SGLN.new_iff.1 hn
  dsimp only at hu
  obtain ⟨rfl, rfl, rfl⟩ := uri3_inj (q := py "urn:epc:id:sgln") hC'.2.no_dot hD'.no_dot (dec_digits hC).no_dot (dec_digits hD).no_dot (eu.symm.trans hu)
  have ht := fun f => (C17_sgln _ _ f (by rw [hu] at hn'; exact hn')).1 ⟨hP.1, Nat.lt_of_le_of_lt (Nat.le_of_eq hP.2) hlt⟩
  have hau : Ascii u := by
    rw [hu]
    exact ascii_append.2 ⟨by decide, ascii_append.2 ⟨ascii_of_digits hC, ascii_cons.2 ⟨by decide, ascii_append.2 ⟨ascii_of_digits hD, ascii_cons.2 ⟨by decide, ascii_of_digits (Digits_natStr _)⟩⟩⟩⟩⟩
  have hh := hdr_bits (h := 50) hb (by decide)
  rw [C56_sgln96 hau hn' (ht _)]
  dsimp only
  rw [layout_key_zero hB (W := 44) hh rfl hF (by decide) (by omega), layout_one, join_one, hP.2, bitsOf_bitField hB (by omega)]

/-- GRAI-96. -/
theorem C71_grai96 (b : Str) (x : GRAI) (hB : Bits b) (hb : b.take 8 = py "00110011") (hx : GRAI.fromBinary b = .ok x) :
    ∃ f : Fin 8, f.val = bitField b 8 3 ∧ x.binary .grai96 f = .ok (usedKeyBits b 47 ++ (b.drop 58).take 38) := by
  by_cases hl : 96 ≤ b.length
  case neg => rw [C28_grai96 b hb (by omega)] at hx; cases hx
  refine ⟨⟨_, bitField_lt hB (lo := 8) (k := 3) (by omega)⟩, rfl, ?_⟩
  have H := C52_grai96 hB hb hl
  by_cases hK : ∃ C D, KeyFields b 47 (fun p => p) C D
  case neg => rw [H.2 hK] at hx; cases hx
  obtain ⟨C, D, hF⟩ := hK
  have hP : Plain (bitField b 58 38) (natStr (bitField b 58 38)) := plain_iff.2 rfl
  have hlt := bitField_lt hB (lo := 58) (k := 38) (by omega)
  obtain ⟨y, hy, hu⟩ := H.1 C D _ hF hP
  rw [hx] at hy; cases hy
  obtain ⟨p, hp, hC, hCl, hCne, hD, hDl⟩ := keyFields_facts hF
  obtain ⟨u, hn⟩ := GRAI.fromBinary_made b x hx
  have hn' := hn
  obtain ⟨C', D', S', ⟨hC', hD', hS'⟩, -, eu, rfl⟩ := GRAI.new_iff.1 hn
  dsimp only at hu
  obtain ⟨rfl, rfl, rfl⟩ := uri3_inj (q := py "urn:epc:id:grai") hC'.2.no_dot hD'.no_dot (dec_digits hC).no_dot (dec_digits hD).no_dot (eu.symm.trans hu)
  have ht := fun f => (C17_grai _ _ f (by rw [hu] at hn'; exact hn')).1 ⟨hP.1, Nat.lt_of_le_of_lt (Nat.le_of_eq hP.2) hlt⟩
  have hau : Ascii u := by
    rw [hu]
    exact ascii_append.2 ⟨by decide, ascii_append.2 ⟨ascii_of_digits hC, ascii_cons.2 ⟨by decide, ascii_append.2 ⟨ascii_of_digits hD, ascii_cons.2 ⟨by decide, ascii_of_digits (Digits_natStr _)⟩⟩⟩⟩⟩
  have hh := hdr_bits (h := 51) hb (by decide)
  rw [C56_grai96 hau hn' (ht _)]
  dsimp only
  rw [layout_key_zero hB (W := 47) hh rfl hF (by decide) (by omega), layout_one, join_one, hP.2, bitsOf_bitField hB (by omega)]

/-- GDTI-96. -/
theorem C71_gdti96 (b : Str) (x : GDTI) (hB : Bits b) (hb : b.take 8 = py "00101100") (hx : GDTI.fromBinary b = .ok x) :
    ∃ f : Fin 8, f.val = bitField b 8 3 ∧ x.binary .gdti96 f = .ok (usedKeyBits b 44 ++ (b.drop 55).take 41) := by
  by_cases hl : 96 ≤ b.length
  case neg => rw [C28_gdti96 b hb (by omega)] at hx; cases hx
  refine ⟨⟨_, bitField_lt hB (lo := 8) (k := 3) (by omega)⟩, rfl, ?_⟩
  have H := C52_gdti96 hB hb hl
  by_cases hK : ∃ C D, KeyFields b 44 (fun p => p) C D
  case neg => rw [H.2 hK] at hx; cases hx
  obtain ⟨C, D, hF⟩ := hK
  have hP : Plain (bitField b 55 41) (natStr (bitField b 55 41)) := plain_iff.2 rfl
  have hlt := bitField_lt hB (lo := 55) (k := 41) (by omega)
  obtain ⟨y, hy, hu⟩ := H.1 C D _ hF hP
  rw [hx] at hy; cases hy
  obtain ⟨p, hp, hC, hCl, hCne, hD, hDl⟩ := keyFields_facts hF
  obtain ⟨u, hn⟩ := GDTI.fromBinary_made b x hx
  have hn' := hn
  obtain ⟨C', D', S', ⟨hC', hD', hS'⟩, -, eu, rfl⟩ := GDTI.new_iff.1 hn
  dsimp only at hu
  obtain ⟨rfl, rfl, rfl⟩ := uri3_inj (q := py "urn:epc:id:gdti") hC'.2.no_dot hD'.no_dot (dec_digits hC).no_dot (dec_digits hD).no_dot (eu.symm.trans hu)
  have ht := fun f => (C17_gdti _ _ f (by rw [hu] at hn'; exact hn')).1 ⟨hP.1, Nat.lt_of_le_of_lt (Nat.le_of_eq hP.2) hlt⟩
  have hau : Ascii u := by
    rw [hu]
    exact ascii_append.2 ⟨by decide, ascii_append.2 ⟨ascii_of_digits hC, ascii_cons.2 ⟨by decide, ascii_append.2 ⟨ascii_of_digits hD, ascii_cons.2 ⟨by decide, ascii_of_digits (Digits_natStr _)⟩⟩⟩⟩⟩
  have hh := hdr_bits (h := 44) hb (by decide)
  rw [C56_gdti96 hau hn' (ht _)]
  dsimp only
  rw [layout_key_zero hB (W := 44) hh rfl hF (by decide) (by omega), layout_one, join_one, hP.2, bitsOf_bitField hB (by omega)]

/-- SGTIN-198. -/
theorem C71_sgtin198 (b : Str) (x : SGTIN) (hB : Bits b) (hb : b.take 8 = py "00110110") (hx : SGTIN.fromBinary b = .ok x) :
    ∃ f : Fin 8, f.val = bitField b 8 3 ∧ x.binary .sgtin198 f = .ok (b.take 58 ++ compactText b 58 20 140) := by
  by_cases hl : 198 ≤ b.length
  case neg => rw [C28_sgtin198 b hb (by omega)] at hx; cases hx
  refine ⟨⟨_, bitField_lt hB (lo := 8) (k := 3) (by omega)⟩, rfl, ?_⟩
  have H := C53_sgtin198 hB hb hl
  by_cases hK : ∃ C D, KeyFields b 47 (fun p => p + 1) C D
  case neg => rw [H.2 hK] at hx; cases hx
  obtain ⟨C, D, hF⟩ := hK
  obtain ⟨h1, h2, h3⟩ := H.1 C D _ hF rfl
  by_cases hr : (∀ c ∈ sevenText b 58 20, c ∈ gs82) ∧ sevenText b 58 20 ≠ []
  case neg => rw [h2 hr] at hx; cases hx
  by_cases hlo : LoneLetterEscapes (sevenText b 58 20)
  case neg => obtain ⟨e, he, -⟩ := h3 hlo; rw [he] at hx; cases hx
  obtain ⟨y, hy, hu⟩ := h1 hr.1 hr.2 hlo
  rw [hx] at hy; cases hy
  obtain ⟨p, hp, hC, hCl, hCne, hD, hDl⟩ := keyFields_facts hF
  obtain ⟨u, hn⟩ := SGTIN.fromBinary_made b x hx
  have hn' := hn
  obtain ⟨C', D', S', ⟨hC', hD', hS'⟩, -, eu, rfl⟩ := SGTIN.new_iff.1 hn
  dsimp only at hu
  obtain ⟨rfl, rfl, rfl⟩ := uri3_inj (q := py "urn:epc:id:sgtin") hC'.2.no_dot hD'.2.no_dot (dec_digits hC).no_dot (dec_digits hD).no_dot (eu.symm.trans hu)
  have hau : Ascii u := by
    rw [hu]
    exact ascii_append.2 ⟨by decide, ascii_append.2 ⟨ascii_of_digits hC, ascii_cons.2 ⟨by decide, ascii_append.2 ⟨ascii_of_digits hD, ascii_cons.2 ⟨by decide, gs3a3_ascii hS'⟩⟩⟩⟩⟩
  have hh := hdr_bits (h := 54) hb (by decide)
  rw [C56_sgtin198 hau hn' hr.1 rfl]
  dsimp only
  rw [List.append_assoc (_ ++ _), layout_key hB (W := 47) hh rfl hF (fun _ => by omega) (by decide) (by omega), layout_text_fill]
  rfl

/-- SGLN-195. -/
theorem C71_sgln195 (b : Str) (x : SGLN) (hB : Bits b) (hb : b.take 8 = py "00111001") (hx : SGLN.fromBinary b = .ok x) :
    ∃ f : Fin 8, f.val = bitField b 8 3 ∧ x.binary .sgln195 f = .ok (usedKeyBits b 44 ++ compactText b 55 20 140) := by
  by_cases hl : 195 ≤ b.length
  case neg => rw [C28_sgln195 b hb (by omega)] at hx; cases hx
  refine ⟨⟨_, bitField_lt hB (lo := 8) (k := 3) (by omega)⟩, rfl, ?_⟩
  have H := C53_sgln195 hB hb hl
  by_cases hK : ∃ C D, KeyFields b 44 (fun p => p) C D
  case neg => rw [H.2 hK] at hx; cases hx
  obtain ⟨C, D, hF⟩ := hK
  obtain ⟨h1, h2, h3⟩ := H.1 C D _ hF rfl
  by_cases hr : (∀ c ∈ sevenText b 55 20, c ∈ gs82) ∧ sevenText b 55 20 ≠ []
  case neg => rw [h2 hr] at hx; cases hx
  by_cases hlo : LoneLetterEscapes (sevenText b 55 20)
  case neg => obtain ⟨e, he, -⟩ := h3 hlo; rw [he] at hx; cases hx
  obtain ⟨y, hy, hu⟩ := h1 hr.1 hr.2 hlo
  rw [hx] at hy; cases hy
  obtain ⟨p, hp, hC, hCl, hCne, hD, hDl⟩ := keyFields_facts hF
  obtain ⟨u, hn⟩ := SGLN.fromBinary_made b x hx
  have hn' := hn
  obtain ⟨C', D', S', ⟨hC', hD', hS'⟩, -, eu, rfl⟩ := SGLN.new_iff.1 hn
  dsimp only at hu
  obtain ⟨rfl, rfl, rfl⟩ := uri3_inj (q := py "urn:epc:id:sgln") hC'.2.no_dot hD'.no_dot (dec_digits hC).no_dot (dec_digits hD).no_dot (eu.symm.trans hu)
  have hau : Ascii u := by
    rw [hu]
    exact ascii_append.2 ⟨by decide, ascii_append.2 ⟨ascii_of_digits hC, ascii_cons.2 ⟨by decide, ascii_append.2 ⟨ascii_of_digits hD, ascii_cons.2 ⟨by decide, gs3a3_ascii hS'⟩⟩⟩⟩⟩
  have hh := hdr_bits (h := 57) hb (by decide)
  rw [C56_sgln195 hau hn' hr.1 rfl]
  dsimp only
  rw [List.append_assoc (_ ++ _), layout_key_zero hB (W := 44) hh rfl hF (by decide) (by omega), layout_text_fill]
  rfl

/-- GRAI-170. -/
theorem C71_grai170 (b : Str) (x : GRAI) (hB : Bits b) (hb : b.take 8 = py "00110111") (hx : GRAI.fromBinary b = .ok x) :
    ∃ f : Fin 8, f.val = bitField b 8 3 ∧ x.binary .grai170 f = .ok (usedKeyBits b 47 ++ compactText b 58 16 112) := by
  by_cases hl : 170 ≤ b.length
  case neg => rw [C28_grai170 b hb (by omega)] at hx; cases hx
  refine ⟨⟨_, bitField_lt hB (lo := 8) (k := 3) (by omega)⟩, rfl, ?_⟩
  have H := C53_grai170 hB hb hl
  by_cases hK : ∃ C D, KeyFields b 47 (fun p => p) C D
  case neg => rw [H.2 hK] at hx; cases hx
  obtain ⟨C, D, hF⟩ := hK
  obtain ⟨h1, h2, h3⟩ := H.1 C D _ hF rfl
  by_cases hr : (∀ c ∈ sevenText b 58 16, c ∈ gs82) ∧ sevenText b 58 16 ≠ [] ∧ (LoneLetterEscapes (sevenText b 58 16) → (escape (sevenText b 58 16)).length ≤ 16)
  case neg => rw [h2 hr] at hx; cases hx
  by_cases hlo : LoneLetterEscapes (sevenText b 58 16)
  case neg => obtain ⟨e, he, -⟩ := h3 hlo; rw [he] at hx; cases hx
  obtain ⟨y, hy, hu⟩ := h1 hr.1 hr.2.1 hlo (hr.2.2 hlo)
  rw [hx] at hy; cases hy
  obtain ⟨p, hp, hC, hCl, hCne, hD, hDl⟩ := keyFields_facts hF
  obtain ⟨u, hn⟩ := GRAI.fromBinary_made b x hx
  have hn' := hn
  obtain ⟨C', D', S', ⟨hC', hD', hS'⟩, -, eu, rfl⟩ := GRAI.new_iff.1 hn
  dsimp only at hu
  obtain ⟨rfl, rfl, rfl⟩ := uri3_inj (q := py "urn:epc:id:grai") hC'.2.no_dot hD'.no_dot (dec_digits hC).no_dot (dec_digits hD).no_dot (eu.symm.trans hu)
  have hau : Ascii u := by
    rw [hu]
    exact ascii_append.2 ⟨by decide, ascii_append.2 ⟨ascii_of_digits hC, ascii_cons.2 ⟨by decide, ascii_append.2 ⟨ascii_of_digits hD, ascii_cons.2 ⟨by decide, gs3a3_ascii hS'⟩⟩⟩⟩⟩
  have hh := hdr_bits (h := 55) hb (by decide)
  rw [C56_grai170 hau hn' hr.1 rfl]
  dsimp only
  rw [List.append_assoc (_ ++ _), layout_key_zero hB (W := 47) hh rfl hF (by decide) (by omega), layout_text_fill]
  rfl

/-- GDTI-174. -/
theorem C71_gdti174 (b : Str) (x : GDTI) (hB : Bits b) (hb : b.take 8 = py "00111110") (hx : GDTI.fromBinary b = .ok x) :
    ∃ f : Fin 8, f.val = bitField b 8 3 ∧ x.binary .gdti174 f = .ok (usedKeyBits b 44 ++ compactText b 55 17 119) := by
  by_cases hl : 174 ≤ b.length
  case neg => rw [C28_gdti174 b hb (by omega)] at hx; cases hx
  refine ⟨⟨_, bitField_lt hB (lo := 8) (k := 3) (by omega)⟩, rfl, ?_⟩
  have H := C53_gdti174 hB hb hl
  by_cases hK : ∃ C D, KeyFields b 44 (fun p => p) C D
  case neg => rw [H.2 hK] at hx; cases hx
  obtain ⟨C, D, hF⟩ := hK
  obtain ⟨h1, h2, h3⟩ := H.1 C D _ hF rfl
  by_cases hr : (∀ c ∈ sevenText b 55 17, c ∈ gs82) ∧ sevenText b 55 17 ≠ [] ∧ (LoneLetterEscapes (sevenText b 55 17) → (escape (sevenText b 55 17)).length ≤ 17)
  case neg => rw [h2 hr] at hx; cases hx
  by_cases hlo : LoneLetterEscapes (sevenText b 55 17)
  case neg => obtain ⟨e, he, -⟩ := h3 hlo; rw [he] at hx; cases hx
  obtain ⟨y, hy, hu⟩ := h1 hr.1 hr.2.1 hlo (hr.2.2 hlo)
  rw [hx] at hy; cases hy
  obtain ⟨p, hp, hC, hCl, hCne, hD, hDl⟩ := keyFields_facts hF
  obtain ⟨u, hn⟩ := GDTI.fromBinary_made b x hx
  have hn' := hn
  obtain ⟨C', D', S', ⟨hC', hD', hS'⟩, -, eu, rfl⟩ := GDTI.new_iff.1 hn
  dsimp only at hu
  obtain ⟨rfl, rfl, rfl⟩ := uri3_inj (q := py "urn:epc:id:gdti") hC'.2.no_dot hD'.no_dot (dec_digits hC).no_dot (dec_digits hD).no_dot (eu.symm.trans hu)
  have hau : Ascii u := by
    rw [hu]
    exact ascii_append.2 ⟨by decide, ascii_append.2 ⟨ascii_of_digits hC, ascii_cons.2 ⟨by decide, ascii_append.2 ⟨ascii_of_digits hD, ascii_cons.2 ⟨by decide, gs3a3_ascii hS'⟩⟩⟩⟩⟩
  have hh := hdr_bits (h := 62) hb (by decide)
  rw [C56_gdti174 hau hn' hr.1 rfl]
  dsimp only
  rw [List.append_assoc (_ ++ _), layout_key_zero hB (W := 44) hh rfl hF (by decide) (by omega), layout_text_fill]
  rfl

/-- SGCN-96. -/
theorem C71_sgcn96 (b : Str) (x : SGCN) (hB : Bits b) (hb : b.take 8 = py "00111111") (hx : SGCN.fromBinary b = .ok x) :
    ∃ f : Fin 8, f.val = bitField b 8 3 ∧ x.binary .sgcn96 f = .ok (usedKeyBits b 44 ++ (b.drop 55).take 41) := by
  by_cases hl : 96 ≤ b.length
  case neg => rw [C28_sgcn96 b hb (by omega)] at hx; cases hx
  refine ⟨⟨_, bitField_lt hB (lo := 8) (k := 3) (by omega)⟩, rfl, ?_⟩
  have H := C52_sgcn96 hB hb hl
  by_cases hK : (∃ C D, KeyFields b 44 (fun p => p) C D) ∧ ∃ S, Digits S ∧ S ≠ [] ∧ number ('1' :: S) = bitField b 55 41
  case neg => rw [H.2 hK] at hx; cases hx
  obtain ⟨⟨C, D, hF⟩, S, hS, hSne, hSv⟩ := hK
  obtain ⟨y, hy, hu⟩ := H.1 C D S hF hS hSne hSv
  rw [hx] at hy; cases hy
  obtain ⟨p, hp, hC, hCl, hCne, hD, hDl⟩ := keyFields_facts hF
  obtain ⟨u, hn⟩ := SGCN.fromBinary_made b x hx
  have hn' := hn
  obtain ⟨C', D', S', ⟨hC', hD', hS'⟩, -, eu, rfl⟩ := SGCN.new_iff.1 hn
  dsimp only at hu
  obtain ⟨rfl, rfl, rfl⟩ := uri3_inj (q := py "urn:epc:id:sgcn") hC'.2.no_dot hD'.no_dot (dec_digits hC).no_dot (dec_digits hD).no_dot (eu.symm.trans hu)
  have hau : Ascii u := by
    rw [hu]
    exact ascii_append.2 ⟨by decide, ascii_append.2 ⟨ascii_of_digits hC, ascii_cons.2 ⟨by decide, ascii_append.2 ⟨ascii_of_digits hD, ascii_cons.2 ⟨by decide, ascii_of_digits hS⟩⟩⟩⟩⟩
  have hh := hdr_bits (h := 63) hb (by decide)
  rw [C56_sgcn96 hau hn']
  dsimp only
  rw [layout_key_zero hB (W := 44) hh rfl hF (by decide) (by omega), layout_one, hSv, bitsOf_bitField hB (by omega)]

/-- ITIP-110; a piece or total of 99 cannot be written (C64). -/
theorem C71_itip110 (b : Str) (x : ITIP) (hB : Bits b) (hb : b.take 8 = py "01000000") (hx : ITIP.fromBinary b = .ok x)
    (h99 : number x.piece < 99 ∧ number x.total < 99) :
    ∃ f : Fin 8, f.val = bitField b 8 3 ∧ x.binary .itip110 f = .ok (b.take 110) := by
  by_cases hl : 110 ≤ b.length
  case neg => rw [C28_itip110 b hb (by omega)] at hx; cases hx
  refine ⟨⟨_, bitField_lt hB (lo := 8) (k := 3) (by omega)⟩, rfl, ?_⟩
  have H := C52_itip110 hB hb hl
  by_cases hK : (∃ C D, KeyFields b 47 (fun p => p + 1) C D) ∧ bitField b 58 7 ≤ 99 ∧ bitField b 65 7 ≤ 99
  case neg => rw [H.2 hK] at hx; cases hx
  obtain ⟨⟨C, D, hF⟩, hP99, hT99⟩ := hK
  have hA : Padded 2 (bitField b 58 7) (padLeft '0' 2 (natStr (bitField b 58 7))) := padded_two hP99
  have hT : Padded 2 (bitField b 65 7) (padLeft '0' 2 (natStr (bitField b 65 7))) := padded_two hT99
  have hP : Plain (bitField b 72 38) (natStr (bitField b 72 38)) := plain_iff.2 rfl
  have hlt := bitField_lt hB (lo := 72) (k := 38) (by omega)
  obtain ⟨y, hy, hu⟩ := H.1 C D _ _ _ hF hA hT hP
  rw [hx] at hy; cases hy
  obtain ⟨p, hp, hC, hCl, hCne, hD, hDl⟩ := keyFields_facts hF
  obtain ⟨u, hn⟩ := ITIP.fromBinary_made b x hx
  have hn' := hn
  obtain ⟨C', D', A', T', S', ⟨hC', hD', hA', hT', hS'⟩, hlen, eu, rfl⟩ := ITIP.new_iff.1 hn
  dsimp only at hu h99 ⊢
  obtain ⟨rfl, rfl, e3⟩ := uri3_inj (q := py "urn:epc:id:itip") hC'.2.no_dot hD'.2.no_dot (dec_digits hC).no_dot (dec_digits hD).no_dot (eu.symm.trans hu)
  obtain ⟨rfl, rfl, rfl⟩ := uri3_inj (q := []) (a := A') (b := T') (a' := padLeft '0' 2 (natStr (bitField b 58 7)))
    (b' := padLeft '0' 2 (natStr (bitField b 65 7))) hA'.2.no_dot hT'.2.no_dot (dec_digits hA.1).no_dot (dec_digits hT.1).no_dot (congrArg (':' :: ·) e3)
  have hau : Ascii u := by
    rw [hu]
    exact ascii_append.2 ⟨by decide, ascii_append.2 ⟨ascii_of_digits hC, ascii_cons.2 ⟨by decide, ascii_append.2 ⟨ascii_of_digits hD, ascii_cons.2 ⟨by decide,
      ascii_append.2 ⟨ascii_of_digits hA.1, ascii_cons.2 ⟨by decide, ascii_append.2 ⟨ascii_of_digits hT.1, ascii_cons.2 ⟨by decide, gs3a3_ascii hS'⟩⟩⟩⟩⟩⟩⟩⟩⟩
  have hh := hdr_bits (h := 64) hb (by decide)
  have ht := fun f => (C17_itip _ _ f (by rw [hu] at hn'; exact hn')).1 ⟨hP.1, Nat.lt_of_le_of_lt (Nat.le_of_eq hP.2) hlt⟩
  rw [C56_itip110 hau hn' ⟨hA.2.1, h99.1⟩ ⟨hT.2.1, h99.2⟩ (ht _)]
  dsimp only
  rw [List.append_assoc (_ ++ _), layout_key hB (W := 47) hh rfl hF (fun _ => by omega) (by decide) (by omega), layout_append, layout_one, join_one, hP.2, bitsOf_bitField hB (by omega),
    layout_cons, layout_cons, hA.2.2, hT.2.2, bitsOf_bitField hB (by omega), bitsOf_bitField hB (by omega),
    show layout [] = [] from rfl, List.append_nil, ← List.append_assoc, ← List.append_assoc, take_add_field, take_add_field, take_add_field]

/-- ITIP-212; a piece or total of 99 cannot be written (C64). -/
theorem C71_itip212 (b : Str) (x : ITIP) (hB : Bits b) (hb : b.take 8 = py "01000001") (hx : ITIP.fromBinary b = .ok x)
    (h99 : number x.piece < 99 ∧ number x.total < 99) :
    ∃ f : Fin 8, f.val = bitField b 8 3 ∧ x.binary .itip212 f = .ok (b.take 72 ++ compactText b 72 20 140) := by
  by_cases hl : 212 ≤ b.length
  case neg => rw [C28_itip212 b hb (by omega)] at hx; cases hx
  refine ⟨⟨_, bitField_lt hB (lo := 8) (k := 3) (by omega)⟩, rfl, ?_⟩
  have H := C53_itip212 hB hb hl
  by_cases hK : (∃ C D, KeyFields b 47 (fun p => p + 1) C D) ∧ bitField b 58 7 ≤ 99 ∧ bitField b 65 7 ≤ 99
  case neg => rw [H.2 hK] at hx; cases hx
  obtain ⟨⟨C, D, hF⟩, hP99, hT99⟩ := hK
  have hA : Padded 2 (bitField b 58 7) (padLeft '0' 2 (natStr (bitField b 58 7))) := padded_two hP99
  have hT : Padded 2 (bitField b 65 7) (padLeft '0' 2 (natStr (bitField b 65 7))) := padded_two hT99
  obtain ⟨h1, h2, h3⟩ := H.1 C D _ _ _ hF hA hT rfl
  by_cases hr : (∀ c ∈ sevenText b 72 20, c ∈ gs82) ∧ sevenText b 72 20 ≠ []
  case neg => rw [h2 hr] at hx; cases hx
  by_cases hlo : LoneLetterEscapes (sevenText b 72 20)
  case neg => obtain ⟨e, he, -⟩ := h3 hlo; rw [he] at hx; cases hx
  obtain ⟨y, hy, hu⟩ := h1 hr.1 hr.2 hlo
  rw [hx] at hy; cases hy
  obtain ⟨p, hp, hC, hCl, hCne, hD, hDl⟩ := keyFields_facts hF
  obtain ⟨u, hn⟩ := ITIP.fromBinary_made b x hx
  have hn' := hn
  obtain ⟨C', D', A', T', S', ⟨hC', hD', hA', hT', hS'⟩, hlen, eu, rfl⟩ := ITIP.new_iff.1 hn
  dsimp only at hu h99 ⊢
  obtain ⟨rfl, rfl, e3⟩ := uri3_inj (q := py "urn:epc:id:itip") hC'.2.no_dot hD'.2.no_dot (dec_digits hC).no_dot (dec_digits hD).no_dot (eu.symm.trans hu)
  obtain ⟨rfl, rfl, rfl⟩ := uri3_inj (q := []) (a := A') (b := T') (a' := padLeft '0' 2 (natStr (bitField b 58 7)))
    (b' := padLeft '0' 2 (natStr (bitField b 65 7))) hA'.2.no_dot hT'.2.no_dot (dec_digits hA.1).no_dot (dec_digits hT.1).no_dot (congrArg (':' :: ·) e3)
  have hau : Ascii u := by
    rw [hu]
    exact ascii_append.2 ⟨by decide, ascii_append.2 ⟨ascii_of_digits hC, ascii_cons.2 ⟨by decide, ascii_append.2 ⟨ascii_of_digits hD, ascii_cons.2 ⟨by decide,
      ascii_append.2 ⟨ascii_of_digits hA.1, ascii_cons.2 ⟨by decide, ascii_append.2 ⟨ascii_of_digits hT.1, ascii_cons.2 ⟨by decide, gs3a3_ascii hS'⟩⟩⟩⟩⟩⟩⟩⟩⟩
  have hh := hdr_bits (h := 65) hb (by decide)
  rw [C56_itip212 hau hn' ⟨hA.2.1, h99.1⟩ ⟨hT.2.1, h99.2⟩ hr.1 rfl]
  dsimp only
  rw [List.append_assoc (_ ++ _ ++ _), List.append_assoc (_ ++ _), layout_key hB (W := 47) hh rfl hF (fun _ => by omega) (by decide) (by omega), layout_append, layout_text_fill,
    layout_cons, layout_cons, hA.2.2, hT.2.2, bitsOf_bitField hB (by omega), bitsOf_bitField hB (by omega),
    show layout [] = [] from rfl, List.append_nil, ← List.append_assoc, ← List.append_assoc, take_add_field, take_add_field]
  rfl

/-- USDOD-96: the CAGE code is written again at the right of its field, with a blank before it if it has five characters. -/
theorem C71_usdod96 (b G : Str) (x : USDOD) (hB : Bits b) (hb : b.take 8 = py "00101111") (hx : USDOD.fromBinary b = .ok x)
    (hG : G = (byteText b 12 6).filter (· ≠ ' ')) :
    ∃ f : Fin 16, f.val = bitField b 8 4 ∧
      x.binary .usdod96 f = .ok (b.take 12 ++ layout (textLayout 8 (List.replicate (6 - G.length) ' ' ++ G)) ++ (b.drop 60).take 36) := by
  subst hG
  by_cases hl : 96 ≤ b.length
  case neg => rw [C28_usdod96 b hb (by omega)] at hx; cases hx
  refine ⟨⟨_, bitField_small hB 8 4⟩, rfl, ?_⟩
  have hP : Plain (bitField b 60 36) (natStr (bitField b 60 36)) := plain_iff.2 rfl
  obtain ⟨h1, h2⟩ := C52_usdod96 hB hb hl rfl hP
  by_cases hG : CageCode ((byteText b 12 6).filter (· ≠ ' '))
  case neg => rw [h2 hG] at hx; cases hx
  obtain ⟨y, hy, hu⟩ := h1 hG
  rw [hx] at hy; cases hy
  generalize (byteText b 12 6).filter (· ≠ ' ') = G at hu hG ⊢
  obtain ⟨u, hn⟩ := USDOD.fromBinary_made b x hx
  have hn' := hn
  obtain ⟨C', S', ⟨hC', hS'⟩, -, eu, rfl⟩ := USDOD.new_iff.1 hn
  dsimp only at hu
  have hdot : '.' ∉ G := fun h => absurd (hG.1 _ h) (by decide)
  obtain ⟨rfl, rfl⟩ := uri2_inj (q := py "urn:epc:id:usdod") (fun h => absurd (((lang_cage _).1 hC').2 _ h) (by decide)) hdot (eu.symm.trans hu)
  have hau : Ascii u := by
    rw [hu]
    refine ascii_append.2 ⟨by decide, ascii_append.2 ⟨fun c hc => ?_, ascii_cons.2 ⟨by decide, ascii_of_digits (Digits_natStr _)⟩⟩⟩
    have : ∀ c ∈ cageChars, c.toNat < 128 := by decide
    exact this c (hG.1 c hc)
  have hh := hdr_bits (h := 47) hb (by decide)
  rw [C56_usdod96 hau hn']
  dsimp only
  rw [layout_append, layout_append, layout_one, join_one, hP.2, bitsOf_bitField hB (by omega), layout_cons, layout_one, hh, bitsOf_bitField hB (by omega),
    take_add_field]

/-- GIAI-202: only the part of the reference before a ':' is written. -/
theorem C71_giai202 (b C raw : Str) (x : GIAI) (hB : Bits b) (hb : b.take 8 = py "00111000") (hx : GIAI.fromBinary b = .ok x)
    (hF : TextFields b 191 C raw) :
    ∃ f : Fin 8, f.val = bitField b 8 3 ∧
      x.binary .giai202 f = .ok (b.take (14 + prefixBits C.length) ++
        fillRight (188 - prefixBits C.length) (layout (textLayout 7 (raw.takeWhile (· ≠ ':'))))) := by
  by_cases hl : 202 ≤ b.length
  case neg => rw [C28_giai202 b hb (by omega)] at hx; cases hx
  refine ⟨⟨_, bitField_lt hB (lo := 8) (k := 3) (by omega)⟩, rfl, ?_⟩
  have H := C53_giai202 hB hb hl
  obtain ⟨h1, h2, h3⟩ := H.1 C raw _ hF rfl
  generalize hh : raw.takeWhile (· ≠ ':') = head at h1 h2 h3 ⊢
  by_cases hr : (∀ c ∈ raw, c ∈ gs82) ∧ head ≠ [] ∧ (LoneLetterEscapes head → C.length + (escape head).length ≤ 30)
  case neg => rw [h2 hr] at hx; cases hx
  by_cases hlo : LoneLetterEscapes head
  case neg => obtain ⟨e, he, -⟩ := h3 hlo; rw [he] at hx; cases hx
  obtain ⟨y, hy, hu'⟩ := h1 hr.1 hr.2.1 hlo (hr.2.2 hlo)
  rw [hx] at hy; cases hy
  obtain ⟨p, hp, ep, hC, -⟩ := hF
  have hhg : ∀ c ∈ head, c ∈ gs82 := fun c hc => hr.1 c (by rw [← hh] at hc; exact List.takeWhile_subset _ hc)
  have hrne : raw ≠ [] := by rintro rfl; exact hr.2.1 hh.symm
  obtain ⟨u, hn⟩ := GIAI.fromBinary_made b x hx
  have hn' := hn
  obtain ⟨C', S', ⟨hC', hS'⟩, -, eu, rfl⟩ := GIAI.new_iff.1 hn
  dsimp only at hu'
  obtain ⟨e1, e2⟩ := uri2_inj (q := py "urn:epc:id:giai") hC'.2.no_dot (dec_digits hC.1).no_dot (eu.symm.trans hu')
  have e2 : S' = escape raw := e2
  subst e1 e2
  have hau : Ascii u := by
    rw [hu']
    exact ascii_append.2 ⟨by decide, ascii_append.2 ⟨ascii_of_digits hC.1, ascii_cons.2 ⟨by decide, gs3a3_ascii (gs3a3_escape hr.1 hrne)⟩⟩⟩
  have hs : (split ':' (escape raw)).headD [] = escape head := by rw [split_escape_colon, hh]
  have hb8 := hdr_bits (h := 56) hb (by decide)
  have hpb : prefixBits (12 - p) ≤ 40 := by
    have : ∀ p ≤ 6, prefixBits (12 - p) ≤ 40 := by decide
    exact this p hp
  rw [C56_giai202 hau hn' hhg hs]
  dsimp only
  rw [List.append_assoc, layout_prefix hB hb8 rfl hp ep hC (by omega), layout_text_fill, hC.2.1]

theorem escape39_inj {a b : Str} (ha : ∀ c ∈ a, c ∈ gs39) (hb : ∀ c ∈ b, c ∈ gs39) (h : escape39 a = escape39 b) : a = b := by
  induction a generalizing b with
  | nil =>
    cases b with
    | nil => rfl
    | cons d b =>
      exfalso
      have : ∀ d ∈ gs39, escChar39 d ≠ [] := by decide
      unfold escape39 at h
      rw [List.flatMap_cons] at h
      exact this d (hb d List.mem_cons_self) (List.append_eq_nil_iff.1 h.symm).1
  | cons c a ih =>
    cases b with
    | nil =>
      exfalso
      have : ∀ d ∈ gs39, escChar39 d ≠ [] := by decide
      unfold escape39 at h
      rw [List.flatMap_cons] at h
      exact this c (ha c List.mem_cons_self) (List.append_eq_nil_iff.1 h).1
    | cons d b =>
      unfold escape39 at h
      rw [List.flatMap_cons, List.flatMap_cons] at h
      have key : ∀ c ∈ gs39, ∀ d ∈ gs39, c = d ∨ ¬ (escChar39 c <+: escChar39 d) ∧ ¬ (escChar39 d <+: escChar39 c) := by decide +kernel
      rcases key c (ha c List.mem_cons_self) d (hb d List.mem_cons_self) with rfl | ⟨k1, k2⟩
      · rw [ih (fun x hx => ha x (List.mem_cons_of_mem _ hx)) (fun x hx => hb x (List.mem_cons_of_mem _ hx)) (List.append_cancel_left h)]
      · exfalso
        have p1 : escChar39 c <+: escChar39 c ++ a.flatMap escChar39 := List.prefix_append _ _
        have p2 : escChar39 d <+: escChar39 c ++ a.flatMap escChar39 := by rw [h]; exact List.prefix_append _ _
        rcases Nat.le_total (escChar39 c).length (escChar39 d).length with hle | hle
        · exact k1 (List.prefix_of_prefix_length_le p1 p2 hle)
        · exact k2 (List.prefix_of_prefix_length_le p2 p1 hle)

theorem sixText_bits {b : Str} (hB : Bits b) : ∀ k lo : Nat, layout (textLayout 6 (sixText b lo k)) = (b.drop lo).take (6 * (sixText b lo k).length)
  | 0, _ => by simp [sixText, textLayout, layout]
  | k + 1, lo => by
    rw [sixText]
    split
    · simp [textLayout, layout]
    · rename_i h
      rw [not_or] at h
      have hlt := bitField_lt hB (lo := lo) (k := 6) (by omega)
      have h64 : ∀ n : Fin 64, (sixChar n.val).toNat % 2 ^ 6 = n.val := by decide
      rw [show layout (textLayout 6 (sixChar (bitField b lo 6) :: sixText b (lo + 6) k)) =
        bitsOf 6 ((sixChar (bitField b lo 6)).toNat % 2 ^ 6) ++ layout (textLayout 6 (sixText b (lo + 6) k)) from rfl,
        h64 ⟨_, hlt⟩, bitsOf_bitField hB (by omega), sixText_bits hB k (lo + 6), List.length_cons, Nat.mul_succ, Nat.add_comm (6 * _) 6, List.take_add, List.drop_drop]

theorem sixText_end {b : Str} : ∀ k lo : Nat, (sixText b lo k).length < k →
    b.length < lo + 6 * (sixText b lo k).length + 6 ∨ bitField b (lo + 6 * (sixText b lo k).length) 6 = 0
  | 0, _, h => by simp [sixText] at h
  | k + 1, lo, h => by
    rw [sixText] at h ⊢
    by_cases h' : b.length < lo + 6 ∨ bitField b lo 6 = 0
    · rw [if_pos h']; exact h'
    · rw [if_neg h', List.length_cons] at h
      rw [if_neg h']
      have := sixText_end k (lo + 6) (Nat.lt_of_succ_lt_succ h)
      rw [List.length_cons, Nat.mul_succ, show lo + (6 * (sixText b (lo + 6) k).length + 6) = lo + 6 + 6 * (sixText b (lo + 6) k).length by omega]
      exact this

/-- CPI-var: the text of the reference is `part`, in six bits each. -/
theorem C71_cpiVar (b C raw part : Str) (e : Nat) (x : CPI) (hB : Bits b) (hb : b.take 8 = py "00111101") (hx : CPI.fromBinary b = .ok x)
    (hF : VarFields b C raw e) (hg : ∀ c ∈ part, c ∈ gs39) (hesc : escape39 raw = escape39 part) :
    ∃ f : Fin 8, f.val = bitField b 8 3 ∧
      x.binary .cpiVar f = .ok (b.take (14 + prefixBits C.length) ++ layout (textLayout 6 part ++ [(6, 0), (40, bitField b e 40)])) := by
  refine ⟨⟨_, bitField_small hB 8 3⟩, rfl, ?_⟩
  have hl := cpiVar_long hB hb hx
  have H := C54_cpi_var hB hb hl
  have hP : Plain (bitField b e 40) (natStr (bitField b e 40)) := plain_iff.2 rfl
  obtain ⟨h1, h2⟩ := H.1 C raw e _ hF hP
  by_cases hr : (∃ part, part ≠ [] ∧ (∀ c ∈ part, c ∈ gs39) ∧ escape39 raw = escape39 part) ∧ bitField b e 40 < 10 ^ 12 ∧ C.length + (escape39 raw).length ≤ 30
  case neg => rw [h2 hr] at hx; cases hx
  obtain ⟨⟨part', hne, hg', hesc'⟩, hr2, hr3⟩ := hr
  obtain rfl := escape39_inj hg hg' (hesc.symm.trans hesc')
  obtain ⟨y, hy, hu⟩ := h1 part hne hg hesc hr2 hr3
  rw [hx] at hy; cases hy
  obtain ⟨p, hp, ep, hC, -⟩ := hF
  obtain ⟨u, hn⟩ := CPI.fromBinary_made b x hx
  have hn' := hn
  obtain ⟨C', D', S', ⟨hC', hD', hS'⟩, -, eu, rfl⟩ := CPI.new_iff.1 hn
  dsimp only at hu
  have hdot : '.' ∉ escape39 part := cpref_no_dot ((lang_cpref _).2 ⟨part, hne, hg, rfl⟩)
  obtain ⟨e1, e2, e3⟩ := uri3_inj (q := py "urn:epc:id:cpi") hC'.2.no_dot (cpref_no_dot hD') (dec_digits hC.1).no_dot hdot (eu.symm.trans hu)
  have e3 : S' = natStr (bitField b e 40) := e3
  have hau : Ascii u := by
    rw [hu]
    exact ascii_append.2 ⟨by decide, ascii_append.2 ⟨ascii_of_digits hC.1, ascii_cons.2 ⟨by decide, ascii_append.2 ⟨ascii_escape39 hg, ascii_cons.2 ⟨by decide,
      ascii_of_digits (Digits_natStr _)⟩⟩⟩⟩⟩
  subst e1 e2 e3
  have hb8 := hdr_bits (h := 61) hb (by decide)
  rw [C56_cpi_var hau hn' hg rfl]
  dsimp only
  rw [List.append_assoc, layout_prefix hB hb8 rfl hp ep hC (by rw [← ep]; exact hl), hP.2, hC.2.1]

/-- CPI-var: if the reference has only characters of its set and the serial number is complete, the same bits come back. -/
theorem C71_cpiVar_same (b C raw : Str) (e : Nat) (x : CPI) (hB : Bits b) (hb : b.take 8 = py "00111101") (hx : CPI.fromBinary b = .ok x)
    (hF : VarFields b C raw e) (hg : ∀ c ∈ raw, c ∈ gs39) (he : e + 40 ≤ b.length) :
    ∃ f : Fin 8, f.val = bitField b 8 3 ∧ x.binary .cpiVar f = .ok (b.take (e + 40)) := by
  obtain ⟨f, hf, h⟩ := C71_cpiVar b C raw raw e x hB hb hx hF hg rfl
  refine ⟨f, hf, h.trans ?_⟩
  obtain ⟨p, hp, ep, hC, hraw, hle, he'⟩ := hF
  have hend := sixText_end (b := b) (19 + p) (14 + prefixBits (12 - p)) (by rw [← hraw]; omega)
  rw [← hraw] at hend
  have hz : bitField b (14 + prefixBits (12 - p) + 6 * raw.length) 6 = 0 := by
    rcases hend with hend | hend
    · omega
    · exact hend
  have hsix := sixText_bits hB (19 + p) (14 + prefixBits (12 - p))
  rw [← hraw] at hsix
  rw [layout_append, hsix, layout_cons, layout_one, ← hz, bitsOf_bitField hB (by omega), bitsOf_bitField hB (by omega), hC.2.1, ← List.append_assoc,
    take_add_field, ← List.append_assoc, take_add_field, show 14 + prefixBits (12 - p) + 6 * raw.length + 6 = e by omega, take_add_field]

/-- ADI-var: the CAGE code is written with six characters, a blank first if it has five; the part number is `P`, the serial number `S`. -/
theorem C71_adiVar (b P S : Str) (t : Nat) (x : ADI) (hB : Bits b) (hb : b.take 8 = py "00111011") (hx : ADI.fromBinary b = .ok x)
    (hF : FirstZeros b t) (hP : ∀ c ∈ P, c ∈ gs39) (heP : escape39 (sixText (b.take t) 50 t) = escape39 P)
    (hS : ∀ c ∈ S, c ∈ gs39) (heS : escape39 (sixText (b.take (b.length - 6)) (t + 6) b.length) = escape39 S) :
    ∃ f : Fin 64, f.val = bitField b 8 6 ∧
      x.binary .adiVar f = .ok (b.take 14 ++ layout (textLayout 6 (List.replicate (6 - (cageText b).length) ' ' ++ cageText b) ++
        textLayout 6 P ++ [(6, 0)] ++ textLayout 6 S ++ [(6, 0)])) := by
  have hl : 50 ≤ b.length := by obtain ⟨h1, h2, -⟩ := hF; omega
  refine ⟨⟨_, bitField_small hB 8 6⟩, rfl, ?_⟩
  obtain ⟨h1, h2⟩ := (C55_adi_var hB hb hl).1 t _ _ hF rfl rfl
  generalize sixText (b.take t) 50 t = part at h1 h2 heP
  generalize sixText (b.take (b.length - 6)) (t + 6) b.length = serial at h1 h2 heS
  by_cases hr : CageCode (cageText b) ∧ part.length ≤ 32 ∧ serial.length ≤ 30 ∧ (∃ P, AdiPart P ∧ escape39 part = escape39 P) ∧
          ∃ S, AdiSerial S ∧ escape39 serial = escape39 S
  case neg => rw [h2 hr] at hx; cases hx
  obtain ⟨hG, hpl, hsl, ⟨P', hP', heP'⟩, S', hS', heS'⟩ := hr
  obtain rfl := escape39_inj hP (fun c h => (hP'.1 c h).1) (heP.symm.trans heP')
  obtain rfl := escape39_inj hS hS'.1 (heS.symm.trans heS')
  obtain ⟨y, hy, hu⟩ := h1 P S hG hpl hsl hP' heP hS' heS
  rw [hx] at hy; cases hy
  generalize cageText b = G at hu hG ⊢
  obtain ⟨u, hn⟩ := ADI.fromBinary_made b x hx
  have hn' := hn
  obtain ⟨A, D, T, ⟨hA, hD, hT⟩, -, eu, rfl⟩ := ADI.new_iff.1 hn
  dsimp only at hu
  have hdot : ∀ {r : Str}, (∀ c ∈ r, c ∈ gs39) → '.' ∉ escape39 r := by
    intro r hr h
    unfold escape39 at h
    obtain ⟨c, hc, h⟩ := List.mem_flatMap.1 h
    have : ∀ c ∈ gs39, '.' ∉ escChar39 c := by decide
    exact this c (hr c hc) h
  have hDd : '.' ∉ D := by
    obtain ⟨r, hr, rfl⟩ := (lang_adiPart _).1 hD
    exact hdot fun c hc => (hr c hc).1
  obtain ⟨e1, e2, e3⟩ := uri3_inj (q := py "urn:epc:id:adi") (fun h => absurd (((lang_cage _).1 hA).2 _ h) (by decide)) hDd
    (fun h => absurd (hG.1 _ h) (by decide)) (hdot hP) (eu.symm.trans hu)
  have e3 : T = escape39 S := e3
  subst e1 e2 e3
  have hb8 := hdr_bits (h := 59) hb (by decide)
  rw [C56_adi_var hn' hP rfl hS rfl]
  dsimp only
  simp only [layout_append]
  rw [layout_cons, layout_one, hb8, bitsOf_bitField hB (by omega), take_add_field]
  simp only [List.append_assoc]

theorem sixText_fits {b : Str} (hB : Bits b) (k lo : Nat) (h : lo ≤ b.length) : lo + 6 * (sixText b lo k).length ≤ b.length := by
  have := congrArg List.length (sixText_bits hB k lo)
  rw [length_textLayout, List.length_take, List.length_drop] at this
  omega

theorem bitField_take {b : Str} {n lo k : Nat} (h : lo + k ≤ n) : bitField (b.take n) lo k = bitField b lo k := by
  unfold bitField
  rw [drop_of_take, List.take_take]
  congr 2; omega

/-- ADI-var: if the first six zeros are aligned, the CAGE code has a blank before it or six characters, and part and serial number have only
characters of their set, the same bits come back up to the end of the serial number. -/
theorem C71_adiVar_same (b part raw : Str) (t : Nat) (x : ADI) (hB : Bits b) (hb : b.take 8 = py "00111011") (hx : ADI.fromBinary b = .ok x)
    (hF : FirstZeros b t) (ht : 6 ∣ t - 50) (hc : bitField b 14 6 = 32 ∨ (cageText b).length = 6)
    (hpart : part = sixText (b.take t) 50 t) (hP : ∀ c ∈ part, c ∈ gs39)
    (hraw : raw = sixText (b.take (b.length - 6)) (t + 6) b.length) (hS : ∀ c ∈ raw, c ∈ gs39) :
    ∃ f : Fin 64, f.val = bitField b 8 6 ∧ x.binary .adiVar f = .ok (b.take (t + 6 + 6 * raw.length) ++ py "000000") := by
  subst hpart
  obtain ⟨f, hf, h⟩ := C71_adiVar b _ raw t x hB hb hx hF hP rfl hS (by rw [hraw])
  refine ⟨f, hf, h.trans ?_⟩
  have hG : CageCode (cageText b) := by
    apply Classical.byContradiction
    intro hno
    have hl : 50 ≤ b.length := by obtain ⟨h1, h2, -⟩ := hF; omega
    rw [((C55_adi_var hB hb hl).1 t _ _ hF rfl rfl).2 fun hh => hno hh.1] at hx
    cases hx
  obtain ⟨h50, ht6, h0, hmin⟩ := hF
  have hlen : t = 50 + 6 * (sixText (b.take t) 50 t).length := by
    have h1 := sixText_fits (bits_take hB t) t 50 (by rw [List.length_take]; omega)
    rw [List.length_take] at h1
    have h2 := sixText_end (b := b.take t) t 50 (by omega)
    rcases h2 with h2 | h2
    · rw [List.length_take] at h2; omega
    · apply Classical.byContradiction
      intro hne
      have hlt : 50 + 6 * (sixText (b.take t) 50 t).length + 6 ≤ t := by omega
      rw [bitField_take hlt] at h2
      exact hmin _ (by omega) (by omega) h2
  have hpb := sixText_bits (bits_take hB t) t 50
  have hsb := sixText_bits (bits_take hB (b.length - 6)) b.length (t + 6)
  rw [← hraw] at hsb
  have hcage : layout (textLayout 6 (List.replicate (6 - (cageText b).length) ' ' ++ cageText b)) = (b.drop 14).take 36 := by
    have hl6 : (cageText b).length = if bitField b 14 6 = 32 then 5 else 6 := by
      have h5 := hG.2
      have := sixText_length (b.take 50) 5 20
      unfold cageText at h5 hc ⊢
      split <;> rename_i hb14
      · rw [if_pos hb14] at h5; omega
      · rw [if_neg hb14] at hc
        rcases hc with hc | hc
        · exact absurd hc hb14
        · exact hc
    rw [hl6]
    unfold cageText at hl6 ⊢
    by_cases hb14 : bitField b 14 6 = 32
    · rw [if_pos hb14, if_pos hb14]
      rw [if_pos hb14, if_pos hb14] at hl6
      have h1 := sixText_bits (bits_take hB 50) 5 20
      rw [hl6, drop_of_take, List.take_take] at h1
      show layout (textLayout 6 (' ' :: sixText (b.take 50) 20 5)) = _
      rw [show layout (textLayout 6 (' ' :: sixText (b.take 50) 20 5)) = bitsOf 6 32 ++ layout (textLayout 6 (sixText (b.take 50) 20 5)) from rfl, h1, ← hb14,
        bitsOf_bitField hB (by omega), show (36 : Nat) = 6 + 30 from rfl, List.take_add, List.drop_drop]
      rfl
    · rw [if_neg hb14, if_neg hb14]
      rw [if_neg hb14, if_neg hb14] at hl6
      have h1 := sixText_bits (bits_take hB 50) 6 14
      rw [hl6, drop_of_take, List.take_take] at h1
      exact h1
  have hfit := sixText_fits (bits_take hB (b.length - 6)) b.length (t + 6)
  generalize sixText (b.take t) 50 t = part at hpb hlen
  rw [drop_of_take, List.take_take, show min (6 * part.length) (t - 50) = 6 * part.length by omega] at hpb
  have hsb' : layout (textLayout 6 raw) = (b.drop (t + 6)).take (6 * raw.length) := by
    rw [hsb, drop_of_take, List.take_take]
    by_cases hle : t + 6 ≤ b.length - 6
    · have := hfit (by rw [List.length_take]; omega)
      rw [← hraw, List.length_take] at this
      congr 1; omega
    · have : raw = [] := by
        rw [hraw]
        cases hbl : b.length with
        | zero => rfl
        | succ n => rw [sixText, if_pos (.inl (by rw [List.length_take]; omega))]
      rw [this]; rfl
  simp only [layout_append]
  rw [hcage, hpb, hsb', layout_one, ← List.append_assoc (b.take 14), ← List.append_assoc (b.take 14), ← List.append_assoc (b.take 14),
    ← List.append_assoc (b.take 14), take_add_field, show 14 + 36 = 50 from rfl, take_add_field, ← hlen,
    show bitsOf 6 0 = (b.drop t).take 6 by rw [← h0, bitsOf_bitField hB (by omega)], take_add_field, take_add_field,
    ← bitsOf_bitField hB (by omega), h0]
  rfl

/-- The hypotheses are met: tags with unused bits that are set, tags with a blank or a group of zeros inside the text, and what comes back. -/
example : let b := layout [(8, 50), (3, 1), (3, 0), (40, 952114100000), (1, 1), (41, 5678)]
    (SGLN.fromBinary b).isOk = true ∧ usedKeyBits b 44 ++ (b.drop 55).take 41 = layout [(8, 50), (3, 1), (3, 0), (40, 952114100000), (1, 0), (41, 5678)] := by
  decide +kernel

example : let b := layout ([(8, 54), (3, 5), (3, 5), (24, 614141), (20, 712345), (7, 0)] ++ textLayout 7 (py "32a/") ++ [(7, 0)] ++ textLayout 7 (py "b") ++ [(91, 0)])
    (SGTIN.fromBinary b).isOk = true ∧
      b.take 58 ++ compactText b 58 20 140 = layout ([(8, 54), (3, 5), (3, 5), (24, 614141), (20, 712345)] ++ textLayout 7 (py "32a/b") ++ [(105, 0)]) := by
  decide +kernel

example : (ITIP.fromBinary (layout [(8, 64), (3, 1), (3, 5), (24, 614141), (20, 712345), (7, 4), (7, 12), (38, 981)])).isOk = true ∧
    (USDOD.fromBinary (layout ([(8, 47), (4, 3)] ++ textLayout 8 (py "CA GEY") ++ [(36, 5678)]))).isOk = true := by
  decide +kernel

example : let b := layout ([(8, 59), (6, 0)] ++ textLayout 6 (py " 35962") ++ textLayout 6 (py "PQ7") ++ [(6, 0)] ++ textLayout 6 (py "M37") ++ [(6, 0)])
    (ADI.fromBinary b).isOk = true ∧ bitField b 14 6 = 32 ∧ bitField b 68 6 = 0 ∧ (∀ s : Fin 18, bitField b (50 + s.val) 6 ≠ 0) ∧
      sixText (b.take 68) 50 68 = py "PQ7" ∧ sixText (b.take (b.length - 6)) 74 b.length = py "M37" := by
  decide +kernel

example : let b := layout ([(8, 56), (3, 1), (3, 5), (24, 614141)] ++ textLayout 7 (py "a:b") ++ [(143, 0)])
    (GIAI.fromBinary b).isOk = true ∧ bitField b 11 3 = 5 ∧ bitField b 14 24 = number (py "0614141") ∧ sevenText b 38 23 = py "a:b" := by
  decide +kernel

example : let b := layout ([(8, 61), (3, 3), (3, 5), (24, 614141)] ++ textLayout 6 (py "5PQ7/Z43") ++ [(6, 0), (40, 12345)])
    (CPI.fromBinary b).isOk = true ∧ bitField b 11 3 = 5 ∧ bitField b 14 24 = number (py "0614141") ∧ sixText b 38 24 = py "5PQ7/Z43" ∧
      92 + 40 ≤ b.length := by
  decide +kernel

end Epc
