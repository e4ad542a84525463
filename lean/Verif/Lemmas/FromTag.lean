/-
The URIs of objects that are read from the bits of a tag, one theorem per coding scheme.
-/
import Verif.Props.C64
import Verif.Spec.Program
import Verif.Lemmas.Dispatch

namespace Epc
open Spec Re

theorem SGTIN.tag_sgtin96 {b : Str} {x : SGTIN} (hB : Bits b) (hb : b.take 8 = py "00110000") (hx : SGTIN.fromBinary b = .ok x) :
    ∃ u, SGTIN.new u = .ok x ∧ Ascii u ∧ ∃ C D raw, '.' ∉ C ∧ '.' ∉ D ∧ u = Src.uri3 .sgtin C D (escape raw) ∧ Digits raw := by
  by_cases hl : 96 ≤ b.length
  case neg => rw [C28_sgtin96 b hb (by omega)] at hx; cases hx
  have H := C52_sgtin96 hB hb hl
  by_cases hK : ∃ C D, KeyFields b 47 (fun p => p + 1) C D
  case neg => rw [H.2 hK] at hx; cases hx
  obtain ⟨C, D, hF⟩ := hK
  have hP : Plain (bitField b 58 38) (natStr (bitField b 58 38)) := plain_iff.2 rfl
  obtain ⟨y, hy, hu⟩ := H.1 C D _ hF hP
  rw [hx] at hy; cases hy
  obtain ⟨p, hp, hC, hCl, hCne, hD, hDl⟩ := keyFields_facts hF
  obtain ⟨u, hn⟩ := SGTIN.fromBinary_made b x hx
  have eu := (SGTIN.new_match hn).2.1.symm.trans hu
  refine ⟨u, hn, ?_, C, D, _, (dec_digits hC).no_dot, (dec_digits hD).no_dot, ?_, hP.1.1⟩
  rotate_left
  · rw [escape_digits (Digits_natStr _)]; exact eu
  rw [eu]
  exact ascii_append.2 ⟨by decide, ascii_append.2 ⟨ascii_of_digits hC, ascii_cons.2 ⟨by decide, ascii_append.2 ⟨ascii_of_digits hD, ascii_cons.2 ⟨by decide, ascii_of_digits (Digits_natStr _)⟩⟩⟩⟩⟩

theorem SGLN.tag_sgln96 {b : Str} {x : SGLN} (hB : Bits b) (hb : b.take 8 = py "00110010") (hx : SGLN.fromBinary b = .ok x) :
    ∃ u, SGLN.new u = .ok x ∧ Ascii u ∧ ∃ C D raw, '.' ∉ C ∧ '.' ∉ D ∧ u = Src.uri3 .sgln C D (escape raw) ∧ Digits raw := by
  by_cases hl : 96 ≤ b.length
  case neg => rw [C28_sgln96 b hb (by omega)] at hx; cases hx
  have H := C52_sgln96 hB hb hl
  by_cases hK : ∃ C D, KeyFields b 44 (fun p => p) C D
  case neg => rw [H.2 hK] at hx; cases hx
  obtain ⟨C, D, hF⟩ := hK
  have hP : Plain (bitField b 55 41) (natStr (bitField b 55 41)) := plain_iff.2 rfl
  obtain ⟨y, hy, hu⟩ := H.1 C D _ hF hP
  rw [hx] at hy; cases hy
  obtain ⟨p, hp, hC, hCl, hCne, hD, hDl⟩ := keyFields_facts hF
  obtain ⟨u, hn⟩ := SGLN.fromBinary_made b x hx
  have eu := (SGLN.new_match hn).2.1.symm.trans hu
  refine ⟨u, hn, ?_, C, D, _, (dec_digits hC).no_dot, (dec_digits hD).no_dot, ?_, hP.1.1⟩
  rotate_left
  · rw [escape_digits (Digits_natStr _)]; exact eu
  rw [eu]
  exact ascii_append.2 ⟨by decide, ascii_append.2 ⟨ascii_of_digits hC, ascii_cons.2 ⟨by decide, ascii_append.2 ⟨ascii_of_digits hD, ascii_cons.2 ⟨by decide, ascii_of_digits (Digits_natStr _)⟩⟩⟩⟩⟩

theorem GRAI.tag_grai96 {b : Str} {x : GRAI} (hB : Bits b) (hb : b.take 8 = py "00110011") (hx : GRAI.fromBinary b = .ok x) :
    ∃ u, GRAI.new u = .ok x ∧ Ascii u ∧ ∃ C D raw, '.' ∉ C ∧ '.' ∉ D ∧ u = Src.uri3 .grai C D (escape raw) ∧ Digits raw := by
  by_cases hl : 96 ≤ b.length
  case neg => rw [C28_grai96 b hb (by omega)] at hx; cases hx
  have H := C52_grai96 hB hb hl
  by_cases hK : ∃ C D, KeyFields b 47 (fun p => p) C D
  case neg => rw [H.2 hK] at hx; cases hx
  obtain ⟨C, D, hF⟩ := hK
  have hP : Plain (bitField b 58 38) (natStr (bitField b 58 38)) := plain_iff.2 rfl
  obtain ⟨y, hy, hu⟩ := H.1 C D _ hF hP
  rw [hx] at hy; cases hy
  obtain ⟨p, hp, hC, hCl, hCne, hD, hDl⟩ := keyFields_facts hF
  obtain ⟨u, hn⟩ := GRAI.fromBinary_made b x hx
  have eu := (GRAI.new_match hn).2.1.symm.trans hu
  refine ⟨u, hn, ?_, C, D, _, (dec_digits hC).no_dot, (dec_digits hD).no_dot, ?_, hP.1.1⟩
  rotate_left
  · rw [escape_digits (Digits_natStr _)]; exact eu
  rw [eu]
  exact ascii_append.2 ⟨by decide, ascii_append.2 ⟨ascii_of_digits hC, ascii_cons.2 ⟨by decide, ascii_append.2 ⟨ascii_of_digits hD, ascii_cons.2 ⟨by decide, ascii_of_digits (Digits_natStr _)⟩⟩⟩⟩⟩

theorem GDTI.tag_gdti96 {b : Str} {x : GDTI} (hB : Bits b) (hb : b.take 8 = py "00101100") (hx : GDTI.fromBinary b = .ok x) :
    ∃ u, GDTI.new u = .ok x ∧ Ascii u ∧ ∃ C D raw, '.' ∉ C ∧ '.' ∉ D ∧ u = Src.uri3 .gdti C D (escape raw) ∧ Digits raw := by
  by_cases hl : 96 ≤ b.length
  case neg => rw [C28_gdti96 b hb (by omega)] at hx; cases hx
  have H := C52_gdti96 hB hb hl
  by_cases hK : ∃ C D, KeyFields b 44 (fun p => p) C D
  case neg => rw [H.2 hK] at hx; cases hx
  obtain ⟨C, D, hF⟩ := hK
  have hP : Plain (bitField b 55 41) (natStr (bitField b 55 41)) := plain_iff.2 rfl
  obtain ⟨y, hy, hu⟩ := H.1 C D _ hF hP
  rw [hx] at hy; cases hy
  obtain ⟨p, hp, hC, hCl, hCne, hD, hDl⟩ := keyFields_facts hF
  obtain ⟨u, hn⟩ := GDTI.fromBinary_made b x hx
  have eu := (GDTI.new_match hn).2.1.symm.trans hu
  refine ⟨u, hn, ?_, C, D, _, (dec_digits hC).no_dot, (dec_digits hD).no_dot, ?_, hP.1.1⟩
  rotate_left
  · rw [escape_digits (Digits_natStr _)]; exact eu
  rw [eu]
  exact ascii_append.2 ⟨by decide, ascii_append.2 ⟨ascii_of_digits hC, ascii_cons.2 ⟨by decide, ascii_append.2 ⟨ascii_of_digits hD, ascii_cons.2 ⟨by decide, ascii_of_digits (Digits_natStr _)⟩⟩⟩⟩⟩

theorem SGTIN.tag_sgtin198 {b : Str} {x : SGTIN} (hB : Bits b) (hb : b.take 8 = py "00110110") (hx : SGTIN.fromBinary b = .ok x) :
    ∃ u, SGTIN.new u = .ok x ∧ Ascii u ∧ ∃ C D raw, '.' ∉ C ∧ '.' ∉ D ∧ u = Src.uri3 .sgtin C D (escape raw) := by
  by_cases hl : 198 ≤ b.length
  case neg => rw [C28_sgtin198 b hb (by omega)] at hx; cases hx
  have H := C53_sgtin198 hB hb hl
  by_cases hK : ∃ C D, KeyFields b 47 (fun p => p + 1) C D
  case neg => rw [H.2 hK] at hx; cases hx
  obtain ⟨C, D, hF⟩ := hK
  obtain ⟨h1, h2, h3⟩ := H.1 C D _ hF rfl
  by_cases hr : (∀ c ∈ sevenText b 58 20, c ∈ gs82) ∧ sevenText b 58 20 ≠ []
  case neg => rw [h2 hr] at hx; cases hx
  by_cases hlo : LoneLetterEscapes (sevenText b 58 20)
  case neg => obtain ⟨e, he, -⟩ := h3 hlo; rw [he] at hx; cases hx
  obtain ⟨y, hy, hu⟩ := h1 hr.1 hr.2 hlo
  rw [hx] at hy; cases hy
  obtain ⟨p, hp, hC, hCl, hCne, hD, hDl⟩ := keyFields_facts hF
  obtain ⟨u, hn⟩ := SGTIN.fromBinary_made b x hx
  have eu := (SGTIN.new_match hn).2.1.symm.trans hu
  refine ⟨u, hn, ?_, C, D, _, (dec_digits hC).no_dot, (dec_digits hD).no_dot, eu⟩
  rw [eu]
  exact ascii_append.2 ⟨by decide, ascii_append.2 ⟨ascii_of_digits hC, ascii_cons.2 ⟨by decide, ascii_append.2 ⟨ascii_of_digits hD, ascii_cons.2 ⟨by decide, gs3a3_ascii (gs3a3_escape hr.1 hr.2)⟩⟩⟩⟩⟩

theorem SGLN.tag_sgln195 {b : Str} {x : SGLN} (hB : Bits b) (hb : b.take 8 = py "00111001") (hx : SGLN.fromBinary b = .ok x) :
    ∃ u, SGLN.new u = .ok x ∧ Ascii u ∧ ∃ C D raw, '.' ∉ C ∧ '.' ∉ D ∧ u = Src.uri3 .sgln C D (escape raw) := by
  by_cases hl : 195 ≤ b.length
  case neg => rw [C28_sgln195 b hb (by omega)] at hx; cases hx
  have H := C53_sgln195 hB hb hl
  by_cases hK : ∃ C D, KeyFields b 44 (fun p => p) C D
  case neg => rw [H.2 hK] at hx; cases hx
  obtain ⟨C, D, hF⟩ := hK
  obtain ⟨h1, h2, h3⟩ := H.1 C D _ hF rfl
  by_cases hr : (∀ c ∈ sevenText b 55 20, c ∈ gs82) ∧ sevenText b 55 20 ≠ []
  case neg => rw [h2 hr] at hx; cases hx
  by_cases hlo : LoneLetterEscapes (sevenText b 55 20)
  case neg => obtain ⟨e, he, -⟩ := h3 hlo; rw [he] at hx; cases hx
  obtain ⟨y, hy, hu⟩ := h1 hr.1 hr.2 hlo
  rw [hx] at hy; cases hy
  obtain ⟨p, hp, hC, hCl, hCne, hD, hDl⟩ := keyFields_facts hF
  obtain ⟨u, hn⟩ := SGLN.fromBinary_made b x hx
  have eu := (SGLN.new_match hn).2.1.symm.trans hu
  refine ⟨u, hn, ?_, C, D, _, (dec_digits hC).no_dot, (dec_digits hD).no_dot, eu⟩
  rw [eu]
  exact ascii_append.2 ⟨by decide, ascii_append.2 ⟨ascii_of_digits hC, ascii_cons.2 ⟨by decide, ascii_append.2 ⟨ascii_of_digits hD, ascii_cons.2 ⟨by decide, gs3a3_ascii (gs3a3_escape hr.1 hr.2)⟩⟩⟩⟩⟩

theorem GRAI.tag_grai170 {b : Str} {x : GRAI} (hB : Bits b) (hb : b.take 8 = py "00110111") (hx : GRAI.fromBinary b = .ok x) :
    ∃ u, GRAI.new u = .ok x ∧ Ascii u ∧ ∃ C D raw, '.' ∉ C ∧ '.' ∉ D ∧ u = Src.uri3 .grai C D (escape raw) := by
  by_cases hl : 170 ≤ b.length
  case neg => rw [C28_grai170 b hb (by omega)] at hx; cases hx
  have H := C53_grai170 hB hb hl
  by_cases hK : ∃ C D, KeyFields b 47 (fun p => p) C D
  case neg => rw [H.2 hK] at hx; cases hx
  obtain ⟨C, D, hF⟩ := hK
  obtain ⟨h1, h2, h3⟩ := H.1 C D _ hF rfl
  by_cases hr : (∀ c ∈ sevenText b 58 16, c ∈ gs82) ∧ sevenText b 58 16 ≠ [] ∧ (LoneLetterEscapes (sevenText b 58 16) → (escape (sevenText b 58 16)).length ≤ 16)
  case neg => rw [h2 hr] at hx; cases hx
  by_cases hlo : LoneLetterEscapes (sevenText b 58 16)
  case neg => obtain ⟨e, he, -⟩ := h3 hlo; rw [he] at hx; cases hx
  obtain ⟨y, hy, hu⟩ := h1 hr.1 hr.2.1 hlo (hr.2.2 hlo)
  rw [hx] at hy; cases hy
  obtain ⟨p, hp, hC, hCl, hCne, hD, hDl⟩ := keyFields_facts hF
  obtain ⟨u, hn⟩ := GRAI.fromBinary_made b x hx
  have eu := (GRAI.new_match hn).2.1.symm.trans hu
  refine ⟨u, hn, ?_, C, D, _, (dec_digits hC).no_dot, (dec_digits hD).no_dot, eu⟩
  rw [eu]
  exact ascii_append.2 ⟨by decide, ascii_append.2 ⟨ascii_of_digits hC, ascii_cons.2 ⟨by decide, ascii_append.2 ⟨ascii_of_digits hD, ascii_cons.2 ⟨by decide, gs3a3_ascii (gs3a3_escape hr.1 hr.2.1)⟩⟩⟩⟩⟩

theorem GDTI.tag_gdti174 {b : Str} {x : GDTI} (hB : Bits b) (hb : b.take 8 = py "00111110") (hx : GDTI.fromBinary b = .ok x) :
    ∃ u, GDTI.new u = .ok x ∧ Ascii u ∧ ∃ C D raw, '.' ∉ C ∧ '.' ∉ D ∧ u = Src.uri3 .gdti C D (escape raw) := by
  by_cases hl : 174 ≤ b.length
  case neg => rw [C28_gdti174 b hb (by omega)] at hx; cases hx
  have H := C53_gdti174 hB hb hl
  by_cases hK : ∃ C D, KeyFields b 44 (fun p => p) C D
  case neg => rw [H.2 hK] at hx; cases hx
  obtain ⟨C, D, hF⟩ := hK
  obtain ⟨h1, h2, h3⟩ := H.1 C D _ hF rfl
  by_cases hr : (∀ c ∈ sevenText b 55 17, c ∈ gs82) ∧ sevenText b 55 17 ≠ [] ∧ (LoneLetterEscapes (sevenText b 55 17) → (escape (sevenText b 55 17)).length ≤ 17)
  case neg => rw [h2 hr] at hx; cases hx
  by_cases hlo : LoneLetterEscapes (sevenText b 55 17)
  case neg => obtain ⟨e, he, -⟩ := h3 hlo; rw [he] at hx; cases hx
  obtain ⟨y, hy, hu⟩ := h1 hr.1 hr.2.1 hlo (hr.2.2 hlo)
  rw [hx] at hy; cases hy
  obtain ⟨p, hp, hC, hCl, hCne, hD, hDl⟩ := keyFields_facts hF
  obtain ⟨u, hn⟩ := GDTI.fromBinary_made b x hx
  have eu := (GDTI.new_match hn).2.1.symm.trans hu
  refine ⟨u, hn, ?_, C, D, _, (dec_digits hC).no_dot, (dec_digits hD).no_dot, eu⟩
  rw [eu]
  exact ascii_append.2 ⟨by decide, ascii_append.2 ⟨ascii_of_digits hC, ascii_cons.2 ⟨by decide, ascii_append.2 ⟨ascii_of_digits hD, ascii_cons.2 ⟨by decide, gs3a3_ascii (gs3a3_escape hr.1 hr.2.1)⟩⟩⟩⟩⟩

theorem SSCC.tag_sscc96 {b : Str} {x : SSCC} (hB : Bits b) (hb : b.take 8 = py "00110001") (hx : SSCC.fromBinary b = .ok x) :
    ∃ u, SSCC.new u = .ok x ∧ Ascii u := by
  by_cases hl : 96 ≤ b.length
  case neg => rw [C28_sscc96 b hb (by omega)] at hx; cases hx
  have H := C52_sscc96 hB hb hl
  by_cases hK : ∃ C D, KeyFields b 61 (fun p => p + 5) C D
  case neg => rw [H.2 hK] at hx; cases hx
  obtain ⟨C, D, hF⟩ := hK
  obtain ⟨y, hy, hu⟩ := H.1 C D hF
  rw [hx] at hy; cases hy
  obtain ⟨p, hp, hC, hCl, hCne, hD, hDl⟩ := keyFields_facts hF
  obtain ⟨u, hn⟩ := SSCC.fromBinary_made b x hx
  have eu := (SSCC.new_match hn).2.1.symm.trans hu
  refine ⟨u, hn, ?_⟩
  rw [eu]
  exact ascii_append.2 ⟨by decide, ascii_append.2 ⟨ascii_of_digits hC, ascii_cons.2 ⟨by decide, ascii_of_digits hD⟩⟩⟩

theorem GSRN.tag_gsrn96 {b : Str} {x : GSRN} (hB : Bits b) (hb : b.take 8 = py "00101101") (hx : GSRN.fromBinary b = .ok x) :
    ∃ u, GSRN.new u = .ok x ∧ Ascii u := by
  by_cases hl : 96 ≤ b.length
  case neg => rw [C28_gsrn96 b hb (by omega)] at hx; cases hx
  have H := C52_gsrn96 hB hb hl
  by_cases hK : ∃ C D, KeyFields b 61 (fun p => p + 5) C D
  case neg => rw [H.2 hK] at hx; cases hx
  obtain ⟨C, D, hF⟩ := hK
  obtain ⟨y, hy, hu⟩ := H.1 C D hF
  rw [hx] at hy; cases hy
  obtain ⟨p, hp, hC, hCl, hCne, hD, hDl⟩ := keyFields_facts hF
  obtain ⟨u, hn⟩ := GSRN.fromBinary_made b x hx
  have eu := (GSRN.new_match hn).2.1.symm.trans hu
  refine ⟨u, hn, ?_⟩
  rw [eu]
  exact ascii_append.2 ⟨by decide, ascii_append.2 ⟨ascii_of_digits hC, ascii_cons.2 ⟨by decide, ascii_of_digits hD⟩⟩⟩

theorem GSRNP.tag_gsrnp96 {b : Str} {x : GSRNP} (hB : Bits b) (hb : b.take 8 = py "00101110") (hx : GSRNP.fromBinary b = .ok x) :
    ∃ u, GSRNP.new u = .ok x ∧ Ascii u := by
  by_cases hl : 96 ≤ b.length
  case neg => rw [C28_gsrnp96 b hb (by omega)] at hx; cases hx
  have H := C52_gsrnp96 hB hb hl
  by_cases hK : ∃ C D, KeyFields b 61 (fun p => p + 5) C D
  case neg => rw [H.2 hK] at hx; cases hx
  obtain ⟨C, D, hF⟩ := hK
  obtain ⟨y, hy, hu⟩ := H.1 C D hF
  rw [hx] at hy; cases hy
  obtain ⟨p, hp, hC, hCl, hCne, hD, hDl⟩ := keyFields_facts hF
  obtain ⟨u, hn⟩ := GSRNP.fromBinary_made b x hx
  have eu := (GSRNP.new_match hn).2.1.symm.trans hu
  refine ⟨u, hn, ?_⟩
  rw [eu]
  exact ascii_append.2 ⟨by decide, ascii_append.2 ⟨ascii_of_digits hC, ascii_cons.2 ⟨by decide, ascii_of_digits hD⟩⟩⟩

theorem SGCN.tag_sgcn96 {b : Str} {x : SGCN} (hB : Bits b) (hb : b.take 8 = py "00111111") (hx : SGCN.fromBinary b = .ok x) :
    ∃ u, SGCN.new u = .ok x ∧ Ascii u := by
  by_cases hl : 96 ≤ b.length
  case neg => rw [C28_sgcn96 b hb (by omega)] at hx; cases hx
  have H := C52_sgcn96 hB hb hl
  by_cases hK : (∃ C D, KeyFields b 44 (fun p => p) C D) ∧ ∃ S, Digits S ∧ S ≠ [] ∧ number ('1' :: S) = bitField b 55 41
  case neg => rw [H.2 hK] at hx; cases hx
  obtain ⟨⟨C, D, hF⟩, S, hS, hSne, hSv⟩ := hK
  obtain ⟨y, hy, hu⟩ := H.1 C D S hF hS hSne hSv
  rw [hx] at hy; cases hy
  obtain ⟨p, hp, hC, hCl, hCne, hD, hDl⟩ := keyFields_facts hF
  obtain ⟨u, hn⟩ := SGCN.fromBinary_made b x hx
  have eu := (SGCN.new_match hn).2.1.symm.trans hu
  refine ⟨u, hn, ?_⟩
  rw [eu]
  exact ascii_append.2 ⟨by decide, ascii_append.2 ⟨ascii_of_digits hC, ascii_cons.2 ⟨by decide, ascii_append.2 ⟨ascii_of_digits hD, ascii_cons.2 ⟨by decide, ascii_of_digits hS⟩⟩⟩⟩⟩

theorem ITIP.tag_itip110 {b : Str} {x : ITIP} (hB : Bits b) (hb : b.take 8 = py "01000000") (hx : ITIP.fromBinary b = .ok x) :
    ∃ u, ITIP.new u = .ok x ∧ Ascii u ∧ ∃ C D p t raw, '.' ∉ C ∧ '.' ∉ D ∧ '.' ∉ p ∧ '.' ∉ t ∧
      u = Src.uri3 .itip C D (p ++ '.' :: (t ++ '.' :: escape raw)) ∧ p.length = 2 ∧ t.length = 2 := by
  by_cases hl : 110 ≤ b.length
  case neg => rw [C28_itip110 b hb (by omega)] at hx; cases hx
  have H := C52_itip110 hB hb hl
  by_cases hK : (∃ C D, KeyFields b 47 (fun p => p + 1) C D) ∧ bitField b 58 7 ≤ 99 ∧ bitField b 65 7 ≤ 99
  case neg => rw [H.2 hK] at hx; cases hx
  obtain ⟨⟨C, D, hF⟩, hP99, hT99⟩ := hK
  have hA : Padded 2 (bitField b 58 7) (padLeft '0' 2 (natStr (bitField b 58 7))) := padded_two hP99
  have hT : Padded 2 (bitField b 65 7) (padLeft '0' 2 (natStr (bitField b 65 7))) := padded_two hT99
  have hP : Plain (bitField b 72 38) (natStr (bitField b 72 38)) := plain_iff.2 rfl
  obtain ⟨y, hy, hu⟩ := H.1 C D _ _ _ hF hA hT hP
  rw [hx] at hy; cases hy
  obtain ⟨p, hp, hC, hCl, hCne, hD, hDl⟩ := keyFields_facts hF
  obtain ⟨u, hn⟩ := ITIP.fromBinary_made b x hx
  have eu := (ITIP.new_match hn).2.1.symm.trans hu
  refine ⟨u, hn, ?_, C, D, _, _, natStr (bitField b 72 38), (dec_digits hC).no_dot, (dec_digits hD).no_dot, (dec_digits hA.1).no_dot, (dec_digits hT.1).no_dot, ?_, hA.2.1, hT.2.1⟩
  rotate_left
  · rw [escape_digits (Digits_natStr _)]; exact eu
  rw [eu]
  exact ascii_append.2 ⟨by decide, ascii_append.2 ⟨ascii_of_digits hC, ascii_cons.2 ⟨by decide, ascii_append.2 ⟨ascii_of_digits hD, ascii_cons.2 ⟨by decide, ascii_append.2 ⟨ascii_of_digits hA.1, ascii_cons.2 ⟨by decide, ascii_append.2 ⟨ascii_of_digits hT.1, ascii_cons.2 ⟨by decide, ascii_of_digits (Digits_natStr _)⟩⟩⟩⟩⟩⟩⟩⟩⟩

theorem ITIP.tag_itip212 {b : Str} {x : ITIP} (hB : Bits b) (hb : b.take 8 = py "01000001") (hx : ITIP.fromBinary b = .ok x) :
    ∃ u, ITIP.new u = .ok x ∧ Ascii u ∧ ∃ C D p t raw, '.' ∉ C ∧ '.' ∉ D ∧ '.' ∉ p ∧ '.' ∉ t ∧
      u = Src.uri3 .itip C D (p ++ '.' :: (t ++ '.' :: escape raw)) ∧ p.length = 2 ∧ t.length = 2 := by
  by_cases hl : 212 ≤ b.length
  case neg => rw [C28_itip212 b hb (by omega)] at hx; cases hx
  have H := C53_itip212 hB hb hl
  by_cases hK : (∃ C D, KeyFields b 47 (fun p => p + 1) C D) ∧ bitField b 58 7 ≤ 99 ∧ bitField b 65 7 ≤ 99
  case neg => rw [H.2 hK] at hx; cases hx
  obtain ⟨⟨C, D, hF⟩, hP99, hT99⟩ := hK
  have hA : Padded 2 (bitField b 58 7) (padLeft '0' 2 (natStr (bitField b 58 7))) := padded_two hP99
  have hT : Padded 2 (bitField b 65 7) (padLeft '0' 2 (natStr (bitField b 65 7))) := padded_two hT99
  obtain ⟨h1, h2, h3⟩ := H.1 C D _ _ _ hF hA hT rfl
  by_cases hr : (∀ c ∈ sevenText b 72 20, c ∈ gs82) ∧ sevenText b 72 20 ≠ []
  case neg => rw [h2 hr] at hx; cases hx
  by_cases hlo : LoneLetterEscapes (sevenText b 72 20)
  case neg => obtain ⟨e, he, -⟩ := h3 hlo; rw [he] at hx; cases hx
  obtain ⟨y, hy, hu⟩ := h1 hr.1 hr.2 hlo
  rw [hx] at hy; cases hy
  obtain ⟨p, hp, hC, hCl, hCne, hD, hDl⟩ := keyFields_facts hF
  obtain ⟨u, hn⟩ := ITIP.fromBinary_made b x hx
  have eu := (ITIP.new_match hn).2.1.symm.trans hu
  refine ⟨u, hn, ?_, C, D, _, _, sevenText b 72 20, (dec_digits hC).no_dot, (dec_digits hD).no_dot, (dec_digits hA.1).no_dot, (dec_digits hT.1).no_dot, ?_, hA.2.1, hT.2.1⟩
  rotate_left
  · exact eu
  rw [eu]
  exact ascii_append.2 ⟨by decide, ascii_append.2 ⟨ascii_of_digits hC, ascii_cons.2 ⟨by decide, ascii_append.2 ⟨ascii_of_digits hD, ascii_cons.2 ⟨by decide, ascii_append.2 ⟨ascii_of_digits hA.1, ascii_cons.2 ⟨by decide, ascii_append.2 ⟨ascii_of_digits hT.1, ascii_cons.2 ⟨by decide, gs3a3_ascii (gs3a3_escape hr.1 hr.2)⟩⟩⟩⟩⟩⟩⟩⟩⟩

theorem GIAI.tag_giai96 {b : Str} {x : GIAI} (hB : Bits b) (hb : b.take 8 = py "00110100") (hx : GIAI.fromBinary b = .ok x) :
    ∃ u, GIAI.new u = .ok x ∧ Ascii u ∧ ∃ C raw, '.' ∉ C ∧ u = Src.uri2 .giai C (escape raw) ∧ Digits raw := by
  by_cases hl : 96 ≤ b.length
  case neg => rw [C28_giai96 b hb (by omega)] at hx; cases hx
  have H := C52_giai96 hB hb hl
  by_cases hK : ∃ C D, FreeFields b 85 C D
  case neg => rw [H.2 hK] at hx; cases hx
  obtain ⟨C, D, hF⟩ := hK
  obtain ⟨y, hy, hu⟩ := H.1 C D hF
  rw [hx] at hy; cases hy
  obtain ⟨-, -, -, -, -, -, -, -, hcol, -⟩ := freeFields_facts hB hF
  obtain ⟨p, hp, -, hC, hD⟩ := hF
  obtain ⟨u, hn⟩ := GIAI.fromBinary_made b x hx
  have eu := (GIAI.new_match hn).2.1.symm.trans hu
  refine ⟨u, hn, ?_, C, D, (dec_digits hC.1).no_dot, ?_, hD.1.1⟩
  rotate_left
  · rw [escape_digits hD.1.1]; exact eu
  rw [eu]
  exact ascii_append.2 ⟨by decide, ascii_append.2 ⟨ascii_of_digits hC.1, ascii_cons.2 ⟨by decide, ascii_of_digits hD.1.1⟩⟩⟩

theorem CPI.tag_cpi96 {b : Str} {x : CPI} (hB : Bits b) (hb : b.take 8 = py "00111100") (hx : CPI.fromBinary b = .ok x) :
    ∃ u, CPI.new u = .ok x ∧ Ascii u := by
  by_cases hl : 96 ≤ b.length
  case neg => rw [C28_cpi96 b hb (by omega)] at hx; cases hx
  have H := C52_cpi96 hB hb hl
  by_cases hK : ∃ C D, FreeFields b 54 C D
  case neg => rw [H.2 hK] at hx; cases hx
  obtain ⟨C, D, hF⟩ := hK
  have hP : Plain (bitField b 65 31) (natStr (bitField b 65 31)) := plain_iff.2 rfl
  obtain ⟨y, hy, hu⟩ := H.1 C D _ hF hP
  rw [hx] at hy; cases hy
  obtain ⟨p, hp, -, hC, hD⟩ := hF
  obtain ⟨u, hn⟩ := CPI.fromBinary_made b x hx
  have eu := (CPI.new_match hn).2.1.symm.trans hu
  refine ⟨u, hn, ?_⟩
  rw [eu]
  exact ascii_append.2 ⟨by decide, ascii_append.2 ⟨ascii_of_digits hC.1, ascii_cons.2 ⟨by decide, ascii_append.2 ⟨ascii_of_digits hD.1.1, ascii_cons.2 ⟨by decide, ascii_of_digits (Digits_natStr _)⟩⟩⟩⟩⟩

theorem USDOD.tag_usdod96 {b : Str} {x : USDOD} (hB : Bits b) (hb : b.take 8 = py "00101111") (hx : USDOD.fromBinary b = .ok x) :
    ∃ u, USDOD.new u = .ok x ∧ Ascii u := by
  by_cases hl : 96 ≤ b.length
  case neg => rw [C28_usdod96 b hb (by omega)] at hx; cases hx
  have hP : Plain (bitField b 60 36) (natStr (bitField b 60 36)) := plain_iff.2 rfl
  obtain ⟨h1, h2⟩ := C52_usdod96 hB hb hl rfl hP
  by_cases hG : CageCode ((byteText b 12 6).filter (· ≠ ' '))
  case neg => rw [h2 hG] at hx; cases hx
  obtain ⟨y, hy, hu⟩ := h1 hG
  rw [hx] at hy; cases hy
  obtain ⟨u, hn⟩ := USDOD.fromBinary_made b x hx
  have eu := (USDOD.new_match hn).2.1.symm.trans hu
  refine ⟨u, hn, ?_⟩
  rw [eu]
  exact ascii_append.2 ⟨by decide, ascii_append.2 ⟨(fun c hc => (by decide : ∀ c ∈ cageChars, c.toNat < 128) c (hG.1 c hc)), ascii_cons.2 ⟨by decide, ascii_of_digits (Digits_natStr _)⟩⟩⟩

theorem CPI.tag_cpiVar {b : Str} {x : CPI} (hB : Bits b) (hb : b.take 8 = py "00111101") (hx : CPI.fromBinary b = .ok x) :
    ∃ u, CPI.new u = .ok x ∧ Ascii u := by
  have hl := cpiVar_long hB hb hx
  have H := C54_cpi_var hB hb hl
  by_cases hK : ∃ C raw e, VarFields b C raw e
  case neg => rw [H.2 hK] at hx; cases hx
  obtain ⟨C, raw, e, hF⟩ := hK
  have hP : Plain (bitField b e 40) (natStr (bitField b e 40)) := plain_iff.2 rfl
  obtain ⟨h1, h2⟩ := H.1 C raw e _ hF hP
  by_cases hr : (∃ part, part ≠ [] ∧ (∀ c ∈ part, c ∈ gs39) ∧ escape39 raw = escape39 part) ∧ bitField b e 40 < 10 ^ 12 ∧ C.length + (escape39 raw).length ≤ 30
  case neg => rw [h2 hr] at hx; cases hx
  obtain ⟨⟨part, hne, hg, hesc⟩, hr2, hr3⟩ := hr
  obtain ⟨y, hy, hu⟩ := h1 part hne hg hesc hr2 hr3
  rw [hx] at hy; cases hy
  have hC : Digits C := by obtain ⟨_, _, _, hC, _⟩ := hF; exact hC.1
  obtain ⟨u, hn⟩ := CPI.fromBinary_made b x hx
  have eu := (CPI.new_match hn).2.1.symm.trans hu
  refine ⟨u, hn, ?_⟩
  rw [eu]
  exact ascii_append.2 ⟨by decide, ascii_append.2 ⟨ascii_of_digits hC, ascii_cons.2 ⟨by decide, ascii_append.2 ⟨ascii_escape39 hg, ascii_cons.2 ⟨by decide, ascii_of_digits (Digits_natStr _)⟩⟩⟩⟩⟩

theorem GIAI.tag_giai202 {b : Str} {x : GIAI} (hB : Bits b) (hb : b.take 8 = py "00111000") (hx : GIAI.fromBinary b = .ok x) :
    ∃ u, GIAI.new u = .ok x ∧ Ascii u ∧ ∃ C raw, '.' ∉ C ∧ u = Src.uri2 .giai C (escape raw) := by
  by_cases hl : 202 ≤ b.length
  case neg => rw [C28_giai202 b hb (by omega)] at hx; cases hx
  have H := C53_giai202 hB hb hl
  by_cases hK : ∃ C raw, TextFields b 191 C raw
  case neg => rw [H.2 hK] at hx; cases hx
  obtain ⟨C, raw, hF⟩ := hK
  obtain ⟨h1, h2, h3⟩ := H.1 C raw _ hF rfl
  generalize hh : raw.takeWhile (· ≠ ':') = head at h1 h2 h3
  by_cases hr : (∀ c ∈ raw, c ∈ gs82) ∧ head ≠ [] ∧ (LoneLetterEscapes head → C.length + (escape head).length ≤ 30)
  case neg => rw [h2 hr] at hx; cases hx
  by_cases hlo : LoneLetterEscapes head
  case neg => obtain ⟨e, he, -⟩ := h3 hlo; rw [he] at hx; cases hx
  obtain ⟨y, hy, hu⟩ := h1 hr.1 hr.2.1 hlo (hr.2.2 hlo)
  rw [hx] at hy; cases hy
  have hC : Digits C := by obtain ⟨_, _, _, hC, _⟩ := hF; exact hC.1
  have hne : raw ≠ [] := by
    rintro rfl
    rw [← hh] at hr
    exact hr.2.1 rfl
  obtain ⟨u, hn⟩ := GIAI.fromBinary_made b x hx
  have eu := (GIAI.new_match hn).2.1.symm.trans hu
  refine ⟨u, hn, ?_, C, raw, (dec_digits hC).no_dot, eu⟩
  rw [eu]
  exact ascii_append.2 ⟨by decide, ascii_append.2 ⟨ascii_of_digits hC, ascii_cons.2 ⟨by decide, gs3a3_ascii (gs3a3_escape hr.1 hne)⟩⟩⟩

theorem GID.tag_gid96 {b : Str} {x : GID} (hB : Bits b) (hb : b.take 8 = py "00110101") (hx : GID.fromBinary b = .ok x) :
    ∃ u, GID.new u = .ok x ∧ Ascii u := by
  by_cases hl : 96 ≤ b.length
  case neg => rw [C28_gid96 b hb (by omega)] at hx; cases hx
  obtain ⟨y, hy, hu⟩ := C52_gid96 hB hb hl (plain_iff.2 rfl) (plain_iff.2 rfl) (plain_iff.2 rfl)
  rw [hx] at hy; cases hy
  obtain ⟨u, hn⟩ := GID.fromBinary_made b x hx
  have eu := (GID.new_match hn).2.1.symm.trans hu
  refine ⟨u, hn, ?_⟩
  rw [eu]
  exact ascii_append.2 ⟨by decide, ascii_append.2 ⟨ascii_of_digits (Digits_natStr _), ascii_cons.2 ⟨by decide, ascii_append.2 ⟨ascii_of_digits (Digits_natStr _), ascii_cons.2 ⟨by decide, ascii_of_digits (Digits_natStr _)⟩⟩⟩⟩⟩

end Epc
