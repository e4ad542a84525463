#!/usr/bin/env python3
"""Generates lean/Verif/Props/C53.lean."""
out = ['''/-
C53: decoding of the binary encodings with a text, specified completely.

For every bit string with the header of the encoding and at least its size: if the numeric fields are in range, the outcome is determined by
the text in the seven-bit groups.  If it is a non-empty text over the GS1 character set that meets the restriction of C15
(`LoneLetterEscapes`) and is not too long, decoding yields exactly the EPC with these components, the text being escaped; if it has a
character outside the GS1 character set, is empty, or is too long, decoding raises ConvertException; if it does not meet the restriction,
decoding raises ConvertException, ValueError or OverflowError.  In all other cases, ConvertException is raised.
-/
import Verif.Lemmas.LayoutText
import Verif.Lemmas.DecodeAll

namespace Epc
open Spec Re
''']
S = [ # cls, enc, header, size, W, K, pos, groups, bits, second nonempty, limit
 ('SGTIN','sgtin198','00110110',198,47,'fun p => p + 1',58,20,140,True,None,'⟨by omega, ⟨by omega, by omega⟩, hv, by rw [replaceUriEscapes_escape]; exact List.length_pos_iff.2 hne, by rw [replaceUriEscapes_escape]; exact hlen⟩'),
 ('SGLN','sgln195','00111001',195,44,'fun p => p',55,20,140,False,None,'⟨by omega, ⟨by omega, by omega⟩, hv, by rw [replaceUriEscapes_escape]; exact hlen⟩'),
 ('GRAI','grai170','00110111',170,47,'fun p => p',58,16,112,False,16,'⟨by omega, ⟨by omega, by omega⟩, hv, hL⟩'),
 ('GDTI','gdti174','00111110',174,44,'fun p => p',55,17,119,False,17,'⟨by omega, ⟨by omega, by omega⟩, hv, hL⟩'),
]
for cls,enc,hd,size,W,K,pos,g,bits,ne,lim,prf in S:
    low=cls.lower()
    dpart = '⟨ne_nil_of_length hDl (by omega), dec_digits hD⟩' if ne else 'dec_digits hD'
    L = f'(escape raw).length ≤ {lim}' if lim else 'True'
    Lc = f' → (escape raw).length ≤ {lim}' if lim else ''
    Ln = f' ∧ (LoneLetterEscapes raw → (escape raw).length ≤ {lim})' if lim else ''
    note = f'  (The limit counts the characters of the escaped form.)' if lim else ''
    pat = {'SGTIN':'⟨_, _, k2, _, _⟩','SGLN':'⟨_, _, k2, _⟩','GRAI':'⟨_, _, k2, k3⟩','GDTI':'⟨_, _, k2, k3⟩'}[cls]
    inv = 'k3' if lim else 'trivial'
    d2 = 'hI\'.2.no_dot' if ne else 'hI\'.no_dot'
    if lim:
        fin = 'exact text_outcome e0 hok (fun h => h) hinv herr'
    else:
        fin = '''obtain ⟨r1, r2, r3⟩ := text_outcome (L := True) e0 (fun a b c _ => hok a b c) (fun h => h) hinv herr
    exact ⟨fun a b c => r1 a b c trivial, fun h => r2 fun ⟨a, b, _⟩ => h ⟨a, b⟩, r3⟩'''
    out.append(f'''/-- {cls}-{size}: {g} groups of seven bits after the key.{note} -/
theorem C53_{enc} {{b : Str}} (hB : Bits b) (hb : b.take 8 = py "{hd}") (hl : {size} ≤ b.length) :
    (∀ C D raw, KeyFields b {W} ({K}) C D → raw = sevenText b {pos} {g} →
      ((∀ c ∈ raw, c ∈ gs82) → raw ≠ [] → LoneLetterEscapes raw{Lc} →
        ∃ x, {cls}.fromBinary b = .ok x ∧ x.epcUri = py "urn:epc:id:{low}:" ++ joinWith '.' [C, D, escape raw]) ∧
      (¬ ((∀ c ∈ raw, c ∈ gs82) ∧ raw ≠ []{Ln}) → {cls}.fromBinary b = .error .convert) ∧
      (¬ LoneLetterEscapes raw → ∃ e, {cls}.fromBinary b = .error e ∧ (e = .convert ∨ e = .value ∨ e = .overflow))) ∧
    ((¬ ∃ C D, KeyFields b {W} ({K}) C D) → {cls}.fromBinary b = .error .convert) := by
  obtain ⟨k, k'⟩ := keyFields_decode (t := {cls}.table) (K := {K}) (W := {W}) (by decide) (by decide) hB (by omega) (by decide)
  rw [{cls}.decode_{enc} hB hb hl]
  constructor
  · intro C D raw hF hraw
    rw [k C D hF, ok_bind, decodeString_spec hB {g} {pos} {bits} (by omega) (by omega) (by omega), ok_bind, ← hraw]
    obtain ⟨p, hp, hC, hCl, hCne, hD, hDl⟩ := keyFields_facts hF
    have hlen : raw.length ≤ {g} := by rw [hraw]; exact sevenText_length b {g} {pos}
    rw [show (C ++ '.' :: D) ++ '.' :: escape raw = C ++ '.' :: (D ++ '.' :: escape raw) from by simp]
    have hok : (∀ c ∈ raw, c ∈ gs82) → raw ≠ [] → LoneLetterEscapes raw{Lc} →
        ∃ x, {cls}.fromTagUri (tagUriPrefix ++ {cls}.Coding.value .{enc} ++ ':' :: (natStr (bitsNumber ((b.drop 8).take 3)) ++ '.' :: (C ++ '.' :: (D ++ '.' :: escape raw)))) = .ok x ∧
          x.epcUri = py "urn:epc:id:{low}:" ++ joinWith '.' [C, D, escape raw] := by
      intro hr hne hlone{' hL' if lim else ''}
      have hv := (verify_escape_iff hr hne).2 hlone
      have hn := {cls}.new_iff.2 ⟨C, D, escape raw, ⟨⟨hCne, dec_digits hC⟩, {dpart}, gs3a3_escape hr hne⟩, {prf}, rfl, rfl⟩
      exact ⟨_, {cls}.fromTagUri_of_new (num_natStr _) hn, rfl⟩
    have e0 := fromTagUri_filter (new := {cls}.new) (n := {cls}.Coding.value .{enc}) (f := natStr (bitsNumber ((b.drop 8).take 3)))
      (b := C ++ '.' :: (D ++ '.' :: escape raw)) (by decide) (num_natStr _)
    have hinv : ∀ x, {cls}.new (py "urn:epc:id:" ++ (split '-' ({cls}.Coding.value .{enc})).headD [] ++ ':' :: (C ++ '.' :: (D ++ '.' :: escape raw))) = .ok x →
        Lang Rx.gs3a3 (escape raw) ∧ verifyGs3a3 (escape raw) = .ok () ∧ {L} := by
      intro x hx
      obtain ⟨C', D', S', ⟨hC', hI', hS'⟩, {pat}, hu, _⟩ := {cls}.new_iff.1 hx
      have := uri3_inj (q := py "urn:epc:id:{low}") (dec_digits hC).no_dot (dec_digits hD).no_dot hC'.2.no_dot {d2} hu
      obtain ⟨-, -, rfl⟩ := this
      exact ⟨hS', k2, {inv}⟩
    have herr : ∀ e, {cls}.new (py "urn:epc:id:" ++ (split '-' ({cls}.Coding.value .{enc})).headD [] ++ ':' :: (C ++ '.' :: (D ++ '.' :: escape raw))) = .error e →
        e = .convert ∨ (Lang Rx.gs3a3 (escape raw) ∧ verifyGs3a3 (escape raw) = .error e) := by
      intro e he
      rcases {cls}.new_error he with h | ⟨C', D', S', ⟨hC', hI', hS'⟩, hu, h⟩
      · exact .inl h
      · have := uri3_inj (q := py "urn:epc:id:{low}") (dec_digits hC).no_dot (dec_digits hD).no_dot hC'.2.no_dot {d2} hu
        obtain ⟨-, -, rfl⟩ := this
        exact .inr ⟨hS', h⟩
    {fin}
  · intro hno
    rw [k' hno, error_bind]
''')
out.append('''/-- ITIP-212: piece and total of seven bits each, then 20 groups of seven bits. -/
theorem C53_itip212 {b : Str} (hB : Bits b) (hb : b.take 8 = py "01000001") (hl : 212 ≤ b.length) :
    (∀ C D P T raw, KeyFields b 47 (fun p => p + 1) C D → Padded 2 (bitField b 58 7) P → Padded 2 (bitField b 65 7) T → raw = sevenText b 72 20 →
      ((∀ c ∈ raw, c ∈ gs82) → raw ≠ [] → LoneLetterEscapes raw →
        ∃ x, ITIP.fromBinary b = .ok x ∧ x.epcUri = py "urn:epc:id:itip:" ++ joinWith '.' [C, D, P, T, escape raw]) ∧
      (¬ ((∀ c ∈ raw, c ∈ gs82) ∧ raw ≠ []) → ITIP.fromBinary b = .error .convert) ∧
      (¬ LoneLetterEscapes raw → ∃ e, ITIP.fromBinary b = .error e ∧ (e = .convert ∨ e = .value ∨ e = .overflow))) ∧
    ((¬ ((∃ C D, KeyFields b 47 (fun p => p + 1) C D) ∧ bitField b 58 7 ≤ 99 ∧ bitField b 65 7 ≤ 99)) → ITIP.fromBinary b = .error .convert) := by
  obtain ⟨k, k'⟩ := keyFields_decode (t := ITIP.table) (K := fun p => p + 1) (W := 47) (by decide) (by decide) hB (by omega) (by decide)
  obtain ⟨a, a'⟩ := decodeFixed_spec (bits_take (bits_drop hB 58) 7) (field_length (by omega))
  obtain ⟨c, c'⟩ := decodeFixed_spec (bits_take (bits_drop hB 65) 7) (field_length (by omega))
  rw [ITIP.decode_itip212 hB hb hl]
  constructor
  · intro C D P T raw hF hP hT hraw
    rw [k C D hF, ok_bind, a P hP, ok_bind, c T hT, ok_bind, decodeString_spec hB 20 72 140 (by omega) (by omega) (by omega), ok_bind, ← hraw]
    obtain ⟨p, hp, hC, hCl, hCne, hD, hDl⟩ := keyFields_facts hF
    have hlen : raw.length ≤ 20 := by rw [hraw]; exact sevenText_length b 20 72
    have hPl := hP.2.1
    have hTl := hT.2.1
    rw [show (C ++ '.' :: D) ++ '.' :: (P ++ '.' :: (T ++ '.' :: escape raw)) = C ++ '.' :: (D ++ '.' :: (P ++ '.' :: (T ++ '.' :: escape raw))) from by simp]
    have hok : (∀ c ∈ raw, c ∈ gs82) → raw ≠ [] → LoneLetterEscapes raw →
        ∃ x, ITIP.fromTagUri (tagUriPrefix ++ ITIP.Coding.value .itip212 ++ ':' :: (natStr (bitsNumber ((b.drop 8).take 3)) ++ '.' ::
            (C ++ '.' :: (D ++ '.' :: (P ++ '.' :: (T ++ '.' :: escape raw)))))) = .ok x ∧
          x.epcUri = py "urn:epc:id:itip:" ++ joinWith '.' [C, D, P, T, escape raw] := by
      intro hr hne hlone
      have hv := (verify_escape_iff hr hne).2 hlone
      have hn := ITIP.new_iff.2 ⟨C, D, P, T, escape raw, ⟨⟨hCne, dec_digits hC⟩, ⟨ne_nil_of_length hDl (by omega), dec_digits hD⟩,
        ⟨ne_nil_of_length hPl (by omega), dec_digits hP.1⟩, ⟨ne_nil_of_length hTl (by omega), dec_digits hT.1⟩, gs3a3_escape hr hne⟩,
        ⟨by omega, ⟨by omega, by omega⟩, hv, by rw [replaceUriEscapes_escape]; exact List.length_pos_iff.2 hne, by rw [replaceUriEscapes_escape]; exact hlen⟩, rfl, rfl⟩
      exact ⟨_, ITIP.fromTagUri_of_new (num_natStr _) hn, rfl⟩
    have e0 := fromTagUri_filter (new := ITIP.new) (n := ITIP.Coding.value .itip212) (f := natStr (bitsNumber ((b.drop 8).take 3)))
      (b := C ++ '.' :: (D ++ '.' :: (P ++ '.' :: (T ++ '.' :: escape raw)))) (by decide) (num_natStr _)
    have inj : ∀ {C' D' P' T' S'}, '.' ∉ C' → '.' ∉ D' → '.' ∉ P' → '.' ∉ T' →
        py "urn:epc:id:itip" ++ ':' :: (C ++ '.' :: (D ++ '.' :: (P ++ '.' :: (T ++ '.' :: escape raw)))) =
          py "urn:epc:id:itip" ++ ':' :: (C' ++ '.' :: (D' ++ '.' :: (P' ++ '.' :: (T' ++ '.' :: S')))) → escape raw = S' := by
      intro C' D' P' T' S' h1 h2 h3 h4 hu
      obtain ⟨-, -, e⟩ := uri3_inj (dec_digits hC).no_dot (dec_digits hD).no_dot h1 h2 hu
      obtain ⟨-, e⟩ := append_sep_inj (dec_digits hP.1).no_dot h3 e
      exact (append_sep_inj (dec_digits hT.1).no_dot h4 e).2
    have hinv : ∀ x, ITIP.new (py "urn:epc:id:" ++ (split '-' (ITIP.Coding.value .itip212)).headD [] ++ ':' ::
          (C ++ '.' :: (D ++ '.' :: (P ++ '.' :: (T ++ '.' :: escape raw))))) = .ok x →
        Lang Rx.gs3a3 (escape raw) ∧ verifyGs3a3 (escape raw) = .ok () ∧ True := by
      intro x hx
      obtain ⟨C', D', P', T', S', ⟨hC', hI', hP', hT', hS'⟩, ⟨_, _, k2, _, _⟩, hu, _⟩ := ITIP.new_iff.1 hx
      obtain rfl := inj hC'.2.no_dot hI'.2.no_dot hP'.2.no_dot hT'.2.no_dot hu
      exact ⟨hS', k2, trivial⟩
    have herr : ∀ e, ITIP.new (py "urn:epc:id:" ++ (split '-' (ITIP.Coding.value .itip212)).headD [] ++ ':' ::
          (C ++ '.' :: (D ++ '.' :: (P ++ '.' :: (T ++ '.' :: escape raw))))) = .error e →
        e = .convert ∨ (Lang Rx.gs3a3 (escape raw) ∧ verifyGs3a3 (escape raw) = .error e) := by
      intro e he
      rcases ITIP.new_error he with h | ⟨C', D', P', T', S', ⟨hC', hI', hP', hT', hS'⟩, hu, h⟩
      · exact .inl h
      · obtain rfl := inj hC'.2.no_dot hI'.2.no_dot hP'.2.no_dot hT'.2.no_dot hu
        exact .inr ⟨hS', h⟩
    obtain ⟨r1, r2, r3⟩ := text_outcome (L := True) e0 (fun a b c _ => hok a b c) (fun h => h) hinv herr
    exact ⟨fun a b c => r1 a b c trivial, fun h => r2 fun ⟨a, b, _⟩ => h ⟨a, b⟩, r3⟩
  · intro hno
    by_cases hF : ∃ C D, KeyFields b 47 (fun p => p + 1) C D
    · by_cases h1 : bitField b 58 7 ≤ 99
      · have h2 : ¬ bitField b 65 7 ≤ 99 := fun h2 => hno ⟨hF, h1, h2⟩
        obtain ⟨C, D, hF⟩ := hF
        have hT := c' fun ⟨A, hA⟩ => by
          have := ((padded_iff (by decide)).1 hA).1
          exact h2 (by show bitsNumber _ ≤ 99; omega)
        rw [k C D hF, ok_bind, a _ ((padded_iff (by decide)).2 ⟨by show bitField b 58 7 < _; omega, rfl⟩), ok_bind, hT, error_bind]
      · obtain ⟨C, D, hF⟩ := hF
        have hP := a' fun ⟨A, hA⟩ => by
          have := ((padded_iff (by decide)).1 hA).1
          exact h1 (by show bitsNumber _ ≤ 99; omega)
        rw [k C D hF, ok_bind, hP, error_bind]
    · rw [k' hF, error_bind]

/-- GIAI-202: the asset reference is a text in the groups of seven bits that follow the company prefix.  The code looks only at the part
before the first colon (`head`) when it checks length and escapes; the limit counts the characters of the escaped form. -/
theorem C53_giai202 {b : Str} (hB : Bits b) (hb : b.take 8 = py "00111000") (hl : 202 ≤ b.length) :
    (∀ C raw head, TextFields b 191 C raw → head = raw.takeWhile (· ≠ ':') →
      ((∀ c ∈ raw, c ∈ gs82) → head ≠ [] → LoneLetterEscapes head → C.length + (escape head).length ≤ 30 →
        ∃ x, GIAI.fromBinary b = .ok x ∧ x.epcUri = py "urn:epc:id:giai:" ++ joinWith '.' [C, escape raw]) ∧
      (¬ ((∀ c ∈ raw, c ∈ gs82) ∧ head ≠ [] ∧ (LoneLetterEscapes head → C.length + (escape head).length ≤ 30)) → GIAI.fromBinary b = .error .convert) ∧
      (¬ LoneLetterEscapes head → ∃ e, GIAI.fromBinary b = .error e ∧ (e = .convert ∨ e = .value ∨ e = .overflow))) ∧
    ((¬ ∃ C raw, TextFields b 191 C raw) → GIAI.fromBinary b = .error .convert) := by
  obtain ⟨k, k'⟩ := textFields_decode (t := GIAI.table202) (W := 191) (by decide) (by decide) hB (by omega) (by decide)
  rw [GIAI.decode_giai202 hB hb hl]
  constructor
  · intro C raw head hF hhead
    rw [k C raw hF, ok_bind]
    obtain ⟨p, hp6, hp, hC, -⟩ := hF
    have hCl := hC.2.1
    have hCne : C ≠ [] := ne_nil_of_length hCl (by omega)
    have hsp : (split ':' (escape raw)).headD [] = escape head := by rw [split_escape_colon, hhead]
    have hsub : (∀ c ∈ raw, c ∈ gs82) → ∀ c ∈ head, c ∈ gs82 := fun h c hc => h c (by
      rw [hhead] at hc; exact List.takeWhile_subset _ hc)
    have hok : (∀ c ∈ raw, c ∈ gs82) → head ≠ [] → LoneLetterEscapes head → C.length + (escape head).length ≤ 30 →
        ∃ x, GIAI.fromTagUri (tagUriPrefix ++ GIAI.Coding.value .giai202 ++ ':' :: (natStr (bitsNumber ((b.drop 8).take 3)) ++ '.' :: (C ++ '.' :: escape raw))) = .ok x ∧
          x.epcUri = py "urn:epc:id:giai:" ++ joinWith '.' [C, escape raw] := by
      intro hr hne hlone hL
      have hv := (verify_escape_iff (hsub hr) hne).2 hlone
      have hrne : raw ≠ [] := by rintro rfl; exact hne hhead
      have hn := GIAI.new_iff.2 ⟨C, escape raw, ⟨⟨hCne, dec_digits hC.1⟩, gs3a3_escape hr hrne⟩, by rw [hsp]; exact ⟨⟨by omega, by omega⟩, hv, hL⟩, rfl, rfl⟩
      exact ⟨_, GIAI.fromTagUri_of_new (num_natStr _) hn, rfl⟩
    have e0 := fromTagUri_filter (new := GIAI.new) (n := GIAI.Coding.value .giai202) (f := natStr (bitsNumber ((b.drop 8).take 3)))
      (b := C ++ '.' :: escape raw) (by decide) (num_natStr _)
    have hinv : ∀ x, GIAI.new (py "urn:epc:id:" ++ (split '-' (GIAI.Coding.value .giai202)).headD [] ++ ':' :: (C ++ '.' :: escape raw)) = .ok x →
        Lang Rx.gs3a3 (escape raw) ∧ verifyGs3a3 (escape head) = .ok () ∧ C.length + (escape head).length ≤ 30 := by
      intro x hx
      obtain ⟨C', S', ⟨hC', hS'⟩, ⟨_, k2, k3⟩, hu, _⟩ := GIAI.new_iff.1 hx
      obtain ⟨rfl, rfl⟩ := uri2_inj (q := py "urn:epc:id:giai") (dec_digits hC.1).no_dot hC'.2.no_dot hu
      rw [hsp] at k2 k3
      exact ⟨hS', k2, k3⟩
    have herr : ∀ e, GIAI.new (py "urn:epc:id:" ++ (split '-' (GIAI.Coding.value .giai202)).headD [] ++ ':' :: (C ++ '.' :: escape raw)) = .error e →
        e = .convert ∨ (Lang Rx.gs3a3 (escape raw) ∧ verifyGs3a3 (escape head) = .error e) := by
      intro e he
      rcases GIAI.new_error he with h | ⟨C', S', ⟨hC', hS'⟩, hu, h⟩
      · exact .inl h
      · obtain ⟨rfl, rfl⟩ := uri2_inj (q := py "urn:epc:id:giai") (dec_digits hC.1).no_dot hC'.2.no_dot hu
        rw [hsp] at h
        exact .inr ⟨hS', h⟩
    exact text_outcome e0 hok hsub hinv herr
  · intro hno
    rw [k' hno, error_bind]

/-! ### The hypotheses are met, and all cases occur -/

example : sevenText (List.replicate 58 '0' ++ (py "1100001" ++ List.replicate 7 '0' ++ py "0100010") ++ List.replicate 119 '0') 58 20 = py "a\\"" ∧
    (LoneLetterEscapes (py "a\\"") ∧ ∀ c ∈ py "a\\"", c ∈ gs82) ∧ ¬ LoneLetterEscapes (py "/xyz") ∧ ¬ (∀ c ∈ py "a#", c ∈ gs82) :=
  ⟨by decide +kernel, ⟨loneLetter_of_none (by decide), by decide⟩, fun h => by
    have := h [] '/' (py "xyz") rfl (by decide) (.inl rfl)
    rcases this with h | ⟨d, b', h, hd⟩
    · cases h
    · injection h with h
      subst h
      exact absurd hd (by decide), by decide⟩
''')
out.append('end Epc\n')
open('/verif/lean/Verif/Props/C53.lean','w').write('\n'.join(out))
