/-
C72: hex, base64, from_hex and from_base64 are specified for every object and every text.

`HexString s`: s consists of hexadecimal digits, at least one; `hexStringBits s` are their bits, four per digit.  `base64Chars t` are the
characters of t that belong to the base64 alphabet, `base64Bits` their bits, six per character, without those behind the last whole byte.
Generated by tools/gen_c72.py.
-/
import Verif.Lemmas.HexIn
import Verif.Lemmas.BinChars

namespace Epc
open Spec

private theorem hdr_key {κ α : Type} {headers : List (Str × κ)} {value : κ → Str} {b : Str} {k : κ × Str → Except Err α}
    (h : headers.all (fun p => p.1.take 4 != py "0000" && p.1.take 1 == ['0']) = true)
    (hb : b.take 4 = py "0000" ∨ b.head? = some '-') : (parseHeader headers value b >>= k) = .error .key := by
  unfold parseHeader
  have : headers.lookup (b.take 8) = none := by
    cases e : headers.lookup (b.take 8) with
    | none => rfl
    | some c =>
      exfalso
      have hm := lookup_mem e
      have := List.all_eq_true.1 h _ hm
      simp only [Bool.and_eq_true, bne_iff_ne, beq_iff_eq, List.take_take] at this
      rcases hb with hb | hb
      · exact this.1 hb
      · cases b with
        | nil => cases hb
        | cons c t =>
          injection hb with hb
          subst hb
          exact absurd this.2 (by simp)
  rw [this]
  rfl

private theorem pyInt_error_value {b : Nat} {s : Str} {e : Err} (h : pyInt b s = .error e) : e = .value := by
  unfold pyInt at h
  dsimp only at h
  split at h <;> split at h <;> cases h <;> rfl

private theorem hex_minus {b hd r : Str} {c : Cls} (hc : hd ∈ c.binaryHeaders) (hb : b = hd ++ r) (hr : Signed r) :
    (∀ c ∈ b, c = '0' ∨ c = '1' ∨ c = '-') ∧ (¬ Bits b → hexOf (.ok b) = .error .value ∧ base64Of (.ok b) = .error .value) := by
  obtain ⟨h8, hs, h0, _⟩ := header_facts c (by cases c <;> decide) hd hc
  have hS : Signed b := by rw [hb]; exact hs.append hr
  refine ⟨hS, fun hn => ?_⟩
  have e : hexOf (.ok b) = .error .value := by
    cases hh : hexOf (.ok b) with
    | ok h =>
      refine absurd (bits_of_hexOf hS ?_ hh) hn
      rw [hb]
      cases hd with
      | nil => cases h0
      | cons a t => exact h0
    | error e =>
      unfold hexOf at hh
      rw [ok_bind] at hh
      dsimp only at hh
      cases hp : pyInt 2 (padRight '0' (b.length + (16 - b.length % 16) % 16) b) with
      | ok i => rw [hp] at hh; cases hh
      | error e' =>
        rw [hp, error_bind] at hh
        cases hh
        rw [pyInt_error_value hp]
  refine ⟨e, ?_⟩
  unfold base64Of
  rw [e, error_bind]

private theorem hex_none {e : Err} : hexOf (.error e) = .error e ∧ base64Of (.error e) = .error e := ⟨rfl, rfl⟩

/-- A pad character in the middle of a base64 text: it ends the text if it completes a group of four characters, perhaps together with the
next character, also a pad character; otherwise it does not count. -/
theorem C72_pad (t r : Str) (hp : '=' ∉ t) (ht : Ascii t) (hr : Ascii r) :
    ((base64Chars t).length % 4 = 3 → base64ToHex (t ++ '=' :: r) = base64ToHex t) ∧
    ((base64Chars t).length % 4 = 2 → base64ToHex (t ++ '=' :: '=' :: r) = base64ToHex t) ∧
    ((base64Chars t).length % 4 = 2 → (∃ a r', r.filter (fun c => c == '=' || decide (c ∈ base64Alphabet)) = a :: r' ∧ a ≠ '=') →
      base64ToHex (t ++ '=' :: r) = base64ToHex (t ++ r)) ∧
    ((base64Chars t).length % 4 ≤ 1 → base64ToHex (t ++ '=' :: r) = base64ToHex (t ++ r)) :=
  base64ToHex_pad hp ht hr

example : base64ToHex (py "MDE=MDE") = .ok (py "3031") ∧ base64ToHex (py "MD=E") = base64ToHex (py "MDE") ∧
    base64ToHex (py "M=DE") = base64ToHex (py "MDE") := by decide +kernel

/-- SGTIN: reading hexadecimal text. -/
theorem C72_sgtin_from_hex (s : Str) :
    (HexString s → SGTIN.fromHex s = SGTIN.fromBinary (hexStringBits s)) ∧
    (¬ HexString s → SGTIN.fromHex s = .error .value ∨ SGTIN.fromHex s = .error .key) :=
  fromHexWith_any (fun _ hb => hdr_key (by decide) hb) s

/-- SGTIN: reading base64 text. -/
theorem C72_sgtin_from_base64 (s : Str) :
    (¬ Ascii s → SGTIN.fromBase64 s = .error .value) ∧
    ∀ t k, s = t ++ List.replicate k '=' → '=' ∉ t → Ascii t →
      ((base64Chars t).length % 4 = 1 ∨ base64Chars t = [] → SGTIN.fromBase64 s = .error .value) ∧
      ((base64Chars t).length % 4 ≠ 1 → base64Chars t ≠ [] → SGTIN.fromBase64 s = SGTIN.fromBinary (base64Bits (base64Chars t))) :=
  fromBase64With_any s

/-- SGTIN: writing text; C25 and C26 tell the result for a bit string. -/
theorem C72_sgtin_write (x : SGTIN) (cs : SGTIN.Coding) (f : Fin 8) :
    (∀ b, x.binary cs f = .ok b → (∀ c ∈ b, c = '0' ∨ c = '1' ∨ c = '-') ∧
      (¬ Bits b → x.hex cs f = .error .value ∧ x.base64 cs f = .error .value)) ∧
    (∀ e, x.binary cs f = .error e → x.hex cs f = .error e ∧ x.base64 cs f = .error e) := by
  unfold SGTIN.hex SGTIN.base64
  constructor
  · intro b hb
    obtain ⟨r, hr, e⟩ := SGTIN.binary_signed hb
    rw [hb]
    exact hex_minus (SGTIN.header_mem cs) e hr
  · intro e he
    rw [he]
    exact hex_none

/-- SSCC: reading hexadecimal text. -/
theorem C72_sscc_from_hex (s : Str) :
    (HexString s → SSCC.fromHex s = SSCC.fromBinary (hexStringBits s)) ∧
    (¬ HexString s → SSCC.fromHex s = .error .value ∨ SSCC.fromHex s = .error .key) :=
  fromHexWith_any (fun _ hb => hdr_key (by decide) hb) s

/-- SSCC: reading base64 text. -/
theorem C72_sscc_from_base64 (s : Str) :
    (¬ Ascii s → SSCC.fromBase64 s = .error .value) ∧
    ∀ t k, s = t ++ List.replicate k '=' → '=' ∉ t → Ascii t →
      ((base64Chars t).length % 4 = 1 ∨ base64Chars t = [] → SSCC.fromBase64 s = .error .value) ∧
      ((base64Chars t).length % 4 ≠ 1 → base64Chars t ≠ [] → SSCC.fromBase64 s = SSCC.fromBinary (base64Bits (base64Chars t))) :=
  fromBase64With_any s

/-- SSCC: writing text; C25 and C26 tell the result for a bit string. -/
theorem C72_sscc_write (x : SSCC) (cs : SSCC.Coding) (f : Fin 8) :
    (∀ b, x.binary cs f = .ok b → (∀ c ∈ b, c = '0' ∨ c = '1' ∨ c = '-') ∧
      (¬ Bits b → x.hex cs f = .error .value ∧ x.base64 cs f = .error .value)) ∧
    (∀ e, x.binary cs f = .error e → x.hex cs f = .error e ∧ x.base64 cs f = .error e) := by
  unfold SSCC.hex SSCC.base64
  constructor
  · intro b hb
    obtain ⟨r, hr, e⟩ := SSCC.binary_signed hb
    rw [hb]
    exact hex_minus (SSCC.header_mem cs) e hr
  · intro e he
    rw [he]
    exact hex_none

/-- SGLN: reading hexadecimal text. -/
theorem C72_sgln_from_hex (s : Str) :
    (HexString s → SGLN.fromHex s = SGLN.fromBinary (hexStringBits s)) ∧
    (¬ HexString s → SGLN.fromHex s = .error .value ∨ SGLN.fromHex s = .error .key) :=
  fromHexWith_any (fun _ hb => hdr_key (by decide) hb) s

/-- SGLN: reading base64 text. -/
theorem C72_sgln_from_base64 (s : Str) :
    (¬ Ascii s → SGLN.fromBase64 s = .error .value) ∧
    ∀ t k, s = t ++ List.replicate k '=' → '=' ∉ t → Ascii t →
      ((base64Chars t).length % 4 = 1 ∨ base64Chars t = [] → SGLN.fromBase64 s = .error .value) ∧
      ((base64Chars t).length % 4 ≠ 1 → base64Chars t ≠ [] → SGLN.fromBase64 s = SGLN.fromBinary (base64Bits (base64Chars t))) :=
  fromBase64With_any s

/-- SGLN: writing text; C25 and C26 tell the result for a bit string. -/
theorem C72_sgln_write (x : SGLN) (cs : SGLN.Coding) (f : Fin 8) :
    (∀ b, x.binary cs f = .ok b → (∀ c ∈ b, c = '0' ∨ c = '1' ∨ c = '-') ∧
      (¬ Bits b → x.hex cs f = .error .value ∧ x.base64 cs f = .error .value)) ∧
    (∀ e, x.binary cs f = .error e → x.hex cs f = .error e ∧ x.base64 cs f = .error e) := by
  unfold SGLN.hex SGLN.base64
  constructor
  · intro b hb
    obtain ⟨r, hr, e⟩ := SGLN.binary_signed hb
    rw [hb]
    exact hex_minus (SGLN.header_mem cs) e hr
  · intro e he
    rw [he]
    exact hex_none

/-- GRAI: reading hexadecimal text. -/
theorem C72_grai_from_hex (s : Str) :
    (HexString s → GRAI.fromHex s = GRAI.fromBinary (hexStringBits s)) ∧
    (¬ HexString s → GRAI.fromHex s = .error .value ∨ GRAI.fromHex s = .error .key) :=
  fromHexWith_any (fun _ hb => hdr_key (by decide) hb) s

/-- GRAI: reading base64 text. -/
theorem C72_grai_from_base64 (s : Str) :
    (¬ Ascii s → GRAI.fromBase64 s = .error .value) ∧
    ∀ t k, s = t ++ List.replicate k '=' → '=' ∉ t → Ascii t →
      ((base64Chars t).length % 4 = 1 ∨ base64Chars t = [] → GRAI.fromBase64 s = .error .value) ∧
      ((base64Chars t).length % 4 ≠ 1 → base64Chars t ≠ [] → GRAI.fromBase64 s = GRAI.fromBinary (base64Bits (base64Chars t))) :=
  fromBase64With_any s

/-- GRAI: writing text; C25 and C26 tell the result for a bit string. -/
theorem C72_grai_write (x : GRAI) (cs : GRAI.Coding) (f : Fin 8) :
    (∀ b, x.binary cs f = .ok b → (∀ c ∈ b, c = '0' ∨ c = '1' ∨ c = '-') ∧
      (¬ Bits b → x.hex cs f = .error .value ∧ x.base64 cs f = .error .value)) ∧
    (∀ e, x.binary cs f = .error e → x.hex cs f = .error e ∧ x.base64 cs f = .error e) := by
  unfold GRAI.hex GRAI.base64
  constructor
  · intro b hb
    obtain ⟨r, hr, e⟩ := GRAI.binary_signed hb
    rw [hb]
    exact hex_minus (GRAI.header_mem cs) e hr
  · intro e he
    rw [he]
    exact hex_none

/-- GIAI: reading hexadecimal text. -/
theorem C72_giai_from_hex (s : Str) :
    (HexString s → GIAI.fromHex s = GIAI.fromBinary (hexStringBits s)) ∧
    (¬ HexString s → GIAI.fromHex s = .error .value ∨ GIAI.fromHex s = .error .key) :=
  fromHexWith_any (fun _ hb => hdr_key (by decide) hb) s

/-- GIAI: reading base64 text. -/
theorem C72_giai_from_base64 (s : Str) :
    (¬ Ascii s → GIAI.fromBase64 s = .error .value) ∧
    ∀ t k, s = t ++ List.replicate k '=' → '=' ∉ t → Ascii t →
      ((base64Chars t).length % 4 = 1 ∨ base64Chars t = [] → GIAI.fromBase64 s = .error .value) ∧
      ((base64Chars t).length % 4 ≠ 1 → base64Chars t ≠ [] → GIAI.fromBase64 s = GIAI.fromBinary (base64Bits (base64Chars t))) :=
  fromBase64With_any s

/-- GIAI: writing text; C25 and C26 tell the result for a bit string. -/
theorem C72_giai_write (x : GIAI) (cs : GIAI.Coding) (f : Fin 8) :
    (∀ b, x.binary cs f = .ok b → (∀ c ∈ b, c = '0' ∨ c = '1' ∨ c = '-') ∧
      (¬ Bits b → x.hex cs f = .error .value ∧ x.base64 cs f = .error .value)) ∧
    (∀ e, x.binary cs f = .error e → x.hex cs f = .error e ∧ x.base64 cs f = .error e) := by
  unfold GIAI.hex GIAI.base64
  constructor
  · intro b hb
    obtain ⟨r, hr, e⟩ := GIAI.binary_signed hb
    rw [hb]
    exact hex_minus (GIAI.header_mem cs) e hr
  · intro e he
    rw [he]
    exact hex_none

/-- GSRN: reading hexadecimal text. -/
theorem C72_gsrn_from_hex (s : Str) :
    (HexString s → GSRN.fromHex s = GSRN.fromBinary (hexStringBits s)) ∧
    (¬ HexString s → GSRN.fromHex s = .error .value ∨ GSRN.fromHex s = .error .key) :=
  fromHexWith_any (fun _ hb => hdr_key (by decide) hb) s

/-- GSRN: reading base64 text. -/
theorem C72_gsrn_from_base64 (s : Str) :
    (¬ Ascii s → GSRN.fromBase64 s = .error .value) ∧
    ∀ t k, s = t ++ List.replicate k '=' → '=' ∉ t → Ascii t →
      ((base64Chars t).length % 4 = 1 ∨ base64Chars t = [] → GSRN.fromBase64 s = .error .value) ∧
      ((base64Chars t).length % 4 ≠ 1 → base64Chars t ≠ [] → GSRN.fromBase64 s = GSRN.fromBinary (base64Bits (base64Chars t))) :=
  fromBase64With_any s

/-- GSRN: writing text; C25 and C26 tell the result for a bit string. -/
theorem C72_gsrn_write (x : GSRN) (cs : GSRN.Coding) (f : Fin 8) :
    (∀ b, x.binary cs f = .ok b → (∀ c ∈ b, c = '0' ∨ c = '1' ∨ c = '-') ∧
      (¬ Bits b → x.hex cs f = .error .value ∧ x.base64 cs f = .error .value)) ∧
    (∀ e, x.binary cs f = .error e → x.hex cs f = .error e ∧ x.base64 cs f = .error e) := by
  unfold GSRN.hex GSRN.base64
  constructor
  · intro b hb
    obtain ⟨r, hr, e⟩ := GSRN.binary_signed hb
    rw [hb]
    exact hex_minus (GSRN.header_mem cs) e hr
  · intro e he
    rw [he]
    exact hex_none

/-- GSRNP: reading hexadecimal text. -/
theorem C72_gsrnp_from_hex (s : Str) :
    (HexString s → GSRNP.fromHex s = GSRNP.fromBinary (hexStringBits s)) ∧
    (¬ HexString s → GSRNP.fromHex s = .error .value ∨ GSRNP.fromHex s = .error .key) :=
  fromHexWith_any (fun _ hb => hdr_key (by decide) hb) s

/-- GSRNP: reading base64 text. -/
theorem C72_gsrnp_from_base64 (s : Str) :
    (¬ Ascii s → GSRNP.fromBase64 s = .error .value) ∧
    ∀ t k, s = t ++ List.replicate k '=' → '=' ∉ t → Ascii t →
      ((base64Chars t).length % 4 = 1 ∨ base64Chars t = [] → GSRNP.fromBase64 s = .error .value) ∧
      ((base64Chars t).length % 4 ≠ 1 → base64Chars t ≠ [] → GSRNP.fromBase64 s = GSRNP.fromBinary (base64Bits (base64Chars t))) :=
  fromBase64With_any s

/-- GSRNP: writing text; C25 and C26 tell the result for a bit string. -/
theorem C72_gsrnp_write (x : GSRNP) (cs : GSRNP.Coding) (f : Fin 8) :
    (∀ b, x.binary cs f = .ok b → (∀ c ∈ b, c = '0' ∨ c = '1' ∨ c = '-') ∧
      (¬ Bits b → x.hex cs f = .error .value ∧ x.base64 cs f = .error .value)) ∧
    (∀ e, x.binary cs f = .error e → x.hex cs f = .error e ∧ x.base64 cs f = .error e) := by
  unfold GSRNP.hex GSRNP.base64
  constructor
  · intro b hb
    obtain ⟨r, hr, e⟩ := GSRNP.binary_signed hb
    rw [hb]
    exact hex_minus (GSRNP.header_mem cs) e hr
  · intro e he
    rw [he]
    exact hex_none

/-- GDTI: reading hexadecimal text. -/
theorem C72_gdti_from_hex (s : Str) :
    (HexString s → GDTI.fromHex s = GDTI.fromBinary (hexStringBits s)) ∧
    (¬ HexString s → GDTI.fromHex s = .error .value ∨ GDTI.fromHex s = .error .key) :=
  fromHexWith_any (fun _ hb => hdr_key (by decide) hb) s

/-- GDTI: reading base64 text. -/
theorem C72_gdti_from_base64 (s : Str) :
    (¬ Ascii s → GDTI.fromBase64 s = .error .value) ∧
    ∀ t k, s = t ++ List.replicate k '=' → '=' ∉ t → Ascii t →
      ((base64Chars t).length % 4 = 1 ∨ base64Chars t = [] → GDTI.fromBase64 s = .error .value) ∧
      ((base64Chars t).length % 4 ≠ 1 → base64Chars t ≠ [] → GDTI.fromBase64 s = GDTI.fromBinary (base64Bits (base64Chars t))) :=
  fromBase64With_any s

/-- GDTI: writing text; C25 and C26 tell the result for a bit string. -/
theorem C72_gdti_write (x : GDTI) (cs : GDTI.Coding) (f : Fin 8) :
    (∀ b, x.binary cs f = .ok b → (∀ c ∈ b, c = '0' ∨ c = '1' ∨ c = '-') ∧
      (¬ Bits b → x.hex cs f = .error .value ∧ x.base64 cs f = .error .value)) ∧
    (∀ e, x.binary cs f = .error e → x.hex cs f = .error e ∧ x.base64 cs f = .error e) := by
  unfold GDTI.hex GDTI.base64
  constructor
  · intro b hb
    obtain ⟨r, hr, e⟩ := GDTI.binary_signed hb
    rw [hb]
    exact hex_minus (GDTI.header_mem cs) e hr
  · intro e he
    rw [he]
    exact hex_none

/-- CPI: reading hexadecimal text. -/
theorem C72_cpi_from_hex (s : Str) :
    (HexString s → CPI.fromHex s = CPI.fromBinary (hexStringBits s)) ∧
    (¬ HexString s → CPI.fromHex s = .error .value ∨ CPI.fromHex s = .error .key) :=
  fromHexWith_any (fun _ hb => hdr_key (by decide) hb) s

/-- CPI: reading base64 text. -/
theorem C72_cpi_from_base64 (s : Str) :
    (¬ Ascii s → CPI.fromBase64 s = .error .value) ∧
    ∀ t k, s = t ++ List.replicate k '=' → '=' ∉ t → Ascii t →
      ((base64Chars t).length % 4 = 1 ∨ base64Chars t = [] → CPI.fromBase64 s = .error .value) ∧
      ((base64Chars t).length % 4 ≠ 1 → base64Chars t ≠ [] → CPI.fromBase64 s = CPI.fromBinary (base64Bits (base64Chars t))) :=
  fromBase64With_any s

/-- CPI: writing text; C25 and C26 tell the result for a bit string. -/
theorem C72_cpi_write (x : CPI) (cs : CPI.Coding) (f : Fin 8) :
    (∀ b, x.binary cs f = .ok b → (∀ c ∈ b, c = '0' ∨ c = '1' ∨ c = '-') ∧
      (¬ Bits b → x.hex cs f = .error .value ∧ x.base64 cs f = .error .value)) ∧
    (∀ e, x.binary cs f = .error e → x.hex cs f = .error e ∧ x.base64 cs f = .error e) := by
  unfold CPI.hex CPI.base64
  constructor
  · intro b hb
    obtain ⟨r, hr, e⟩ := CPI.binary_signed hb
    rw [hb]
    exact hex_minus (CPI.header_mem cs) e hr
  · intro e he
    rw [he]
    exact hex_none

/-- SGCN: reading hexadecimal text. -/
theorem C72_sgcn_from_hex (s : Str) :
    (HexString s → SGCN.fromHex s = SGCN.fromBinary (hexStringBits s)) ∧
    (¬ HexString s → SGCN.fromHex s = .error .value ∨ SGCN.fromHex s = .error .key) :=
  fromHexWith_any (fun _ hb => hdr_key (by decide) hb) s

/-- SGCN: reading base64 text. -/
theorem C72_sgcn_from_base64 (s : Str) :
    (¬ Ascii s → SGCN.fromBase64 s = .error .value) ∧
    ∀ t k, s = t ++ List.replicate k '=' → '=' ∉ t → Ascii t →
      ((base64Chars t).length % 4 = 1 ∨ base64Chars t = [] → SGCN.fromBase64 s = .error .value) ∧
      ((base64Chars t).length % 4 ≠ 1 → base64Chars t ≠ [] → SGCN.fromBase64 s = SGCN.fromBinary (base64Bits (base64Chars t))) :=
  fromBase64With_any s

/-- SGCN: writing text; C25 and C26 tell the result for a bit string. -/
theorem C72_sgcn_write (x : SGCN) (cs : SGCN.Coding) (f : Fin 8) :
    (∀ b, x.binary cs f = .ok b → (∀ c ∈ b, c = '0' ∨ c = '1' ∨ c = '-') ∧
      (¬ Bits b → x.hex cs f = .error .value ∧ x.base64 cs f = .error .value)) ∧
    (∀ e, x.binary cs f = .error e → x.hex cs f = .error e ∧ x.base64 cs f = .error e) := by
  unfold SGCN.hex SGCN.base64
  constructor
  · intro b hb
    obtain ⟨r, hr, e⟩ := SGCN.binary_signed hb
    rw [hb]
    exact hex_minus (SGCN.header_mem cs) e hr
  · intro e he
    rw [he]
    exact hex_none

/-- ITIP: reading hexadecimal text. -/
theorem C72_itip_from_hex (s : Str) :
    (HexString s → ITIP.fromHex s = ITIP.fromBinary (hexStringBits s)) ∧
    (¬ HexString s → ITIP.fromHex s = .error .value ∨ ITIP.fromHex s = .error .key) :=
  fromHexWith_any (fun _ hb => hdr_key (by decide) hb) s

/-- ITIP: reading base64 text. -/
theorem C72_itip_from_base64 (s : Str) :
    (¬ Ascii s → ITIP.fromBase64 s = .error .value) ∧
    ∀ t k, s = t ++ List.replicate k '=' → '=' ∉ t → Ascii t →
      ((base64Chars t).length % 4 = 1 ∨ base64Chars t = [] → ITIP.fromBase64 s = .error .value) ∧
      ((base64Chars t).length % 4 ≠ 1 → base64Chars t ≠ [] → ITIP.fromBase64 s = ITIP.fromBinary (base64Bits (base64Chars t))) :=
  fromBase64With_any s

/-- ITIP: writing text; C25 and C26 tell the result for a bit string. -/
theorem C72_itip_write (x : ITIP) (cs : ITIP.Coding) (f : Fin 8) :
    (∀ b, x.binary cs f = .ok b → (∀ c ∈ b, c = '0' ∨ c = '1' ∨ c = '-') ∧
      (¬ Bits b → x.hex cs f = .error .value ∧ x.base64 cs f = .error .value)) ∧
    (∀ e, x.binary cs f = .error e → x.hex cs f = .error e ∧ x.base64 cs f = .error e) := by
  unfold ITIP.hex ITIP.base64
  constructor
  · intro b hb
    obtain ⟨r, hr, e⟩ := ITIP.binary_signed hb
    rw [hb]
    exact hex_minus (ITIP.header_mem cs) e hr
  · intro e he
    rw [he]
    exact hex_none

/-- GID: reading hexadecimal text. -/
theorem C72_gid_from_hex (s : Str) :
    (HexString s → GID.fromHex s = GID.fromBinary (hexStringBits s)) ∧
    (¬ HexString s → GID.fromHex s = .error .value ∨ GID.fromHex s = .error .key) :=
  fromHexWith_any (fun _ hb => hdr_key (by decide) hb) s

/-- GID: reading base64 text. -/
theorem C72_gid_from_base64 (s : Str) :
    (¬ Ascii s → GID.fromBase64 s = .error .value) ∧
    ∀ t k, s = t ++ List.replicate k '=' → '=' ∉ t → Ascii t →
      ((base64Chars t).length % 4 = 1 ∨ base64Chars t = [] → GID.fromBase64 s = .error .value) ∧
      ((base64Chars t).length % 4 ≠ 1 → base64Chars t ≠ [] → GID.fromBase64 s = GID.fromBinary (base64Bits (base64Chars t))) :=
  fromBase64With_any s

/-- GID: writing text; C25 and C26 tell the result for a bit string. -/
theorem C72_gid_write (x : GID) (cs : GID.Coding) :
    (∀ b, x.binary cs = .ok b → (∀ c ∈ b, c = '0' ∨ c = '1' ∨ c = '-') ∧
      (¬ Bits b → x.hex cs = .error .value ∧ x.base64 cs = .error .value)) ∧
    (∀ e, x.binary cs = .error e → x.hex cs = .error e ∧ x.base64 cs = .error e) := by
  unfold GID.hex GID.base64
  constructor
  · intro b hb
    obtain ⟨r, hr, e⟩ := GID.binary_signed hb
    rw [hb]
    exact hex_minus (GID.header_mem cs) e hr
  · intro e he
    rw [he]
    exact hex_none

/-- USDOD: reading hexadecimal text. -/
theorem C72_usdod_from_hex (s : Str) :
    (HexString s → USDOD.fromHex s = USDOD.fromBinary (hexStringBits s)) ∧
    (¬ HexString s → USDOD.fromHex s = .error .value ∨ USDOD.fromHex s = .error .key) :=
  fromHexWith_any (fun _ hb => hdr_key (by decide) hb) s

/-- USDOD: reading base64 text. -/
theorem C72_usdod_from_base64 (s : Str) :
    (¬ Ascii s → USDOD.fromBase64 s = .error .value) ∧
    ∀ t k, s = t ++ List.replicate k '=' → '=' ∉ t → Ascii t →
      ((base64Chars t).length % 4 = 1 ∨ base64Chars t = [] → USDOD.fromBase64 s = .error .value) ∧
      ((base64Chars t).length % 4 ≠ 1 → base64Chars t ≠ [] → USDOD.fromBase64 s = USDOD.fromBinary (base64Bits (base64Chars t))) :=
  fromBase64With_any s

/-- USDOD: writing text; C25 and C26 tell the result for a bit string. -/
theorem C72_usdod_write (x : USDOD) (cs : USDOD.Coding) (f : Fin 16) :
    (∀ b, x.binary cs f = .ok b → (∀ c ∈ b, c = '0' ∨ c = '1' ∨ c = '-') ∧
      (¬ Bits b → x.hex cs f = .error .value ∧ x.base64 cs f = .error .value)) ∧
    (∀ e, x.binary cs f = .error e → x.hex cs f = .error e ∧ x.base64 cs f = .error e) := by
  unfold USDOD.hex USDOD.base64
  constructor
  · intro b hb
    obtain ⟨r, hr, e⟩ := USDOD.binary_signed hb
    rw [hb]
    exact hex_minus (USDOD.header_mem cs) e hr
  · intro e he
    rw [he]
    exact hex_none

/-- ADI: reading hexadecimal text. -/
theorem C72_adi_from_hex (s : Str) :
    (HexString s → ADI.fromHex s = ADI.fromBinary (hexStringBits s)) ∧
    (¬ HexString s → ADI.fromHex s = .error .value ∨ ADI.fromHex s = .error .key) :=
  fromHexWith_any (fun _ hb => hdr_key (by decide) hb) s

/-- ADI: reading base64 text. -/
theorem C72_adi_from_base64 (s : Str) :
    (¬ Ascii s → ADI.fromBase64 s = .error .value) ∧
    ∀ t k, s = t ++ List.replicate k '=' → '=' ∉ t → Ascii t →
      ((base64Chars t).length % 4 = 1 ∨ base64Chars t = [] → ADI.fromBase64 s = .error .value) ∧
      ((base64Chars t).length % 4 ≠ 1 → base64Chars t ≠ [] → ADI.fromBase64 s = ADI.fromBinary (base64Bits (base64Chars t))) :=
  fromBase64With_any s

/-- ADI: writing text; C25 and C26 tell the result for a bit string. -/
theorem C72_adi_write (x : ADI) (cs : ADI.Coding) (f : Fin 64) :
    (∀ b, x.binary cs f = .ok b → (∀ c ∈ b, c = '0' ∨ c = '1' ∨ c = '-') ∧
      (¬ Bits b → x.hex cs f = .error .value ∧ x.base64 cs f = .error .value)) ∧
    (∀ e, x.binary cs f = .error e → x.hex cs f = .error e ∧ x.base64 cs f = .error e) := by
  unfold ADI.hex ADI.base64
  constructor
  · intro b hb
    obtain ⟨r, hr, e⟩ := ADI.binary_signed hb
    rw [hb]
    exact hex_minus (ADI.header_mem cs) e hr
  · intro e he
    rw [he]
    exact hex_none

/-! Cases that meet the hypotheses. -/

/-- Decimal digits of another script, mixed case. -/
example : HexString (py "30٣٤75e0C03A5C0d18BAC710") := ⟨by decide, by decide +kernel⟩

example : (SGTIN.fromHex (py "3074257bf7194e4000001a85")).isOk = true ∧
    (SGTIN.fromHex (py "３０74257BF7194E4000001A85")) = SGTIN.fromHex (py "3074257bf7194e4000001a85") := by decide +kernel

/-- Blanks, a sign, underscores and the prefix `0x`, all of which `int` accepts, are refused with KeyError; other characters with ValueError. -/
example : SGTIN.fromHex (py " 3074257bf7194e4000001a85") = .error .key ∧ SGTIN.fromHex (py "0x3074257bf7194e4000001a85") = .error .key ∧
    SGTIN.fromHex (py "3074257b_f7194e4000001a85") = .error .key ∧ SGTIN.fromHex (py "-3074257bf7194e4000001a85") = .error .key ∧
    SGTIN.fromHex (py "3074257bf7194e4000001a8g") = .error .value ∧ SGTIN.fromHex [] = .error .value := by decide +kernel

/-- Blanks and line breaks in base64 text are skipped. -/
example : (SGTIN.fromBase64 (py "MHQle/cZTkAAABqF")).isOk = true ∧
    SGTIN.fromBase64 (py "MHQl e/cZ\nTkAA ABqF") = SGTIN.fromBase64 (py "MHQle/cZTkAAABqF") ∧
    SGTIN.fromBase64 (py "MHQle/cZTkAAABqF==") = SGTIN.fromBase64 (py "MHQle/cZTkAAABqF") ∧
    SGTIN.fromBase64 (py "MHQle/cZTkAAABqFM") = .error .value := by decide +kernel

/-- A serial number that is no bit string under a numeric coding scheme: `hex` raises ValueError. -/
example : ((do let x ← SGTIN.new (py "urn:epc:id:sgtin:9521141.012345.-5"); x.binary .sgtin96 0) : Except Err Str).isOk = true ∧
    ((do let x ← SGTIN.new (py "urn:epc:id:sgtin:9521141.012345.-5"); x.hex .sgtin96 0) : Except Err Str) = .error .value := by decide +kernel

end Epc
