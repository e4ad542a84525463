#!/usr/bin/env python3
"""Writes lean/Verif/Props/C72.lean."""

HEAD = '''/-
C72: hex, base64, from_hex and from_base64 are specified for every object and every text.

`HexString s`: s consists of hexadecimal digits, at least one; `hexStringBits s` are their bits, four per digit.  `base64Chars t` are the
characters of t that belong to the base64 alphabet, `base64Bits` their bits, six per character, without those behind the last whole byte.
Generated by tools/gen_c72.py.
-/
import Verif.Lemmas.HexIn
import Verif.Lemmas.BinChars

namespace Epc
open Spec

private theorem hdr_key {κ α : Type} {headers : List (Str × κ)} {value : κ → Str} {b : Str} {k : κ × Str → Except Err α}
    (h : headers.all (fun p => p.1.take 4 != py "0000" && p.1.take 1 == ['0']) = true)
    (hb : b.take 4 = py "0000" ∨ b.head? = some '-') : (parseHeader headers value b >>= k) = .error .key := by
  unfold parseHeader
  have : headers.lookup (b.take 8) = none := by
    cases e : headers.lookup (b.take 8) with
    | none => rfl
    | some c =>
      exfalso
      have hm := lookup_mem e
      have := List.all_eq_true.1 h _ hm
      simp only [Bool.and_eq_true, bne_iff_ne, beq_iff_eq, List.take_take] at this
      rcases hb with hb | hb
      · exact this.1 hb
      · cases b with
        | nil => cases hb
        | cons c t =>
          injection hb with hb
          subst hb
          exact absurd this.2 (by simp)
  rw [this]
  rfl

private theorem pyInt_error_value {b : Nat} {s : Str} {e : Err} (h : pyInt b s = .error e) : e = .value := by
  unfold pyInt at h
  dsimp only at h
  split at h <;> split at h <;> cases h <;> rfl

private theorem hex_minus {b hd r : Str} {c : Cls} (hc : hd ∈ c.binaryHeaders) (hb : b = hd ++ r) (hr : Signed r) :
    (∀ c ∈ b, c = '0' ∨ c = '1' ∨ c = '-') ∧ (¬ Bits b → hexOf (.ok b) = .error .value ∧ base64Of (.ok b) = .error .value) := by
  obtain ⟨h8, hs, h0, _⟩ := header_facts c (by cases c <;> decide) hd hc
  have hS : Signed b := by rw [hb]; exact hs.append hr
  refine ⟨hS, fun hn => ?_⟩
  have e : hexOf (.ok b) = .error .value := by
    cases hh : hexOf (.ok b) with
    | ok h =>
      refine absurd (bits_of_hexOf hS ?_ hh) hn
      rw [hb]
      cases hd with
      | nil => cases h0
      | cons a t => exact h0
    | error e =>
      unfold hexOf at hh
      rw [ok_bind] at hh
      dsimp only at hh
      cases hp : pyInt 2 (padRight '0' (b.length + (16 - b.length % 16) % 16) b) with
      | ok i => rw [hp] at hh; cases hh
      | error e' =>
        rw [hp, error_bind] at hh
        cases hh
        rw [pyInt_error_value hp]
  refine ⟨e, ?_⟩
  unfold base64Of
  rw [e, error_bind]

private theorem hex_none {e : Err} : hexOf (.error e) = .error e ∧ base64Of (.error e) = .error e := ⟨rfl, rfl⟩

/-- A pad character in the middle of a base64 text: it ends the text if it completes a group of four characters, perhaps together with the
next character, also a pad character; otherwise it does not count. -/
theorem C72_pad (t r : Str) (hp : '=' ∉ t) (ht : Ascii t) (hr : Ascii r) :
    ((base64Chars t).length % 4 = 3 → base64ToHex (t ++ '=' :: r) = base64ToHex t) ∧
    ((base64Chars t).length % 4 = 2 → base64ToHex (t ++ '=' :: '=' :: r) = base64ToHex t) ∧
    ((base64Chars t).length % 4 = 2 → (∃ a r', r.filter (fun c => c == '=' || decide (c ∈ base64Alphabet)) = a :: r' ∧ a ≠ '=') →
      base64ToHex (t ++ '=' :: r) = base64ToHex (t ++ r)) ∧
    ((base64Chars t).length % 4 ≤ 1 → base64ToHex (t ++ '=' :: r) = base64ToHex (t ++ r)) :=
  base64ToHex_pad hp ht hr

example : base64ToHex (py "MDE=MDE") = .ok (py "3031") ∧ base64ToHex (py "MD=E") = base64ToHex (py "MDE") ∧
    base64ToHex (py "M=DE") = base64ToHex (py "MDE") := by decide +kernel

'''

CLS = '''/-- {N}: reading hexadecimal text. -/
theorem C72_{n}_from_hex (s : Str) :
    (HexString s → {N}.fromHex s = {N}.fromBinary (hexStringBits s)) ∧
    (¬ HexString s → {N}.fromHex s = .error .value ∨ {N}.fromHex s = .error .key) :=
  fromHexWith_any (fun _ hb => hdr_key (by decide) hb) s

/-- {N}: reading base64 text. -/
theorem C72_{n}_from_base64 (s : Str) :
    (¬ Ascii s → {N}.fromBase64 s = .error .value) ∧
    ∀ t k, s = t ++ List.replicate k '=' → '=' ∉ t → Ascii t →
      ((base64Chars t).length % 4 = 1 ∨ base64Chars t = [] → {N}.fromBase64 s = .error .value) ∧
      ((base64Chars t).length % 4 ≠ 1 → base64Chars t ≠ [] → {N}.fromBase64 s = {N}.fromBinary (base64Bits (base64Chars t))) :=
  fromBase64With_any s

/-- {N}: writing text; C25 and C26 tell the result for a bit string. -/
theorem C72_{n}_write (x : {N}) (cs : {N}.Coding){F} :
    (∀ b, x.binary cs{f} = .ok b → (∀ c ∈ b, c = '0' ∨ c = '1' ∨ c = '-') ∧
      (¬ Bits b → x.hex cs{f} = .error .value ∧ x.base64 cs{f} = .error .value)) ∧
    (∀ e, x.binary cs{f} = .error e → x.hex cs{f} = .error e ∧ x.base64 cs{f} = .error e) := by
  unfold {N}.hex {N}.base64
  constructor
  · intro b hb
    obtain ⟨r, hr, e⟩ := {N}.binary_signed hb
    rw [hb]
    exact hex_minus ({N}.header_mem cs) e hr
  · intro e he
    rw [he]
    exact hex_none

'''

TAIL = '''/-! Cases that meet the hypotheses. -/

/-- Decimal digits of another script, mixed case. -/
example : HexString (py "30٣٤75e0C03A5C0d18BAC710") := ⟨by decide, by decide +kernel⟩

example : (SGTIN.fromHex (py "3074257bf7194e4000001a85")).isOk = true ∧
    (SGTIN.fromHex (py "３０74257BF7194E4000001A85")) = SGTIN.fromHex (py "3074257bf7194e4000001a85") := by decide +kernel

/-- Blanks, a sign, underscores and the prefix `0x`, all of which `int` accepts, are refused with KeyError; other characters with ValueError. -/
example : SGTIN.fromHex (py " 3074257bf7194e4000001a85") = .error .key ∧ SGTIN.fromHex (py "0x3074257bf7194e4000001a85") = .error .key ∧
    SGTIN.fromHex (py "3074257b_f7194e4000001a85") = .error .key ∧ SGTIN.fromHex (py "-3074257bf7194e4000001a85") = .error .key ∧
    SGTIN.fromHex (py "3074257bf7194e4000001a8g") = .error .value ∧ SGTIN.fromHex [] = .error .value := by decide +kernel

/-- Blanks and line breaks in base64 text are skipped. -/
example : (SGTIN.fromBase64 (py "MHQle/cZTkAAABqF")).isOk = true ∧
    SGTIN.fromBase64 (py "MHQl e/cZ\\nTkAA ABqF") = SGTIN.fromBase64 (py "MHQle/cZTkAAABqF") ∧
    SGTIN.fromBase64 (py "MHQle/cZTkAAABqF==") = SGTIN.fromBase64 (py "MHQle/cZTkAAABqF") ∧
    SGTIN.fromBase64 (py "MHQle/cZTkAAABqFM") = .error .value := by decide +kernel

/-- A serial number that is no bit string under a numeric coding scheme: `hex` raises ValueError. -/
example : ((do let x ← SGTIN.new (py "urn:epc:id:sgtin:9521141.012345.-5"); x.binary .sgtin96 0) : Except Err Str).isOk = true ∧
    ((do let x ← SGTIN.new (py "urn:epc:id:sgtin:9521141.012345.-5"); x.hex .sgtin96 0) : Except Err Str) = .error .value := by decide +kernel

end Epc
'''
L = [('SGTIN',8),('SSCC',8),('SGLN',8),('GRAI',8),('GIAI',8),('GSRN',8),('GSRNP',8),('GDTI',8),('CPI',8),('SGCN',8),('ITIP',8),('GID',0),('USDOD',16),('ADI',64)]
o = HEAD
for N, k in L:
    o += CLS.format(N=N, n=N.lower(), F=f' (f : Fin {k})' if k else '', f=' f' if k else '')
open('lean/Verif/Props/C72.lean', 'w').write(o + TAIL)
