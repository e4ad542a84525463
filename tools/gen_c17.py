#!/usr/bin/env python3
"""Generate lean/Verif/Props/C17.lean and lean/Verif/Props/C47.lean (availability of coding schemes)."""
import os
ROOT = os.path.dirname(os.path.dirname(os.path.abspath(__file__)))
S = [("SGTIN", "sgtin-96", "sgtin-198", 38, 3, "9521141.012345"), ("SGLN", "sgln-96", "sgln-195", 41, 3, "9521141.12345"),
     ("GRAI", "grai-96", "grai-170", 38, 3, "9521141.12345"), ("GDTI", "gdti-96", "gdti-174", 41, 3, "9521141.12345"),
     ("ITIP", "itip-110", "itip-212", 38, 5, "9521141.012345.02.04")]
def ctor(v): return v.replace("-", "").replace("var", "Var")
p = '''/-
C17: the 96-bit (ITIP: 110-bit) coding schemes are offered exactly for the serials that fit.

`Numeral s`: a non-empty string of ASCII digits without superfluous leading zero.  The tag URI returned is the body of the object's
pure identity URI behind the coding scheme and the filter value.
Generated by tools/gen_c17.py.
-/
import Verif.Lemmas.TagForm

namespace Epc
open Spec Re
'''
q = '''/-
C47: the long coding schemes are available for every accepted object and every filter value.
Generated by tools/gen_c17.py.
-/
import Verif.Lemmas.TagForm

namespace Epc
open Spec Re
'''
for C, short, long, bits, n, ex in S:
    nm = C.lower()
    us = ", ".join("CDIJS"[:n-1]) if n == 5 else "C, D"
    pat = ", ".join(["_"] * (n - 1) + ["S"])
    hpat = ", ".join(["_"] * (n - 1) + ["hS"])
    p += f'''
/-- {C}: {short} is offered for numeric serials below 2^{bits}, and `tag_uri` raises `ConvertException` for all others. -/
theorem C17_{nm} (body : Str) (x : {C}) (f : Fin 8) (hu : {C}.new (py "urn:epc:id:{nm}:" ++ body) = .ok x) :
    (Numeral x.serial ∧ number x.serial < 2 ^ {bits} →
      x.tagUri .{ctor(short)} f = .ok (py "urn:epc:tag:{short}:" ++ natStr f ++ '.' :: body)) ∧
    (¬ (Numeral x.serial ∧ number x.serial < 2 ^ {bits}) → x.tagUri .{ctor(short)} f = .error .convert) := by
  have ha : Ascii x.serial := by
    obtain ⟨{pat}, ⟨{hpat}⟩, _, e, rfl⟩ := {C}.new_iff.1 hu
    exact gs3a3_ascii hS
  constructor
  · rintro ⟨h1, h2⟩
    have : ∃ t, x.tagUri .{ctor(short)} f = .ok t := by
      unfold {C}.tagUri {C}.badSerial
      dsimp only
      rw [badNumeric_good h1 h2, ok_bind, if_neg (by simp)]
      exact ⟨_, rfl⟩
    obtain ⟨t, ht⟩ := this
    obtain ⟨b, eb, rfl⟩ := {C}.tagUri_form hu ht
    rw [ht, List.append_cancel_left eb]
    simp [tagUriPrefix, {C}.Coding.value]
  · intro h
    unfold {C}.tagUri {C}.badSerial
    dsimp only
    rw [badNumeric_bad ha h, ok_bind, if_pos rfl]

example : ((do let x ← {C}.new (py "urn:epc:id:{nm}:{ex}.{2**bits-1}"); x.tagUri .{ctor(short)} 3) : Except Err Str) =
    .ok (py "urn:epc:tag:{short}:3.{ex}.{2**bits-1}") := by decide +kernel

example : ((do let x ← {C}.new (py "urn:epc:id:{nm}:{ex}.{2**bits}"); x.tagUri .{ctor(short)} 3) : Except Err Str) = .error .convert ∧
    ((do let x ← {C}.new (py "urn:epc:id:{nm}:{ex}.0{2**bits-1}"); x.tagUri .{ctor(short)} 3) : Except Err Str) = .error .convert ∧
    ((do let x ← {C}.new (py "urn:epc:id:{nm}:{ex}.1A"); x.tagUri .{ctor(short)} 3) : Except Err Str) = .error .convert := by decide +kernel
'''
    bad = {"SGTIN": "rfl", "SGLN": "len", "GRAI": "lenS", "GDTI": "lenS", "ITIP": "len"}[C]
    cond = {"SGTIN": "_", "SGLN": "⟨_, _, _, hl⟩", "GRAI": "⟨_, _, _, hl⟩", "GDTI": "⟨_, _, _, hl⟩", "ITIP": "⟨_, _, _, _, hl⟩"}[C]
    if C == "SGTIN":
        hb = "    have hb : SGTIN.badSerial ⟨py \"urn:epc:id:sgtin:\" ++ body, _, _, S, _⟩ .sgtin198 = .ok false := rfl\n"
    # unified
    q += f'''
/-- {C}: {long} is available for every accepted object. -/
theorem C47_{nm} (body : Str) (x : {C}) (f : Fin 8) (hu : {C}.new (py "urn:epc:id:{nm}:" ++ body) = .ok x) :
    x.tagUri .{ctor(long)} f = .ok (py "urn:epc:tag:{long}:" ++ natStr f ++ '.' :: body) := by
  have hb : x.badSerial .{ctor(long)} = .ok false := by
    obtain ⟨{pat}, ⟨{hpat}⟩, {cond}, e, rfl⟩ := {C}.new_iff.1 hu
''' + ("    rfl\n" if C == "SGTIN" else f'''    unfold {C}.badSerial
    have := length_replaceUriEscapes S
    simp only [Except.ok.injEq, decide_eq_false_iff_not]
    omega
''') + f'''  have : ∃ t, x.tagUri .{ctor(long)} f = .ok t := by
    unfold {C}.tagUri
    rw [hb, ok_bind, if_neg (by simp)]
    exact ⟨_, rfl⟩
  obtain ⟨t, ht⟩ := this
  obtain ⟨b, eb, rfl⟩ := {C}.tagUri_form hu ht
  rw [ht, List.append_cancel_left eb]
  simp [tagUriPrefix, {C}.Coding.value]

example : ({C}.new (py "urn:epc:id:{nm}:{ex}.a.b%22%3F")).isOk = true := by decide +kernel
'''
p += '''
/-- GIAI: giai-96 is offered for numeric asset references that have at most 25 digits together with the company prefix and fit in the
82 bits left by the company prefix; `tag_uri` raises `ConvertException` for all others. -/
theorem C17_giai (u : Str) (x : GIAI) (f : Fin 8) (hu : GIAI.new u = .ok x) :
    let fits := Numeral x.assetRef ∧ x.companyPref.length + x.assetRef.length ≤ 25 ∧
      number x.assetRef < 2 ^ (82 - prefixBits x.companyPref.length)
    (fits → x.tagUri .giai96 f = .ok (py "urn:epc:tag:giai-96:" ++ natStr f ++ '.' :: x.companyPref ++ '.' :: x.assetRef)) ∧
    (¬ fits → x.tagUri .giai96 f = .error .convert) := by
  intro fits
  obtain ⟨C, S, ⟨_, hS⟩, ⟨⟨hl1, hl2⟩, _, _⟩, e, hx⟩ := GIAI.new_iff.1 hu
  have hC : x.companyPref = C := by rw [hx]
  have ha : Ascii x.assetRef := by
    rw [hx]
    exact fun c hc => gs3a3_ascii hS c (headD_split_mem hc)
  obtain ⟨r, -, hrow, hK, hN⟩ := GIAI.row96 hl1 hl2
  rw [← hC] at hrow hK hN
  constructor
  · rintro ⟨h1, h2, h3⟩
    have hn : isNumeric x.assetRef = true := isNumeric_of_decimal h1.2.1 (fun c hc => isDecimal_of_Digits h1.1 c hc)
    have hb : x.badAssetRef .giai96 = .ok false := by
      unfold GIAI.badAssetRef
      simp only [hn, Bool.not_true, Bool.false_eq_true, if_false]
      rw [hrow, ok_bind, if_neg (by omega)]
      exact badNumeric_good h1 (hN ▸ h3)
    unfold GIAI.tagUri
    rw [hb, ok_bind, if_neg (by simp), pure_ok]
    simp [tagUriPrefix, GIAI.Coding.value, filterStr]
  · intro h
    have hb : x.badAssetRef .giai96 = .ok true := by
      unfold GIAI.badAssetRef
      cases hn : isNumeric x.assetRef with
      | false => simp
      | true =>
        simp only [Bool.not_true, Bool.false_eq_true, if_false]
        rw [hrow, ok_bind]
        by_cases hlen : x.assetRef.length > r.K
        · rw [if_pos hlen]; rfl
        · rw [if_neg hlen]
          refine badNumeric_bad ha fun hg => h ⟨hg.1, ?_, hN ▸ hg.2⟩
          rw [hC] at *; omega
    unfold GIAI.tagUri
    rw [hb, ok_bind, if_pos rfl]

example : ((do let x ← GIAI.new (py "urn:epc:id:giai:9521141.5678"); x.tagUri .giai96 3) : Except Err Str) = .ok (py "urn:epc:tag:giai-96:3.9521141.5678") ∧
    ((do let x ← GIAI.new (py "urn:epc:id:giai:952114123456.4398046511104"); x.tagUri .giai96 3) : Except Err Str) = .error .convert := by decide +kernel

/-- CPI: cpi-96 is offered for serials below 2^31 and component/part references that are numerals of at most 15 digits together with
the company prefix; `tag_uri` raises `ConvertException` for all others. -/
theorem C17_cpi (body : Str) (x : CPI) (f : Fin 8) (hu : CPI.new (py "urn:epc:id:cpi:" ++ body) = .ok x) :
    let fits := unumber x.serial < 2 ^ 31 ∧ Numeral x.cpRef ∧ x.companyPref.length + x.cpRef.length ≤ 15
    (fits → x.tagUri .cpi96 f = .ok (py "urn:epc:tag:cpi-96:" ++ natStr f ++ '.' :: body)) ∧
    (¬ fits → x.tagUri .cpi96 f = .error .convert) := by
  intro fits
  obtain ⟨C, D, S, ⟨_, hD, hS⟩, _, e, hx⟩ := CPI.new_iff.1 hu
  have hser : pyInt 10 x.serial = .ok ((unumber x.serial : Nat) : Int) := by
    rw [hx]; show pyInt 10 S = _
    rw [pyInt_decimal hS.dec hS.ne_nil, unumber_eq hS.dec]
  have ha : Ascii x.cpRef := by
    rw [hx]; show Ascii D
    obtain ⟨raw, _, hraw, rfl⟩ := (lang_cpref _).1 hD
    exact fun c hc => (escape39_mem hraw c hc).1
  constructor
  · rintro ⟨h1, h2, h3⟩
    have hn : isNumeric x.cpRef = true := isNumeric_of_decimal h2.2.1 (fun c hc => isDecimal_of_Digits h2.1 c hc)
    have hz : (decide (x.cpRef.length > 1) && x.cpRef.head? == some '0') = false := by
      have := h2.2.2
      by_cases hl : 1 < x.cpRef.length
      · have : x.cpRef.head? ≠ some '0' := fun e => this ⟨hl, e⟩
        simp [this]
      · simp [hl]
    have hb : x.badSerial .cpi96 = .ok false := by
      unfold CPI.badSerial
      rw [hser, ok_bind, hn, hz, show decide (((unumber x.serial : Nat) : Int) ≥ ((2 ^ 31 : Nat) : Int)) = false by
        rw [decide_eq_false_iff_not]; omega, show decide ((x.cpRef.length : Int) > 15 - (x.companyPref.length : Int)) = false by
        rw [decide_eq_false_iff_not]; omega]
      rfl
    have : ∃ t, x.tagUri .cpi96 f = .ok t := by
      unfold CPI.tagUri
      rw [hb, ok_bind, if_neg (by simp)]
      exact ⟨_, rfl⟩
    obtain ⟨t, ht⟩ := this
    obtain ⟨b, eb, rfl⟩ := CPI.tagUri_form hu ht
    rw [ht, List.append_cancel_left eb]
    simp [tagUriPrefix, CPI.Coding.value]
  · intro h
    have hb : x.badSerial .cpi96 = .ok true := by
      unfold CPI.badSerial
      dsimp only
      rw [hser, ok_bind, pure_ok, Except.ok.injEq]
      refine Classical.byContradiction fun hb => h ?_
      rw [Bool.not_eq_true] at hb
      simp only [Bool.or_eq_false_iff, Bool.not_eq_false', Bool.and_eq_false_iff, decide_eq_false_iff_not] at hb
      obtain ⟨⟨⟨h1, h2⟩, h3⟩, h4⟩ := hb
      replace h2 := isNumeric_ascii ha h2
      refine ⟨by omega, ⟨isDigitA_of_decimal_ascii ha h2.2, h2.1, ?_⟩, by omega⟩
      rintro ⟨hl, hz⟩
      rcases h3 with h3 | h3
      · exact h3 hl
      · simp [hz] at h3
    unfold CPI.tagUri
    rw [hb, ok_bind, if_pos rfl]

example : ((do let x ← CPI.new (py "urn:epc:id:cpi:9521141.11111111.2147483647"); x.tagUri .cpi96 3) : Except Err Str) = .ok (py "urn:epc:tag:cpi-96:3.9521141.11111111.2147483647") ∧
    ((do let x ← CPI.new (py "urn:epc:id:cpi:9521141.11111111.2147483648"); x.tagUri .cpi96 3) : Except Err Str) = .error .convert ∧
    ((do let x ← CPI.new (py "urn:epc:id:cpi:9521141.111111111.1"); x.tagUri .cpi96 3) : Except Err Str) = .error .convert := by decide +kernel

end Epc
'''
q += '''
/-- GIAI: giai-202 is available for every accepted object. -/
theorem C47_giai (u : Str) (x : GIAI) (f : Fin 8) (hu : GIAI.new u = .ok x) :
    x.tagUri .giai202 f = .ok (py "urn:epc:tag:giai-202:" ++ natStr f ++ '.' :: x.companyPref ++ '.' :: x.assetRef) := by
  obtain ⟨C, S, _, ⟨⟨hl1, hl2⟩, _, hl⟩, e, rfl⟩ := GIAI.new_iff.1 hu
  obtain ⟨r, hr, hrow, hL, hM⟩ := rowByL_ok (t := GIAI.table202) hl1 hl2 (by decide)
  have hall : ∀ r ∈ GIAI.table202, r.K = 30 - r.L := by decide
  have hK := hall r hr
  have := length_replaceUriEscapes ((split ':' S).headD [])
  unfold GIAI.tagUri GIAI.badAssetRef
  dsimp only
  rw [hrow]
  simp only [ok_bind, pure_ok]
  rw [if_neg]
  · simp [tagUriPrefix, GIAI.Coding.value, filterStr]
  · rw [decide_eq_true_eq]; omega

example : (GIAI.new (py "urn:epc:id:giai:9521141.a.b%22%3F")).isOk = true := by decide +kernel

/-- CPI: cpi-var is available for every accepted object. -/
theorem C47_cpi (body : Str) (x : CPI) (f : Fin 8) (hu : CPI.new (py "urn:epc:id:cpi:" ++ body) = .ok x) :
    x.tagUri .cpiVar f = .ok (py "urn:epc:tag:cpi-var:" ++ natStr f ++ '.' :: body) := by
  have hb : x.badSerial .cpiVar = .ok false := by
    obtain ⟨C, D, S, _, ⟨_, hl, _⟩, e, rfl⟩ := CPI.new_iff.1 hu
    unfold CPI.badSerial
    simp only [Except.ok.injEq, decide_eq_false_iff_not]
    omega
  have : ∃ t, x.tagUri .cpiVar f = .ok t := by
    unfold CPI.tagUri
    rw [hb, ok_bind, if_neg (by simp)]
    exact ⟨_, rfl⟩
  obtain ⟨t, ht⟩ := this
  obtain ⟨b, eb, rfl⟩ := CPI.tagUri_form hu ht
  rw [ht, List.append_cancel_left eb]
  simp [tagUriPrefix, CPI.Coding.value]

example : (CPI.new (py "urn:epc:id:cpi:9521141.5PQ7%2FZ43.12345")).isOk = true := by decide +kernel
'''
for C, cs, fb in [("SSCC", "sscc-96", 8), ("GSRN", "gsrn-96", 8), ("GSRNP", "gsrnp-96", 8), ("SGCN", "sgcn-96", 8), ("USDOD", "usdod-96", 16), ("ADI", "adi-var", 64)]:
    nm = C.lower()
    ex = {"SGCN": "9521141.67890.04711", "USDOD": "CAGEY.5678", "ADI": "35962.PQ7VZ4.M37GXB92"}.get(C, "9521141.1234567890")
    q += f'''
/-- {C}: {cs}, its only coding scheme, is available for every accepted object. -/
theorem C47_{nm} (body : Str) (x : {C}) (f : Fin {fb}) (hu : {C}.new (py "urn:epc:id:{nm}:" ++ body) = .ok x) :
    x.tagUri .{ctor(cs)} f = .ok (py "urn:epc:tag:{cs}:" ++ natStr f ++ '.' :: body) := by
  have : ∃ t, x.tagUri .{ctor(cs)} f = .ok t := ⟨_, rfl⟩
  obtain ⟨t, ht⟩ := this
  obtain ⟨b, eb, rfl⟩ := {C}.tagUri_form hu ht
  rw [ht, List.append_cancel_left eb]
  simp [tagUriPrefix, {C}.Coding.value]

example : ({C}.new (py "urn:epc:id:{nm}:{ex}")).isOk = true := by decide +kernel
'''
q += '''
/-- GID: gid-96, its only coding scheme, is available for every accepted object. -/
theorem C47_gid (body : Str) (x : GID) (hu : GID.new (py "urn:epc:id:gid:" ++ body) = .ok x) :
    x.tagUri .gid96 = .ok (py "urn:epc:tag:gid-96:" ++ body) := by
  have : ∃ t, x.tagUri .gid96 = .ok t := ⟨_, rfl⟩
  obtain ⟨t, ht⟩ := this
  obtain ⟨b, eb, rfl⟩ := GID.tagUri_form hu ht
  rw [ht, List.append_cancel_left eb]
  simp [tagUriPrefix, GID.Coding.value]

example : (GID.new (py "urn:epc:id:gid:952056.2718.1414")).isOk = true := by decide +kernel

end Epc
'''
open(os.path.join(ROOT, "lean/Verif/Props/C17.lean"), "w").write(p)
open(os.path.join(ROOT, "lean/Verif/Props/C47.lean"), "w").write(q)
