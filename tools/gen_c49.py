"""Generate lean/Verif/Props/C49.lean: whenever a binary with a character-string serial is returned, its size is the documented one."""
rows = [
    ("sgtin", "SGTIN", "sgtin198", 198, 47, 13, 140, "hD.2", "20"),
    ("sgln", "SGLN", "sgln195", 195, 44, 12, 140, "hD", "20"),
    ("grai", "GRAI", "grai170", 170, 47, 12, 112, "hD", "16"),
    ("gdti", "GDTI", "gdti174", 174, 44, 12, 119, "hD", "17"),
]
out = ["""/-
C49: the size of a binary with a character-string serial is the documented one whenever `binary()` returns.

C20 is false for these coding schemes because `binary()` may raise on serials with ill-formed escapes.  Here nothing is assumed about the
serial: for every accepted URI, with digits of any script, whatever `binary()` returns is a string of '0' and '1' of exactly the documented size.
-/
import Verif.Lemmas.Unescape
import Verif.Lemmas.BinaryMore
import Verif.Lemmas.Avail
import Verif.Props.C63

namespace Epc
open Spec Re
"""]
for n, X, cs, size, W, T, w, hD, lim in rows:
    sl = "have := hlen" if lim == "20" else "have := hlen; have := length_replaceUriEscapes S"
    out.append(f"""/-- {X}: {size} bits. -/
theorem C49_{n} (u b : Str) (x : {X}) (f : Fin 8) (hu : {X}.new u = .ok x) (hb : x.binary .{cs} f = .ok b) :
    Bits b ∧ b.length = {size} := by
  obtain ⟨y, ha, hy, -, -, -, h⟩ := C63_{n} u x hu
  rw [← (h _ f).2] at hb
  obtain ⟨C, D, S, ⟨hC, hD, hS⟩, hlen, e, rfl⟩ := {X}.new_iff.1 hy
  obtain ⟨aC, aD, aS⟩ := ascii_uri3 (e ▸ ha)
  obtain ⟨p, p1, p2, p3, p4⟩ := part_ok (t := {X}.table) (W := {W}) (T := {T}) (by decide) (by decide) (by decide) (by decide)
    (digits_of_dec_ascii hC.2 aC) (digits_of_dec_ascii {hD} aD) (by omega) (by omega) (by omega)
  unfold {X}.binary at hb
  rw [filter_ok, ok_bind] at hb
  dsimp only at hb
  rw [p1, ok_bind, if_neg (by decide)] at hb
  obtain ⟨sb, hsb, hb⟩ := bind_ok_iff.1 hb
  obtain ⟨s1, s2⟩ := encodeString_size hS (by {sl}; omega) hsb
  rw [pure_ok] at hb
  cases hb
  have hf := length_bin3 f
  have hh : ({X}.Coding.header .{cs}).length = 8 := rfl
  exact ⟨Bits_append.2 ⟨Bits_append.2 ⟨Bits_append.2 ⟨by decide, Bits_bin _ _⟩, p2⟩, s1⟩, by simp only [List.length_append]; omega⟩
""")
out.append("""/-- GIAI: 202 bits. -/
theorem C49_giai (u b : Str) (x : GIAI) (f : Fin 8) (hu : GIAI.new u = .ok x) (hb : x.binary .giai202 f = .ok b) :
    Bits b ∧ b.length = 202 := by
  obtain ⟨z, ha, hz, -, -, -, h⟩ := C63_giai u x hu
  rw [← (h _ f).2] at hb
  obtain ⟨y, hy, hay, _, _, _, hbin, _⟩ := GIAI.normal hz
  replace hay := hay ha
  rw [← hbin] at hb
  obtain ⟨C, S, ⟨hC, hS⟩, hlen, e, rfl⟩ := GIAI.new_iff.1 hy
  obtain ⟨aC, aS⟩ := ascii_uri2 (e ▸ hay)
  obtain ⟨r, hr, _, hL, _⟩ := rowByL_ok (t := GIAI.table202) hlen.1.1 hlen.1.2 (by decide)
  have hall : ∀ r ∈ GIAI.table202, 3 + r.M + r.N = 191 ∧ 7 * (30 - r.L) ≤ r.N := by decide
  have hr2 := hall r hr
  have hT : TableOk GIAI.table202 := by decide
  have dC := digits_of_dec_ascii hC.2 aC
  have hne : (split ':' S).headD [] ≠ [] := by
    intro h0
    have := hlen.2.1
    rw [h0] at this
    exact absurd this (by decide)
  have hS' := gs3a3_head hS hne
  unfold GIAI.binary at hb
  rw [filter_ok, ok_bind, if_neg (by decide)] at hb
  dsimp only at hb
  obtain ⟨pb, hpb, hb⟩ := bind_ok_iff.1 hb
  rw [pure_ok] at hb
  cases hb
  cases hd : encodeRef ((split ':' S).headD []) r .string with
  | error er =>
    have hrow : rowByL GIAI.table202 C.length = .ok r := by
      obtain ⟨r', hr', h1, h2, _⟩ := rowByL_ok (t := GIAI.table202) hlen.1.1 hlen.1.2 (by decide)
      have huniq : ∀ a ∈ GIAI.table202, ∀ b ∈ GIAI.table202, a.L = b.L → a = b := by decide
      rw [h1, huniq r' hr' r hr (by omega)]
    unfold encodePartitionTable at hpb
    rw [hrow, ok_bind] at hpb
    obtain ⟨cb, _, hpb⟩ := bind_ok_iff.1 hpb
    rw [hd, error_bind] at hpb
    cases hpb
  | ok db =>
    rw [encodePartition_eq hT hr dC hL.symm hd] at hpb
    cases hpb
    obtain ⟨s1, s2⟩ := encodeString_size (n := r.N) hS' (by
      have := length_replaceUriEscapes ((split ':' S).headD []); have := hlen.2.2; omega) hd
    obtain ⟨l1, l2⟩ := length_partition (hT r hr).1 dC hL.symm
    have hf := length_bin3 f
    have hh : (GIAI.Coding.header .giai202).length = 8 := rfl
    exact ⟨Bits_append.2 ⟨Bits_append.2 ⟨by decide, Bits_bin _ _⟩, Bits_append.2 ⟨Bits_bin _ _, Bits_append.2 ⟨Bits_bin _ _, s1⟩⟩⟩,
      by simp only [List.length_append]; omega⟩

/-- ITIP: 212 bits, provided that piece and total have two digits each.  Missing: the constructor only counts the digits of the four
numeric components together, so the item reference may have more digits than its field; see `C49_itip_claim_false`. -/
theorem C49_itip_partial (u b : Str) (x : ITIP) (f : Fin 8) (hu : ITIP.new u = .ok x)
    (hp : x.piece.length = 2) (ht : x.total.length = 2) (hb : x.binary .itip212 f = .ok b) :
    Bits b ∧ b.length = 212 := by
  obtain ⟨y, ha, hy, hxy, -, h⟩ := C63_itip u x hu
  rw [← (h _ f).2] at hb
  replace hp : y.piece.length = 2 := by rw [hxy]; exact (length_asciiDigits _).trans hp
  replace ht : y.total.length = 2 := by rw [hxy]; exact (length_asciiDigits _).trans ht
  clear hxy h
  have hsm := ITIP.binary_small ha hy hb
  obtain ⟨C, D, A, B, S, ⟨hC, hD, hA, hB, hS⟩, hlen, e, rfl⟩ := ITIP.new_iff.1 hy
  obtain ⟨aC, aD, aA, aB, aS⟩ := ascii_uri5 (e ▸ ha)
  dsimp only at hp ht hsm
  obtain ⟨p, p1, p2, p3, p4⟩ := part_ok (t := ITIP.table) (W := 47) (T := 13) (by decide) (by decide) (by decide) (by decide)
    (digits_of_dec_ascii hC.2 aC) (digits_of_dec_ascii hD.2 aD) (by omega) (by omega) (by omega)
  obtain ⟨q1, q2, q3⟩ := fixed_ok (digits_of_dec_ascii hA.2 aA) hp hsm.1
  obtain ⟨r1, r2, r3⟩ := fixed_ok (digits_of_dec_ascii hB.2 aB) ht hsm.2
  unfold ITIP.binary at hb
  rw [filter_ok, ok_bind] at hb
  dsimp only at hb
  rw [p1, ok_bind, q1, ok_bind, r1, ok_bind, if_neg (by decide)] at hb
  obtain ⟨sb, hsb, hb⟩ := bind_ok_iff.1 hb
  obtain ⟨s1, s2⟩ := encodeString_size hS (by have := hlen; omega) hsb
  rw [pure_ok] at hb
  cases hb
  have hf := length_bin3 f
  have hh : (ITIP.Coding.header .itip212).length = 8 := rfl
  have l1 : (bin 7 (number A)).length = 7 := length_bin (by omega) (by omega)
  have l2 : (bin 7 (number B)).length = 7 := length_bin (by omega) (by omega)
  exact ⟨Bits_append.2 ⟨Bits_append.2 ⟨Bits_append.2 ⟨Bits_append.2 ⟨Bits_append.2 ⟨by decide, Bits_bin _ _⟩, p2⟩, Bits_bin _ _⟩,
    Bits_bin _ _⟩, s1⟩, by simp only [List.length_append]; omega⟩

/-- The full statement fails for ITIP: with one-digit piece and total, a nine-digit item reference is accepted and overflows its field. -/
theorem C49_itip_claim_false :
    ¬ ∀ (u b : Str) (x : ITIP) (f : Fin 8), ITIP.new u = .ok x → x.binary .itip212 f = .ok b → b.length = 212 := by
  intro h
  have hw : (do let x ← ITIP.new (py "urn:epc:id:itip:061414.999999999.1.1.A"); let b ← x.binary .itip212 0; pure b.length) = .ok 218 := by
    decide +kernel
  obtain ⟨x, hx, hw⟩ := bind_ok_iff.1 hw
  obtain ⟨b, hb, hw⟩ := bind_ok_iff.1 hw
  have := h _ b x 0 hx hb
  rw [pure_ok] at hw
  have := Except.ok.inj hw
  omega

-- Non-vacuity: an accepted URI whose serial is not in canonical form ("%41" is an escape the library itself never writes).
example : (do let x ← SGTIN.new (py "urn:epc:id:sgtin:0614141.112345.a%41-%2F"); let b ← x.binary .sgtin198 3; pure b.length) = .ok 198 := by
  decide +kernel
example : (do let x ← GIAI.new (py "urn:epc:id:giai:0614141.a%2Fb:c"); let b ← x.binary .giai202 3; pure b.length) = .ok 202 := by
  decide +kernel
example : (do let x ← ITIP.new (py "urn:epc:id:itip:061414.2345678.01.02.a%2Fb"); let b ← x.binary .itip212 3; pure b.length) = .ok 212 := by
  decide +kernel
-- Arabic-Indic digits in the company prefix.
example : (do let x ← SGTIN.new (py "urn:epc:id:sgtin:٠٦١٤١٤١.112345.a%2Fb"); let b ← x.binary .sgtin198 3; pure b.length) = .ok 198 := by
  decide +kernel

end Epc
""")
open("/verif/lean/Verif/Props/C49.lean", "w").write("\n".join(out))
