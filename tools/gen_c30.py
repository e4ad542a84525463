#!/usr/bin/env python3
"""Generate lean/Verif/Props/C30.lean and C31.lean (decoding arbitrary bit strings)."""
import os
ROOT = os.path.dirname(os.path.dirname(os.path.abspath(__file__)))
from gen_bin import R
from gen_decode import P
WIT = "001100100110000001110010111110100110010001101000010100100000000000000000000000000000000000000101"
KREF = {"SGTIN": "p + 1", "ITIP": "p + 1", "SSCC": "p + 5", "GSRN": "p + 5", "GSRNP": "p + 5", "SGLN": "p", "GDTI": "p", "SGCN": "p", "GRAI": "p"}
a = '''/-
C30: decoding a bit string and encoding the object with the filter bits reproduces the bit string (the 96-bit numeric schemes).
The 24 reserved bits of SSCC, GSRN and GSRNP are ignored by the decoder and zero in the encoding.

False for SGLN, GRAI, GDTI and SGCN with a 12-digit company prefix (partition value 0): the reference field is ignored by the
decoder.  For these the theorem asks that this field is zero when the partition value is.
Generated by tools/gen_c30.py.
-/
import Verif.Lemmas.Reencode

namespace Epc
open Spec Re
'''
c = '''/-
C31: a partition value of 7, a company prefix and a padded reference that are too large for their digit counts are rejected with
`ConvertException`.  The field `bits 11..13` is the partition value `p`; the company prefix has `12 - p` digits.

False for the reference of SGLN, GRAI, GDTI and SGCN when the partition value is 0 (no digits): the field is ignored.
Generated by tools/gen_c30.py.
-/
import Verif.Lemmas.DecodeAll

namespace Epc
open Spec Re

theorem prefixBits_le (n : Nat) : prefixBits n ≤ 40 ∧ 0 < prefixBits n := by
  unfold prefixBits; split <;> decide
'''
for C, cs, name, size, hd, fn, w, kind, ex, can in R:
    if cs not in P:
        continue
    W, T, mode, lo, sw, ser = P[cs]
    K = KREF.get(C)
    N = f"{W - 3} - prefixBits (12 - p)"
    suf = "_partial" if C in ("SGLN", "GRAI", "GDTI", "SGCN") else ""
    pfx = "10 ^ (12 - p) ≤ bitsNumber ((b.drop 14).take (prefixBits (12 - p)))"
    ref = f"{'p ≠ 0 → ' if suf else ''}10 ^ ({K}) ≤ bitsNumber ((b.drop (14 + prefixBits (12 - p))).take ({N}))"
    rej = f"{C}.fromBinary b = .error .convert"
    c += f'''
theorem C31_{cs}{suf} (b : Str) (hB : Bits b) (hb : b.take 8 = py "{hd}") :
    (bitsNumber ((b.drop 11).take 3) = 7 → {rej}) ∧
    (∀ p ≤ 6, bitsNumber ((b.drop 11).take 3) = p →
      {pfx} → {rej})''' + (f''' ∧
    (∀ p ≤ 6, bitsNumber ((b.drop 11).take 3) = p →
      {ref} →
      {rej})''' if K else "") + f''' := by
  by_cases hl : {size} ≤ b.length
  case neg =>
    have h : {rej} := by
      unfold {C}.fromBinary
      rw [parseHeader_short (cs := {C}.Coding.{cs}) (p := py "{C.lower()}") (sz := py "{size}") (n := {size}) hb (by decide) (by decide) (by decide) (by decide)
        (by omega), error_bind]
    exact {"⟨fun _ => h, fun _ _ _ _ => h, fun _ _ _ _" + (" _" if suf else "") + " => h⟩" if K else "⟨fun _ => h, fun _ _ _ _ => h⟩"}
  case pos =>
    have hT : StdTable {T} := by decide
    have hF : Bits ((b.drop 11).take {W}) := bits_take (bits_drop hB 11) {W}
    have hFl : ((b.drop 11).take {W}).length = {W} := field_length (by omega)
    have h3 : ((b.drop 11).take {W}).take 3 = (b.drop 11).take 3 := field_take (by decide)
    have go : decodePartitionTable ((b.drop 11).take {W}) {T}{mode} = .error .convert → {rej} := by
      intro h
      rw [{C}.decode_{cs} hB hb hl, h, error_bind]
    refine {"⟨fun h7 => go ?_, fun p hp e h => go ?_, fun p hp e" + (" hp0" if suf else "") + " h => go ?_⟩" if K else "⟨fun h7 => go ?_, fun p hp e h => go ?_⟩"}
    · exact reject7 hT hF (by omega) (by rw [h3]; exact h7)
    · have := prefixBits_le (12 - p)
      refine rejectPrefix hT hF hp (by omega) (by rw [h3]; exact e) ?_ (by rw [field_field (by omega)]; exact h)
      intro r hr e' hrp he
''' + {"": f'''      have hN : ∀ r ∈ {T}, 0 < r.N ∧ 3 + prefixBits (12 - r.P) + r.N = {W} := by decide
      have := hN r hr
      rw [decodeRef_number (.inl rfl) (bits_take (bits_drop hF _) _) (field_length (by rw [← hrp, hFl]; omega)) this.1] at he
      cases he
''', " .unpadded": f'''      have hN : ∀ r ∈ {T}, 0 < r.N ∧ 3 + prefixBits (12 - r.P) + r.N = {W} := by decide
      have := hN r hr
      rw [decodeRef_number (.inr rfl) (bits_take (bits_drop hF _) _) (field_length (by rw [← hrp, hFl]; omega)) this.1] at he
      cases he
''', " .string": '''      exact decodeRef_string_err (bits_take (bits_drop hF _) _) he
'''}[mode]
    if K:
        c += f'''    · have := prefixBits_le (12 - p)
      refine rejectRef hT (K := fun p => {K}) (N := fun p => {N}) (by decide) hF hp (by omega) (by rw [h3]; exact e) {"hp0" if suf else "(by simp)"} ?_
      rw [field_field (by omega)]
      rw [show 11 + (3 + prefixBits (12 - p)) = 14 + prefixBits (12 - p) by omega]
      exact h
'''
    # C30
    if size != 96:
        continue
    zero = {"SGLN": 1, "GDTI": 1, "SGCN": 1, "GRAI": 4}.get(C)
    hz = f"\n    (hz : bitsNumber ((b.drop 11).take 3) = 0 → bitsNumber ((b.drop 54).take {zero}) = 0)" if zero else ""
    res = "b.take 72 ++ List.replicate 24 '0'" if ser is None and C != "GIAI" else "b.take 96"
    nn = 72 if ser is None and C != "GIAI" else 96
    a += f'''
theorem C30_{cs}{"_partial" if zero else ""} (b : Str) (x : {C}) (hB : Bits b) (hb : b.take 8 = py "{hd}") (hx : {C}.fromBinary b = .ok x){hz} :
    ∃ f : Fin 8, f.val = bitsNumber ((b.drop 8).take 3) ∧ x.binary .{cs} f = .ok ({res}) := by
  by_cases hl : 96 ≤ b.length
  case neg =>
    unfold {C}.fromBinary at hx
    rw [parseHeader_short (cs := {C}.Coding.{cs}) (p := py "{C.lower()}") (sz := py "{size}") (n := {size}) hb (by decide) (by decide) (by decide) (by decide)
      (by omega), error_bind] at hx
    cases hx
  have hF : Bits ((b.drop 11).take {W}) := bits_take (bits_drop hB 11) {W}
  have hFl : ((b.drop 11).take {W}).length = {W} := field_length (by omega)
  obtain ⟨f, hf, hfb⟩ := filter_fin hB (by omega)
  refine ⟨f, hf, ?_⟩
  rw [{C}.decode_{cs} hB hb hl] at hx
  obtain ⟨g, hg, hx⟩ := bind_ok_iff.1 hx
'''
    if mode == " .unpadded":
        a += f"  obtain ⟨C, d, rfl, hC, hCne, henc⟩ := reencode_unpadded (t := {T}) (by decide) (by decide) hF (W := {W}) (by decide) hFl hg\n  replace henc := henc .plain (.inl rfl)\n  have hD := Digits_natStr d\n  have hDne := natStr_ne_nil d\n"
    else:
        a += f"  obtain ⟨C, D, rfl, hC, hD, hCne, hDne, henc⟩ := reencode (t := {T}) (by decide) hF (W := {W}) (by decide) hFl hg "
        if zero:
            a += f"""(by
    intro r hr hK hp
    have key : ∀ r ∈ {T}, r.K = 0 → r.P = 0 ∧ r.M = 40 := by decide
    obtain ⟨k1, k2⟩ := key r hr hK
    rw [field_take (by decide), k1] at hp
    rw [k2, List.drop_take, List.drop_drop]
    exact hz hp)\n"""
        else:
            a += f"""(by
    have key : ∀ r ∈ {T}, r.K ≠ 0 := by decide
    intro r hr hK
    exact absurd hK (key r hr))
  replace hDne := hDne (by decide)
"""
    Dv = "natStr d" if mode == " .unpadded" else "D"
    if ser == "num":
        a += f"  obtain ⟨S, hS, hx⟩ := bind_ok_iff.1 hx\n  obtain ⟨hS1, hS2, hS3⟩ := decodeNumeric_inv (bits_take (bits_drop hB {lo}) {sw}) (field_length (by omega)) hS\n"
    a += f"  have hnew := new_of_fromTagUri (n := {C}.Coding.value .{cs}) (by decide) (num_natStr _) hx\n"
    if ser == "int":
        a += f"""  have hS := Digits_natStr (bitsNumber ((b.drop {lo}).take {sw}))
  have hSne := natStr_ne_nil (bitsNumber ((b.drop {lo}).take {sw}))
  have hSb : bin {sw} (bitsNumber ((b.drop {lo}).take {sw})) = (b.drop {lo}).take {sw} :=
    bin_bitsNumber (bits_take (bits_drop hB {lo}) {sw}) (field_length (by omega)) (by decide)
  generalize hs : bitsNumber ((b.drop {lo}).take {sw}) = s at *
"""
    Sv = "natStr s" if ser == "int" else "S"
    dcase = {"SGLN": "(dec_digits hD)", "GRAI": "(dec_digits hD)", "GDTI": "(dec_digits hD)", "SGCN": "(dec_digits hD)", "CPI": "(cpref_digits hD hDne)"}.get(C, "⟨hDne, dec_digits hD⟩")
    if C == "GIAI":
        uri = "C ++ '.' :: natStr d"; eqa = "⟨hCne, dec_digits hC⟩ (gs3a3_digits hD hDne)"
    elif ser is None:
        uri = "C ++ '.' :: D"; eqa = f"⟨hCne, dec_digits hC⟩ {dcase}"
    else:
        uri = f"C ++ '.' :: ({Dv} ++ '.' :: {Sv})"
        scase = {"CPI": "(num_natStr s)", "SGCN": "⟨hS2, dec_digits hS1⟩"}.get(C, "(gs3a3_digits hS hSne)")
        eqa = f"⟨hCne, dec_digits hC⟩ {dcase} {scase}"
    guards = {"SGTIN": 3, "SSCC": 1, "GSRN": 1, "GSRNP": 1, "SGLN": 2, "GRAI": 2, "GDTI": 2, "GIAI": 2, "CPI": 1, "SGCN": 1}[C]
    g1 = "hgd" if C == "SGCN" else "_"
    a += f"""  have he : py "urn:epc:id:" ++ (split '-' ({C}.Coding.value .{cs})).headD [] ++ ':' :: {"((C ++ '.' :: " + Dv + ") ++ '.' :: " + Sv + ")" if ser else "(" + uri + ")"} =
      py "urn:epc:id:{C.lower()}" ++ ':' :: ({uri}) := by
    rw [show (split '-' ({C}.Coding.value .{cs})).headD [] = py "{C.lower()}" from by decide]
    simp
  rw [he, {C}.new_eq {eqa}] at hnew
  simp only [unit_bind_ok, pure_ok, Except.ok.injEq] at hnew
  obtain ⟨{", ".join([g1] * guards)}, rfl⟩ := hnew
"""
    if C == "GIAI":
        a += "  rw [split_notMem (no_colon_digits hD)]\n  simp only [List.headD_cons]\n"
    if C == "SGCN":
        a += "  simp only [guard_ok_iff, decide_eq_true_eq] at hgd\n"
    a += f"  unfold {C}.binary\n  rw [filter_ok, ok_bind]\n  dsimp only\n"
    multi = C not in ("SSCC", "GSRN", "GSRNP", "SGCN")
    if C == "GIAI":
        a += "  rw [if_pos rfl, henc, ok_bind, pure_ok, hfb]\n  refine congrArg _ ?_\n  rw [← take_split3 hb (n := 96) (by decide)]\n  simp [GIAI.Coding.header]\n"
        continue
    if ser is None:
        a += f"  rw [henc, ok_bind, pure_ok, hfb]\n  refine congrArg _ ?_\n  rw [← take_split3 hb (n := 72) (by decide)]\n  simp [{C}.Coding.header]\n"
        continue
    if C == "CPI":
        a += "  rw [if_pos rfl, henc, ok_bind, if_pos rfl, strToBinary_natStr, ok_bind, pure_ok, hfb, hSb]\n"
    elif C == "SGCN":
        a += "  rw [henc, ok_bind, hS3 hgd.2.1, ok_bind, pure_ok, hfb]\n"
    else:
        a += "  rw [henc, ok_bind, if_pos rfl, strToBinary_natStr, ok_bind, pure_ok, hfb, hSb]\n"
    a += f"  refine congrArg _ ?_\n  rw [← take_split4 hb (W := {W}) (n := 96) (by decide)]\n  simp [{C}.Coding.header]\n"
c += '''
theorem C31_cpiVar (b : Str) (hB : Bits b) (hb : b.take 8 = py "00111101") :
    (14 ≤ b.length → bitsNumber ((b.drop 11).take 3) = 7 → CPI.fromBinary b = .error .convert) ∧
    (∀ p ≤ 6, 14 + prefixBits (12 - p) ≤ b.length → bitsNumber ((b.drop 11).take 3) = p →
      10 ^ (12 - p) ≤ bitsNumber ((b.drop 14).take (prefixBits (12 - p))) → CPI.fromBinary b = .error .convert) := by
  have hT : StdTable CPI.tableVar := by decide
  have hF := bits_drop hB 11
  have go : decodePartitionTable (b.drop 11) CPI.tableVar .sixBit = .error .convert → CPI.fromBinary b = .error .convert := by
    intro h
    unfold CPI.fromBinary
    rw [parseHeader_var (cs := CPI.Coding.cpiVar) (p := py "cpi") (sz := py "var") hb (by decide) (by decide) (by decide), ok_bind]
    dsimp only
    unfold CPI.decodeParts
    rw [if_neg (by decide)]
    dsimp only
    rw [h, error_bind, error_bind]
  refine ⟨fun hl h7 => go (reject7 hT hF (by rw [List.length_drop]; omega) h7), fun p hp hl e h => go ?_⟩
  refine rejectPrefix hT hF hp (by rw [List.length_drop]; omega) e ?_ (by rw [List.drop_drop]; exact h)
  intro r hr e' hrp he
  exact decodeRef_six_err (bits_take (bits_drop hF _) _) he

/-- A bit string with partition value 0 and a non-zero reference field is accepted. -/
theorem C31_claim_false : ¬ ∀ b : Str, Bits b → b.take 8 = py "00110010" → bitsNumber ((b.drop 11).take 3) = 0 →
    10 ^ 0 ≤ bitsNumber ((b.drop 54).take 1) → SGLN.fromBinary b = .error .convert := by
  intro h
  exact absurd (h (py "@W@")
    (by decide) (by decide) (by decide +kernel) (by decide +kernel)) (by decide +kernel)

example : bitsNumber (((py "00110000001111").drop 11).take 3) = 7 := by decide +kernel
example : 10 ^ 12 ≤ bitsNumber (((py "00110000000000" ++ List.replicate 82 '1').drop 14).take (prefixBits 12)) := by decide +kernel
example : 10 ^ 1 ≤ bitsNumber (((py "00110000000000" ++ List.replicate 40 '0' ++ List.replicate 42 '1').drop 54).take 4) := by decide +kernel
'''
a += '''
theorem C30_gid96 (b : Str) (x : GID) (hB : Bits b) (hb : b.take 8 = py "00110101") (hx : GID.fromBinary b = .ok x) :
    x.binary .gid96 = .ok (b.take 96) := by
  by_cases hl : 96 ≤ b.length
  case neg =>
    unfold GID.fromBinary at hx
    rw [parseHeader_short (cs := GID.Coding.gid96) (p := py "gid") (sz := py "96") (n := 96) hb (by decide) (by decide) (by decide) (by decide)
      (by omega), error_bind] at hx
    cases hx
  unfold GID.fromBinary at hx
  rw [parseHeader_fixed (cs := GID.Coding.gid96) (p := py "gid") (sz := py "96") (n := 96) hb (by decide) (by decide) (by decide) (by decide) hl, ok_bind] at hx
  dsimp only at hx
  have w : ∀ {lo k : Nat}, lo + k ≤ 96 → 0 < k → binIntStr ((b.drop lo).take k) = .ok (natStr (bitsNumber ((b.drop lo).take k))) ∧
      bin k (bitsNumber ((b.drop lo).take k)) = (b.drop lo).take k := by
    intro lo k h1 h2
    have hb' := bits_take (bits_drop hB lo) k
    exact ⟨binIntStr_bits hb' (ne_nil_of_length (field_length (by omega)) h2), bin_bitsNumber hb' (field_length (by omega)) h2⟩
  rw [slice_of_take (by decide), (w (by decide) (by decide)).1, ok_bind, slice_of_take (by decide), (w (by decide) (by decide)).1, ok_bind,
    drop_of_take, (w (by decide) (by decide)).1, ok_bind] at hx
  have w1 := (w (lo := 8) (k := 36 - 8) (by decide) (by decide)).2
  have w2 := (w (lo := 36) (k := 60 - 36) (by decide) (by decide)).2
  have w3 := (w (lo := 60) (k := 96 - 60) (by decide) (by decide)).2
  generalize bitsNumber ((b.drop 8).take (36 - 8)) = m at *
  generalize bitsNumber ((b.drop 36).take (60 - 36)) = o at *
  generalize bitsNumber ((b.drop 60).take (96 - 60)) = s at *
  have hcol : ':' ∉ natStr m ++ '.' :: (natStr o ++ '.' :: natStr s) := by
    have c1 := no_colon_digits (Digits_natStr m)
    have c2 := no_colon_digits (Digits_natStr o)
    have c3 := no_colon_digits (Digits_natStr s)
    simp only [List.mem_append, List.mem_cons, not_or]
    exact ⟨c1, by decide, c2, by decide, c3⟩
  unfold GID.fromTagUri at hx
  have e : tagUriPrefix ++ GID.Coding.value .gid96 ++ ':' :: natStr m ++ '.' :: natStr o ++ '.' :: natStr s =
      tagUriPrefix ++ GID.Coding.value .gid96 ++ ':' :: (natStr m ++ '.' :: (natStr o ++ '.' :: natStr s)) := by simp
  rw [e, fromTagUri_nofilter (by decide), split_notMem hcol] at hx
  split at hx
  case isFalse => cases hx
  have he : py "urn:epc:id:" ++ (split '-' (GID.Coding.value .gid96)).headD [] ++ ':' :: [natStr m ++ '.' :: (natStr o ++ '.' :: natStr s)].headD [] =
      py "urn:epc:id:gid" ++ ':' :: (natStr m ++ '.' :: (natStr o ++ '.' :: natStr s)) := by
    rw [show (split '-' (GID.Coding.value .gid96)).headD [] = py "gid" from by decide]
    simp
  rw [he, GID.new_eq (num_natStr m) (num_natStr o) (num_natStr s)] at hx
  simp only [unit_bind_ok, pure_ok, Except.ok.injEq] at hx
  obtain ⟨_, _, _, rfl⟩ := hx
  unfold GID.binary
  dsimp only
  rw [strToBinary_natStr, ok_bind, strToBinary_natStr, ok_bind, strToBinary_natStr, ok_bind, pure_ok, w1, w2, w3]
  refine congrArg _ ?_
  rw [show (96 : Nat) = 8 + (28 + (24 + 36)) from rfl, List.take_add, List.take_add, List.take_add, hb, List.drop_drop, List.drop_drop]
  simp [GID.Coding.header]

/-- Two bit strings that differ in the ignored reference field decode to the same object. -/
theorem C30_claim_false : ¬ ∀ (b : Str) (x : SGLN), Bits b → b.take 8 = py "00110010" → SGLN.fromBinary b = .ok x →
    ∃ f : Fin 8, f.val = bitsNumber ((b.drop 8).take 3) ∧ x.binary .sgln96 f = .ok (b.take 96) := by
  intro h
  have hw : (do
      let x ← SGLN.fromBinary (py "@W@")
      let y ← x.binary .sgln96 3
      return decide (y ≠ py "@W@") : Except Err Bool) = .ok true := by decide +kernel
  simp only [bind_ok_iff, pure_ok, Except.ok.injEq, decide_eq_true_eq] at hw
  obtain ⟨x, hx, y, hy, hne⟩ := hw
  obtain ⟨f, hf, hb⟩ := h _ x (by decide) (by decide) hx
  have : f = 3 := Fin.ext (by rw [hf]; decide +kernel)
  rw [this, hy] at hb
  injection hb with hb
  exact hne hb

example : (SGTIN.fromBinary (py "001100000001011001000101000111111101010000001100000011100100000000000000000000000000000000000001")).isOk = true := by decide +kernel
'''.replace("@W@", WIT)
open(os.path.join(ROOT, "lean/Verif/Props/C30.lean"), "w").write(a + "\nend Epc\n")
open(os.path.join(ROOT, "lean/Verif/Props/C31.lean"), "w").write(c.replace("@W@", WIT) + "\nend Epc\n")
