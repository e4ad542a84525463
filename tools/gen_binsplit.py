#!/usr/bin/env python3
"""Generate lean/Verif/Lemmas/BinSplit.lean: the filter value occupies its own field of the binary."""
import os
ROOT = os.path.dirname(os.path.dirname(os.path.abspath(__file__)))
CL = ["SGTIN", "SSCC", "SGLN", "GRAI", "GIAI", "GSRN", "GSRNP", "GDTI", "CPI", "SGCN", "ITIP", "USDOD", "ADI"]
W = {"USDOD": (16, 4), "ADI": (64, 6)}
STEPS = {"SGTIN": 2, "SSCC": 1, "SGLN": 2, "GRAI": 2, "GIAI": 1, "GSRN": 1, "GSRNP": 1, "GDTI": 2, "CPI": 2, "SGCN": 2, "ITIP": 4, "USDOD": 1, "ADI": 3}
REST = {"SSCC": "p1 ++ List.replicate 24 '0'", "GSRN": "p1 ++ List.replicate 24 '0'", "GSRNP": "p1 ++ List.replicate 24 '0'",
        "USDOD": "encodeCageCode (padLeft ' ' 6 x.cage) ++ p1"}
DUAL = ["SGTIN", "SGLN", "GRAI", "GIAI", "GDTI", "CPI", "ITIP"]
SIZES = {"SGTIN": (96, 198), "SGLN": (96, 195), "GRAI": (96, 170), "GIAI": (96, 202), "GDTI": (96, 174), "ITIP": (110, 212), "CPI": (96, "var"),
         "SSCC": (96,), "GSRN": (96,), "GSRNP": (96,), "SGCN": (96,), "USDOD": (96,), "ADI": ("var",)}
# number of slices beyond the filter, of trailing drops, of bound results in from_binary
SHAPE = {"SGTIN": (1, 1, 2), "SGLN": (1, 1, 2), "GRAI": (1, 1, 2), "GDTI": (1, 1, 2), "SGCN": (1, 1, 2), "ITIP": (3, 1, 4), "GIAI": (0, 1, 1),
         "SSCC": (1, 0, 1), "GSRN": (1, 0, 1), "GSRNP": (1, 0, 1), "USDOD": (1, 1, 2)}
out = '''/-
The header and the filter value occupy their own fields at the start of every binary.
Generated by tools/gen_binsplit.py.
-/
import Verif.Lemmas.Frame

namespace Epc
open Spec Re

theorem slice_skip {a b s : Str} {k lo hi : Nat} (hk : a.length + b.length = k) (hl : k ≤ lo) :
    slice (a ++ (b ++ s)) lo hi = slice s (lo - k) (hi - k) := by
  unfold slice
  obtain ⟨l, rfl⟩ : ∃ l, lo = k + l := ⟨lo - k, by omega⟩
  by_cases h : k ≤ hi
  · obtain ⟨m, rfl⟩ : ∃ m, hi = k + m := ⟨hi - k, by omega⟩
    have e : (a ++ (b ++ s)).take (k + m) = (a ++ b) ++ s.take m := by
      rw [← List.append_assoc, List.take_append]
      rw [List.take_of_length_le (by simp; omega)]
      congr 2
      simp; omega
    rw [e, ← List.drop_drop, drop_append_eq (by simpa using hk)]
    simp
  · have e1 : hi - k = 0 := by omega
    rw [e1]
    simp
    omega

theorem drop_skip {a b s : Str} {k lo : Nat} (hk : a.length + b.length = k) (hl : k ≤ lo) :
    (a ++ (b ++ s)).drop lo = s.drop (lo - k) := by
  obtain ⟨l, rfl⟩ : ∃ l, lo = k + l := ⟨lo - k, by omega⟩
  rw [← List.drop_drop, drop_append2 hk]
  simp

/-- Truncation does not look at the filter field. -/
theorem parseHeader_swap {κ : Type} {headers : List (Str × κ)} {value : κ → Str} {cs c' : κ} {hd a a' s r p sz : Str} {n : Nat}
    (h8 : hd.length = 8) (ha : a.length = a'.length) (hn8 : 8 + a.length ≤ n) (hl : headers.lookup hd = some cs)
    (hs : split '-' (value cs) = [p, sz]) (hn : isNumeric sz = true) (hi : pyInt 10 sz = .ok (n : Int))
    (h : parseHeader headers value (hd ++ (a ++ s)) = .ok (c', r)) :
    c' = cs ∧ ∃ s', r = hd ++ (a ++ s') ∧ parseHeader headers value (hd ++ (a' ++ s)) = .ok (cs, hd ++ (a' ++ s')) := by
  by_cases hle : n ≤ (hd ++ (a ++ s)).length
  · rw [parseHeader_fixed (take_append_eq h8) hl hs hn hi hle] at h
    injection h with h
    injection h with h1 h2
    have cut : ∀ a : Str, 8 + a.length ≤ n → (hd ++ (a ++ s)).take n = hd ++ (a ++ s.take (n - (8 + a.length))) := by
      intro a hh
      rw [slice_take_append (by omega), slice_take_append (by omega), h8]
      congr 3
      omega
    refine ⟨h1.symm, s.take (n - (8 + a.length)), by rw [← h2, cut a hn8], ?_⟩
    rw [parseHeader_fixed (take_append_eq h8) hl hs hn hi (by simp at hle ⊢; omega), cut a' (by omega), ha]
  · rw [parseHeader_short (take_append_eq h8) hl hs hn hi (by omega)] at h
    cases h

theorem parseHeader_swap_var {κ : Type} {headers : List (Str × κ)} {value : κ → Str} {cs c' : κ} {hd a a' s r p sz : Str}
    (h8 : hd.length = 8) (hl : headers.lookup hd = some cs) (hs : split '-' (value cs) = [p, sz]) (hn : isNumeric sz = false)
    (h : parseHeader headers value (hd ++ (a ++ s)) = .ok (c', r)) :
    c' = cs ∧ ∃ s', r = hd ++ (a ++ s') ∧ parseHeader headers value (hd ++ (a' ++ s)) = .ok (cs, hd ++ (a' ++ s')) := by
  rw [parseHeader_var (take_append_eq h8) hl hs hn] at h
  injection h with h
  injection h with h1 h2
  exact ⟨h1.symm, s, h2.symm, parseHeader_var (take_append_eq h8) hl hs hn⟩

/-- The filter value of a tag URI has no influence on the object it describes. -/
theorem fromTagUri_swap {α : Type} {new : Str → Except Err α} {κ : Type} {value : κ → Str} {nm v f g q : Str} {y : α}
    (iff : ∀ t : Str, Epc.fromTagUri new true t = .ok y ↔ ∃ cs : κ, ∃ f b, Num f ∧
      t = tagUriPrefix ++ value cs ++ ':' :: (f ++ '.' :: b) ∧ new (nm ++ b) = .ok y)
    (hv : ∀ cs, ':' ∉ value cs) (hf : Num f) (hg : Num g) (hc : ':' ∉ v)
    (h : Epc.fromTagUri new true (tagUriPrefix ++ (v ++ ':' :: (f ++ '.' :: q))) = .ok y) :
    Epc.fromTagUri new true (tagUriPrefix ++ (v ++ ':' :: (g ++ '.' :: q))) = .ok y := by
  obtain ⟨cs, f', b, hf', e, hx⟩ := (iff _).1 h
  rw [List.append_assoc] at e
  obtain ⟨e1, e2⟩ := append_sep_inj hc (hv cs) (List.append_cancel_left e)
  obtain ⟨_, e3⟩ := append_sep_inj hf.dec.no_dot hf'.dec.no_dot e2
  refine (iff _).2 ⟨cs, g, b, hg, ?_, hx⟩
  rw [e1, e3, List.append_assoc]
'''
for cl in CL:
    n, w = W.get(cl, (8, 3))
    k = STEPS[cl]
    ps = [f"p{i}" for i in range(1, k+1)]
    rest = REST.get(cl, " ++ ".join([ps[0]] + ["(" * 0 + p for p in ps[1:]]))
    TWO = " reduceCtorEq, if_true, if_false," if cl in DUAL else ""
    pat = ", ".join(f"p{i}, h{i}" for i in range(1, k+1))
    out += f'''
theorem {cl}.binary_split {{x : {cl}}} {{cs : {cl}.Coding}} {{f : Fin {n}}} {{b : Str}} (hb : x.binary cs f = .ok b) :
    ∃ s, b = cs.header ++ (bin {w} f ++ s) ∧ ∀ g : Fin {n}, x.binary cs g = .ok (cs.header ++ (bin {w} g ++ s)) := by
  unfold {cl}.binary at hb ⊢
  cases cs <;>
  · simp only [filter_ok, ok_bind,{TWO} bind_ok_iff, pure_ok, Except.ok.injEq] at hb ⊢
    obtain ⟨{pat}, rfl⟩ := hb
    exact ⟨{rest}, by simp, fun g => ⟨{pat}, by simp⟩⟩
'''
out += '''
/-! ### Decoding does not depend on the filter field -/
'''
for cl in CL:
    n, w = W.get(cl, (8, 3))
    o = 8 + w
    out += f'''
theorem {cl}.fromTagUri_swap {{cs : {cl}.Coding}} {{f g : Nat}} {{q : Str}} {{y : {cl}}}
    (h : {cl}.fromTagUri (tagUriPrefix ++ (cs.value ++ ':' :: (natStr f ++ '.' :: q))) = .ok y) :
    {cl}.fromTagUri (tagUriPrefix ++ (cs.value ++ ':' :: (natStr g ++ '.' :: q))) = .ok y :=
  Epc.fromTagUri_swap (fun _ => {cl}.fromTagUri_iff) (by intro cs; cases cs <;> decide) (num_natStr f) (num_natStr g)
    (by cases cs <;> decide) h
'''
    if cl in ("CPI", "ADI"): continue
    ns, nd, nb = SHAPE[cl]
    ps = [f"p{i}" for i in range(1, nb+1)]
    pat = ", ".join(f"p{i}, h{i}" for i in range(1, nb+1))
    rws = ", ".join([f"slice_skip (k := {o}) (by omega) (by omega)"] * ns + [f"drop_skip (k := {o}) (by omega) (by omega)"] * nd)
    out += f'''
theorem {cl}.fromBinary_swap {{cs : {cl}.Coding}} {{f g : Fin {n}}} {{s : Str}} {{y : {cl}}}
    (h : {cl}.fromBinary (cs.header ++ (bin {w} f ++ s)) = .ok y) : {cl}.fromBinary (cs.header ++ (bin {w} g ++ s)) = .ok y := by
  have hf : (bin {w} f).length = {w} := length_bin (by omega) (by have := f.isLt; omega)
  have hg : (bin {w} g).length = {w} := length_bin (by omega) (by have := g.isLt; omega)
  unfold {cl}.fromBinary at h ⊢
  obtain ⟨⟨c', r⟩, hp, h⟩ := bind_ok_iff.1 h
  cases cs
'''
    for size in SIZES[cl]:
        cs = cl.lower() + str(size)
        TWO = ("if_true, " if size == SIZES[cl][0] else "reduceCtorEq, if_false, ") if cl in DUAL else ""
        out += f'''  · have h8 : ({cl}.Coding.header .{cs}).length = 8 := rfl
    obtain ⟨rfl, s', rfl, hp'⟩ := parseHeader_swap (a' := bin {w} g) (n := {size}) (p := py "{cl.lower()}") (sz := py "{size}") (cs := {cl}.Coding.{cs}) rfl
      (by omega) (by omega) (by decide) (by decide) (by decide) (by decide) hp
    rw [hp', ok_bind]
    dsimp only at h ⊢
    rw [slice_append (by omega) (by omega), binaryToInt_bin, ok_bind, {rws}] at h ⊢
    simp only [{TWO}bind_ok_iff, intStr_ofNat] at h ⊢
    obtain ⟨{pat}, h⟩ := h
    refine ⟨{pat}, ?_⟩
    simp only [List.append_assoc, List.cons_append] at h ⊢
    exact {cl}.fromTagUri_swap h
'''
out += '''
theorem CPI.fromBinary_swap {cs : CPI.Coding} {f g : Fin 8} {s : Str} {y : CPI}
    (h : CPI.fromBinary (cs.header ++ (bin 3 f ++ s)) = .ok y) : CPI.fromBinary (cs.header ++ (bin 3 g ++ s)) = .ok y := by
  have hf := length_bin3 f
  have hg := length_bin3 g
  have key : ∀ s' : Str, CPI.decodeParts cs (cs.header ++ (bin 3 f ++ s')) = CPI.decodeParts cs (cs.header ++ (bin 3 g ++ s')) := by
    intro s'
    have h8 : cs.header.length = 8 := by cases cs <;> rfl
    unfold CPI.decodeParts
    split
    · rw [slice_skip (k := 11) (by omega) (by omega), slice_skip (k := 11) (by omega) (by omega),
        drop_skip (k := 11) (by omega) (by omega), drop_skip (k := 11) (by omega) (by omega)]
    · dsimp only
      rw [drop_skip (k := 11) (by omega) (by omega), drop_skip (k := 11) (lo := 11) (by omega) (by omega)]
      refine congrArg _ (funext fun p => congrArg _ (funext fun q => congrArg _ (funext fun row => ?_)))
      rw [drop_skip (k := 11) (by omega) (by omega), drop_skip (k := 11) (by omega) (by omega)]
  unfold CPI.fromBinary at h ⊢
  obtain ⟨⟨c', r⟩, hp, h⟩ := bind_ok_iff.1 h
  have fin : ∀ s' : Str, (c' = cs ∧ r = cs.header ++ (bin 3 f ++ s') ∧ parseHeader CPI.headers CPI.Coding.value (cs.header ++ (bin 3 g ++ s)) =
      .ok (cs, cs.header ++ (bin 3 g ++ s'))) → (parseHeader CPI.headers CPI.Coding.value (cs.header ++ (bin 3 g ++ s)) >>= fun x => (do
        let (cpi, serialBinary) ← CPI.decodeParts x.1 x.2
        let filter ← binaryToInt (slice x.2 8 11)
        let serial ← binIntStr serialBinary
        CPI.fromTagUri (tagUriPrefix ++ x.1.value ++ ':' :: intStr filter ++ '.' :: cpi ++ '.' :: serial))) = .ok y := by
    rintro s' ⟨rfl, rfl, hp'⟩
    have h8 : c'.header.length = 8 := by cases c' <;> rfl
    rw [hp', ok_bind]
    dsimp only at h ⊢
    rw [key s'] at h
    rw [slice_append (by omega) (by omega), binaryToInt_bin] at h ⊢
    simp only [bind_ok_iff, intStr_ofNat, Except.ok.injEq, exists_eq_left'] at h ⊢
    obtain ⟨p1, h1, p2, h2, h⟩ := h
    refine ⟨p1, h1, p2, h2, ?_⟩
    simp only [List.append_assoc, List.cons_append] at h ⊢
    exact CPI.fromTagUri_swap h
  cases cs
  · obtain ⟨rfl, s', rfl, hp'⟩ := parseHeader_swap (a' := bin 3 g) (n := 96) (p := py "cpi") (sz := py "96") (cs := CPI.Coding.cpi96) rfl
      (by omega) (by omega) (by decide) (by decide) (by decide) (by decide) hp
    exact fin s' ⟨rfl, rfl, hp'⟩
  · obtain ⟨rfl, s', rfl, hp'⟩ := parseHeader_swap_var (a' := bin 3 g) (p := py "cpi") (sz := py "var") (cs := CPI.Coding.cpiVar) rfl
      (by decide) (by decide) (by decide) hp
    exact fin s' ⟨rfl, rfl, hp'⟩

theorem ADI.fromBinary_swap {cs : ADI.Coding} {f g : Fin 64} {s : Str} {y : ADI}
    (h : ADI.fromBinary (cs.header ++ (bin 6 f ++ s)) = .ok y) : ADI.fromBinary (cs.header ++ (bin 6 g ++ s)) = .ok y := by
  have hf : (bin 6 f).length = 6 := length_bin (by omega) (by have := f.isLt; omega)
  have hg : (bin 6 g).length = 6 := length_bin (by omega) (by have := g.isLt; omega)
  unfold ADI.fromBinary at h ⊢
  obtain ⟨⟨c', r⟩, hp, h⟩ := bind_ok_iff.1 h
  cases cs
  have h8 : (ADI.Coding.header .adiVar).length = 8 := rfl
  obtain ⟨rfl, s', rfl, hp'⟩ := parseHeader_swap_var (a' := bin 6 g) (p := py "adi") (sz := py "var") (cs := ADI.Coding.adiVar) rfl
    (by decide) (by decide) (by decide) hp
  rw [hp', ok_bind]
  dsimp only at h ⊢
  rw [slice_append (by omega) (by omega), binaryToInt_bin, drop_skip (k := 14) (by omega) (by omega), slice_skip (k := 14) (by omega) (by omega)] at h ⊢
  simp only [bind_ok_iff, intStr_ofNat, Except.ok.injEq, exists_eq_left'] at h ⊢
  obtain ⟨p0, h0, p1, h1, p2, h2, p3, h3, p4, h4, h⟩ := h
  refine ⟨p0, h0, p1, h1, p2, h2, p3, h3, p4, h4, ?_⟩
  simp only [List.append_assoc, List.cons_append] at h ⊢
  exact ADI.fromTagUri_swap h
'''
out += '''
theorem GID.binary_split {x : GID} {cs : GID.Coding} {b : Str} (hb : x.binary cs = .ok b) : ∃ s, b = cs.header ++ s := by
  unfold GID.binary at hb
  simp only [bind_ok_iff, pure_ok, Except.ok.injEq] at hb
  obtain ⟨p1, h1, p2, h2, p3, h3, rfl⟩ := hb
  exact ⟨p1 ++ p2 ++ p3, by simp⟩

end Epc
'''
open(os.path.join(ROOT, "lean/Verif/Lemmas/BinSplit.lean"), "w").write(out)
