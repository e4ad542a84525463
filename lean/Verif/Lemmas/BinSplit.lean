/-
The header and the filter value occupy their own fields at the start of every binary.
Generated by tools/gen_binsplit.py.
-/
import Verif.Lemmas.Frame

namespace Epc
open Spec Re

theorem slice_skip {a b s : Str} {k lo hi : Nat} (hk : a.length + b.length = k) (hl : k ≤ lo) :
    slice (a ++ (b ++ s)) lo hi = slice s (lo - k) (hi - k) := by
  unfold slice
  obtain ⟨l, rfl⟩ : ∃ l, lo = k + l := ⟨lo - k, by omega⟩
  by_cases h : k ≤ hi
  · obtain ⟨m, rfl⟩ : ∃ m, hi = k + m := ⟨hi - k, by omega⟩
    have e : (a ++ (b ++ s)).take (k + m) = (a ++ b) ++ s.take m := by
      rw [← List.append_assoc, List.take_append]
      rw [List.take_of_length_le (by simp; omega)]
      congr 2
      simp; omega
    rw [e, ← List.drop_drop, drop_append_eq (by simpa using hk)]
    simp
  · have e1 : hi - k = 0 := by omega
    rw [e1]
    simp
    omega

theorem drop_skip {a b s : Str} {k lo : Nat} (hk : a.length + b.length = k) (hl : k ≤ lo) :
    (a ++ (b ++ s)).drop lo = s.drop (lo - k) := by
  obtain ⟨l, rfl⟩ : ∃ l, lo = k + l := ⟨lo - k, by omega⟩
  rw [← List.drop_drop, drop_append2 hk]
  simp

/-- Truncation does not look at the filter field. -/
theorem parseHeader_swap {κ : Type} {headers : List (Str × κ)} {value : κ → Str} {cs c' : κ} {hd a a' s r p sz : Str} {n : Nat}
    (h8 : hd.length = 8) (ha : a.length = a'.length) (hn8 : 8 + a.length ≤ n) (hl : headers.lookup hd = some cs)
    (hs : split '-' (value cs) = [p, sz]) (hn : isNumeric sz = true) (hi : pyInt 10 sz = .ok (n : Int))
    (h : parseHeader headers value (hd ++ (a ++ s)) = .ok (c', r)) :
    c' = cs ∧ ∃ s', r = hd ++ (a ++ s') ∧ parseHeader headers value (hd ++ (a' ++ s)) = .ok (cs, hd ++ (a' ++ s')) := by
  by_cases hle : n ≤ (hd ++ (a ++ s)).length
  · rw [parseHeader_fixed (take_append_eq h8) hl hs hn hi hle] at h
    injection h with h
    injection h with h1 h2
    have cut : ∀ a : Str, 8 + a.length ≤ n → (hd ++ (a ++ s)).take n = hd ++ (a ++ s.take (n - (8 + a.length))) := by
      intro a hh
      rw [slice_take_append (by omega), slice_take_append (by omega), h8]
      congr 3
      omega
    refine ⟨h1.symm, s.take (n - (8 + a.length)), by rw [← h2, cut a hn8], ?_⟩
    rw [parseHeader_fixed (take_append_eq h8) hl hs hn hi (by simp at hle ⊢; omega), cut a' (by omega), ha]
  · rw [parseHeader_short (take_append_eq h8) hl hs hn hi (by omega)] at h
    cases h

theorem parseHeader_swap_var {κ : Type} {headers : List (Str × κ)} {value : κ → Str} {cs c' : κ} {hd a a' s r p sz : Str}
    (h8 : hd.length = 8) (hl : headers.lookup hd = some cs) (hs : split '-' (value cs) = [p, sz]) (hn : isNumeric sz = false)
    (h : parseHeader headers value (hd ++ (a ++ s)) = .ok (c', r)) :
    c' = cs ∧ ∃ s', r = hd ++ (a ++ s') ∧ parseHeader headers value (hd ++ (a' ++ s)) = .ok (cs, hd ++ (a' ++ s')) := by
  rw [parseHeader_var (take_append_eq h8) hl hs hn] at h
  injection h with h
  injection h with h1 h2
  exact ⟨h1.symm, s, h2.symm, parseHeader_var (take_append_eq h8) hl hs hn⟩

/-- The filter value of a tag URI has no influence on the object it describes. -/
theorem fromTagUri_swap {α : Type} {new : Str → Except Err α} {κ : Type} {value : κ → Str} {nm v f g q : Str} {y : α}
    (iff : ∀ t : Str, Epc.fromTagUri new true t = .ok y ↔ ∃ cs : κ, ∃ f b, Num f ∧
      t = tagUriPrefix ++ value cs ++ ':' :: (f ++ '.' :: b) ∧ new (nm ++ b) = .ok y)
    (hv : ∀ cs, ':' ∉ value cs) (hf : Num f) (hg : Num g) (hc : ':' ∉ v)
    (h : Epc.fromTagUri new true (tagUriPrefix ++ (v ++ ':' :: (f ++ '.' :: q))) = .ok y) :
    Epc.fromTagUri new true (tagUriPrefix ++ (v ++ ':' :: (g ++ '.' :: q))) = .ok y := by
  obtain ⟨cs, f', b, hf', e, hx⟩ := (iff _).1 h
  rw [List.append_assoc] at e
  obtain ⟨e1, e2⟩ := append_sep_inj hc (hv cs) (List.append_cancel_left e)
  obtain ⟨_, e3⟩ := append_sep_inj hf.dec.no_dot hf'.dec.no_dot e2
  refine (iff _).2 ⟨cs, g, b, hg, ?_, hx⟩
  rw [e1, e3, List.append_assoc]

theorem SGTIN.binary_split {x : SGTIN} {cs : SGTIN.Coding} {f : Fin 8} {b : Str} (hb : x.binary cs f = .ok b) :
    ∃ s, b = cs.header ++ (bin 3 f ++ s) ∧ ∀ g : Fin 8, x.binary cs g = .ok (cs.header ++ (bin 3 g ++ s)) := by
  unfold SGTIN.binary at hb ⊢
  cases cs <;>
  · simp only [filter_ok, ok_bind, reduceCtorEq, if_true, if_false, bind_ok_iff, pure_ok, Except.ok.injEq] at hb ⊢
    obtain ⟨p1, h1, p2, h2, rfl⟩ := hb
    exact ⟨p1 ++ p2, by simp, fun g => ⟨p1, h1, p2, h2, by simp⟩⟩

theorem SSCC.binary_split {x : SSCC} {cs : SSCC.Coding} {f : Fin 8} {b : Str} (hb : x.binary cs f = .ok b) :
    ∃ s, b = cs.header ++ (bin 3 f ++ s) ∧ ∀ g : Fin 8, x.binary cs g = .ok (cs.header ++ (bin 3 g ++ s)) := by
  unfold SSCC.binary at hb ⊢
  cases cs <;>
  · simp only [filter_ok, ok_bind, bind_ok_iff, pure_ok, Except.ok.injEq] at hb ⊢
    obtain ⟨p1, h1, rfl⟩ := hb
    exact ⟨p1 ++ List.replicate 24 '0', by simp, fun g => ⟨p1, h1, by simp⟩⟩

theorem SGLN.binary_split {x : SGLN} {cs : SGLN.Coding} {f : Fin 8} {b : Str} (hb : x.binary cs f = .ok b) :
    ∃ s, b = cs.header ++ (bin 3 f ++ s) ∧ ∀ g : Fin 8, x.binary cs g = .ok (cs.header ++ (bin 3 g ++ s)) := by
  unfold SGLN.binary at hb ⊢
  cases cs <;>
  · simp only [filter_ok, ok_bind, reduceCtorEq, if_true, if_false, bind_ok_iff, pure_ok, Except.ok.injEq] at hb ⊢
    obtain ⟨p1, h1, p2, h2, rfl⟩ := hb
    exact ⟨p1 ++ p2, by simp, fun g => ⟨p1, h1, p2, h2, by simp⟩⟩

theorem GRAI.binary_split {x : GRAI} {cs : GRAI.Coding} {f : Fin 8} {b : Str} (hb : x.binary cs f = .ok b) :
    ∃ s, b = cs.header ++ (bin 3 f ++ s) ∧ ∀ g : Fin 8, x.binary cs g = .ok (cs.header ++ (bin 3 g ++ s)) := by
  unfold GRAI.binary at hb ⊢
  cases cs <;>
  · simp only [filter_ok, ok_bind, reduceCtorEq, if_true, if_false, bind_ok_iff, pure_ok, Except.ok.injEq] at hb ⊢
    obtain ⟨p1, h1, p2, h2, rfl⟩ := hb
    exact ⟨p1 ++ p2, by simp, fun g => ⟨p1, h1, p2, h2, by simp⟩⟩

theorem GIAI.binary_split {x : GIAI} {cs : GIAI.Coding} {f : Fin 8} {b : Str} (hb : x.binary cs f = .ok b) :
    ∃ s, b = cs.header ++ (bin 3 f ++ s) ∧ ∀ g : Fin 8, x.binary cs g = .ok (cs.header ++ (bin 3 g ++ s)) := by
  unfold GIAI.binary at hb ⊢
  cases cs <;>
  · simp only [filter_ok, ok_bind, reduceCtorEq, if_true, if_false, bind_ok_iff, pure_ok, Except.ok.injEq] at hb ⊢
    obtain ⟨p1, h1, rfl⟩ := hb
    exact ⟨p1, by simp, fun g => ⟨p1, h1, by simp⟩⟩

theorem GSRN.binary_split {x : GSRN} {cs : GSRN.Coding} {f : Fin 8} {b : Str} (hb : x.binary cs f = .ok b) :
    ∃ s, b = cs.header ++ (bin 3 f ++ s) ∧ ∀ g : Fin 8, x.binary cs g = .ok (cs.header ++ (bin 3 g ++ s)) := by
  unfold GSRN.binary at hb ⊢
  cases cs <;>
  · simp only [filter_ok, ok_bind, bind_ok_iff, pure_ok, Except.ok.injEq] at hb ⊢
    obtain ⟨p1, h1, rfl⟩ := hb
    exact ⟨p1 ++ List.replicate 24 '0', by simp, fun g => ⟨p1, h1, by simp⟩⟩

theorem GSRNP.binary_split {x : GSRNP} {cs : GSRNP.Coding} {f : Fin 8} {b : Str} (hb : x.binary cs f = .ok b) :
    ∃ s, b = cs.header ++ (bin 3 f ++ s) ∧ ∀ g : Fin 8, x.binary cs g = .ok (cs.header ++ (bin 3 g ++ s)) := by
  unfold GSRNP.binary at hb ⊢
  cases cs <;>
  · simp only [filter_ok, ok_bind, bind_ok_iff, pure_ok, Except.ok.injEq] at hb ⊢
    obtain ⟨p1, h1, rfl⟩ := hb
    exact ⟨p1 ++ List.replicate 24 '0', by simp, fun g => ⟨p1, h1, by simp⟩⟩

theorem GDTI.binary_split {x : GDTI} {cs : GDTI.Coding} {f : Fin 8} {b : Str} (hb : x.binary cs f = .ok b) :
    ∃ s, b = cs.header ++ (bin 3 f ++ s) ∧ ∀ g : Fin 8, x.binary cs g = .ok (cs.header ++ (bin 3 g ++ s)) := by
  unfold GDTI.binary at hb ⊢
  cases cs <;>
  · simp only [filter_ok, ok_bind, reduceCtorEq, if_true, if_false, bind_ok_iff, pure_ok, Except.ok.injEq] at hb ⊢
    obtain ⟨p1, h1, p2, h2, rfl⟩ := hb
    exact ⟨p1 ++ p2, by simp, fun g => ⟨p1, h1, p2, h2, by simp⟩⟩

theorem CPI.binary_split {x : CPI} {cs : CPI.Coding} {f : Fin 8} {b : Str} (hb : x.binary cs f = .ok b) :
    ∃ s, b = cs.header ++ (bin 3 f ++ s) ∧ ∀ g : Fin 8, x.binary cs g = .ok (cs.header ++ (bin 3 g ++ s)) := by
  unfold CPI.binary at hb ⊢
  cases cs <;>
  · simp only [filter_ok, ok_bind, reduceCtorEq, if_true, if_false, bind_ok_iff, pure_ok, Except.ok.injEq] at hb ⊢
    obtain ⟨p1, h1, p2, h2, rfl⟩ := hb
    exact ⟨p1 ++ p2, by simp, fun g => ⟨p1, h1, p2, h2, by simp⟩⟩

theorem SGCN.binary_split {x : SGCN} {cs : SGCN.Coding} {f : Fin 8} {b : Str} (hb : x.binary cs f = .ok b) :
    ∃ s, b = cs.header ++ (bin 3 f ++ s) ∧ ∀ g : Fin 8, x.binary cs g = .ok (cs.header ++ (bin 3 g ++ s)) := by
  unfold SGCN.binary at hb ⊢
  cases cs <;>
  · simp only [filter_ok, ok_bind, bind_ok_iff, pure_ok, Except.ok.injEq] at hb ⊢
    obtain ⟨p1, h1, p2, h2, rfl⟩ := hb
    exact ⟨p1 ++ p2, by simp, fun g => ⟨p1, h1, p2, h2, by simp⟩⟩

theorem ITIP.binary_split {x : ITIP} {cs : ITIP.Coding} {f : Fin 8} {b : Str} (hb : x.binary cs f = .ok b) :
    ∃ s, b = cs.header ++ (bin 3 f ++ s) ∧ ∀ g : Fin 8, x.binary cs g = .ok (cs.header ++ (bin 3 g ++ s)) := by
  unfold ITIP.binary at hb ⊢
  cases cs <;>
  · simp only [filter_ok, ok_bind, reduceCtorEq, if_true, if_false, bind_ok_iff, pure_ok, Except.ok.injEq] at hb ⊢
    obtain ⟨p1, h1, p2, h2, p3, h3, p4, h4, rfl⟩ := hb
    exact ⟨p1 ++ p2 ++ p3 ++ p4, by simp, fun g => ⟨p1, h1, p2, h2, p3, h3, p4, h4, by simp⟩⟩

theorem USDOD.binary_split {x : USDOD} {cs : USDOD.Coding} {f : Fin 16} {b : Str} (hb : x.binary cs f = .ok b) :
    ∃ s, b = cs.header ++ (bin 4 f ++ s) ∧ ∀ g : Fin 16, x.binary cs g = .ok (cs.header ++ (bin 4 g ++ s)) := by
  unfold USDOD.binary at hb ⊢
  cases cs <;>
  · simp only [filter_ok, ok_bind, bind_ok_iff, pure_ok, Except.ok.injEq] at hb ⊢
    obtain ⟨p1, h1, rfl⟩ := hb
    exact ⟨encodeCageCode (padLeft ' ' 6 x.cage) ++ p1, by simp, fun g => ⟨p1, h1, by simp⟩⟩

theorem ADI.binary_split {x : ADI} {cs : ADI.Coding} {f : Fin 64} {b : Str} (hb : x.binary cs f = .ok b) :
    ∃ s, b = cs.header ++ (bin 6 f ++ s) ∧ ∀ g : Fin 64, x.binary cs g = .ok (cs.header ++ (bin 6 g ++ s)) := by
  unfold ADI.binary at hb ⊢
  cases cs <;>
  · simp only [filter_ok, ok_bind, bind_ok_iff, pure_ok, Except.ok.injEq] at hb ⊢
    obtain ⟨p1, h1, p2, h2, p3, h3, rfl⟩ := hb
    exact ⟨p1 ++ p2 ++ p3, by simp, fun g => ⟨p1, h1, p2, h2, p3, h3, by simp⟩⟩

/-! ### Decoding does not depend on the filter field -/

theorem SGTIN.fromTagUri_swap {cs : SGTIN.Coding} {f g : Nat} {q : Str} {y : SGTIN}
    (h : SGTIN.fromTagUri (tagUriPrefix ++ (cs.value ++ ':' :: (natStr f ++ '.' :: q))) = .ok y) :
    SGTIN.fromTagUri (tagUriPrefix ++ (cs.value ++ ':' :: (natStr g ++ '.' :: q))) = .ok y :=
  Epc.fromTagUri_swap (fun _ => SGTIN.fromTagUri_iff) (by intro cs; cases cs <;> decide) (num_natStr f) (num_natStr g)
    (by cases cs <;> decide) h

theorem SGTIN.fromBinary_swap {cs : SGTIN.Coding} {f g : Fin 8} {s : Str} {y : SGTIN}
    (h : SGTIN.fromBinary (cs.header ++ (bin 3 f ++ s)) = .ok y) : SGTIN.fromBinary (cs.header ++ (bin 3 g ++ s)) = .ok y := by
  have hf : (bin 3 f).length = 3 := length_bin (by omega) (by have := f.isLt; omega)
  have hg : (bin 3 g).length = 3 := length_bin (by omega) (by have := g.isLt; omega)
  unfold SGTIN.fromBinary at h ⊢
  obtain ⟨⟨c', r⟩, hp, h⟩ := bind_ok_iff.1 h
  cases cs
  · have h8 : (SGTIN.Coding.header .sgtin96).length = 8 := rfl
    obtain ⟨rfl, s', rfl, hp'⟩ := parseHeader_swap (a' := bin 3 g) (n := 96) (p := py "sgtin") (sz := py "96") (cs := SGTIN.Coding.sgtin96) rfl
      (by omega) (by omega) (by decide) (by decide) (by decide) (by decide) hp
    rw [hp', ok_bind]
    dsimp only at h ⊢
    rw [slice_append (by omega) (by omega), binaryToInt_bin, ok_bind, slice_skip (k := 11) (by omega) (by omega), drop_skip (k := 11) (by omega) (by omega)] at h ⊢
    simp only [if_true, bind_ok_iff, intStr_ofNat] at h ⊢
    obtain ⟨p1, h1, p2, h2, h⟩ := h
    refine ⟨p1, h1, p2, h2, ?_⟩
    simp only [List.append_assoc, List.cons_append] at h ⊢
    exact SGTIN.fromTagUri_swap h
  · have h8 : (SGTIN.Coding.header .sgtin198).length = 8 := rfl
    obtain ⟨rfl, s', rfl, hp'⟩ := parseHeader_swap (a' := bin 3 g) (n := 198) (p := py "sgtin") (sz := py "198") (cs := SGTIN.Coding.sgtin198) rfl
      (by omega) (by omega) (by decide) (by decide) (by decide) (by decide) hp
    rw [hp', ok_bind]
    dsimp only at h ⊢
    rw [slice_append (by omega) (by omega), binaryToInt_bin, ok_bind, slice_skip (k := 11) (by omega) (by omega), drop_skip (k := 11) (by omega) (by omega)] at h ⊢
    simp only [reduceCtorEq, if_false, bind_ok_iff, intStr_ofNat] at h ⊢
    obtain ⟨p1, h1, p2, h2, h⟩ := h
    refine ⟨p1, h1, p2, h2, ?_⟩
    simp only [List.append_assoc, List.cons_append] at h ⊢
    exact SGTIN.fromTagUri_swap h

theorem SSCC.fromTagUri_swap {cs : SSCC.Coding} {f g : Nat} {q : Str} {y : SSCC}
    (h : SSCC.fromTagUri (tagUriPrefix ++ (cs.value ++ ':' :: (natStr f ++ '.' :: q))) = .ok y) :
    SSCC.fromTagUri (tagUriPrefix ++ (cs.value ++ ':' :: (natStr g ++ '.' :: q))) = .ok y :=
  Epc.fromTagUri_swap (fun _ => SSCC.fromTagUri_iff) (by intro cs; cases cs <;> decide) (num_natStr f) (num_natStr g)
    (by cases cs <;> decide) h

theorem SSCC.fromBinary_swap {cs : SSCC.Coding} {f g : Fin 8} {s : Str} {y : SSCC}
    (h : SSCC.fromBinary (cs.header ++ (bin 3 f ++ s)) = .ok y) : SSCC.fromBinary (cs.header ++ (bin 3 g ++ s)) = .ok y := by
  have hf : (bin 3 f).length = 3 := length_bin (by omega) (by have := f.isLt; omega)
  have hg : (bin 3 g).length = 3 := length_bin (by omega) (by have := g.isLt; omega)
  unfold SSCC.fromBinary at h ⊢
  obtain ⟨⟨c', r⟩, hp, h⟩ := bind_ok_iff.1 h
  cases cs
  · have h8 : (SSCC.Coding.header .sscc96).length = 8 := rfl
    obtain ⟨rfl, s', rfl, hp'⟩ := parseHeader_swap (a' := bin 3 g) (n := 96) (p := py "sscc") (sz := py "96") (cs := SSCC.Coding.sscc96) rfl
      (by omega) (by omega) (by decide) (by decide) (by decide) (by decide) hp
    rw [hp', ok_bind]
    dsimp only at h ⊢
    rw [slice_append (by omega) (by omega), binaryToInt_bin, ok_bind, slice_skip (k := 11) (by omega) (by omega)] at h ⊢
    simp only [bind_ok_iff, intStr_ofNat] at h ⊢
    obtain ⟨p1, h1, h⟩ := h
    refine ⟨p1, h1, ?_⟩
    simp only [List.append_assoc, List.cons_append] at h ⊢
    exact SSCC.fromTagUri_swap h

theorem SGLN.fromTagUri_swap {cs : SGLN.Coding} {f g : Nat} {q : Str} {y : SGLN}
    (h : SGLN.fromTagUri (tagUriPrefix ++ (cs.value ++ ':' :: (natStr f ++ '.' :: q))) = .ok y) :
    SGLN.fromTagUri (tagUriPrefix ++ (cs.value ++ ':' :: (natStr g ++ '.' :: q))) = .ok y :=
  Epc.fromTagUri_swap (fun _ => SGLN.fromTagUri_iff) (by intro cs; cases cs <;> decide) (num_natStr f) (num_natStr g)
    (by cases cs <;> decide) h

theorem SGLN.fromBinary_swap {cs : SGLN.Coding} {f g : Fin 8} {s : Str} {y : SGLN}
    (h : SGLN.fromBinary (cs.header ++ (bin 3 f ++ s)) = .ok y) : SGLN.fromBinary (cs.header ++ (bin 3 g ++ s)) = .ok y := by
  have hf : (bin 3 f).length = 3 := length_bin (by omega) (by have := f.isLt; omega)
  have hg : (bin 3 g).length = 3 := length_bin (by omega) (by have := g.isLt; omega)
  unfold SGLN.fromBinary at h ⊢
  obtain ⟨⟨c', r⟩, hp, h⟩ := bind_ok_iff.1 h
  cases cs
  · have h8 : (SGLN.Coding.header .sgln96).length = 8 := rfl
    obtain ⟨rfl, s', rfl, hp'⟩ := parseHeader_swap (a' := bin 3 g) (n := 96) (p := py "sgln") (sz := py "96") (cs := SGLN.Coding.sgln96) rfl
      (by omega) (by omega) (by decide) (by decide) (by decide) (by decide) hp
    rw [hp', ok_bind]
    dsimp only at h ⊢
    rw [slice_append (by omega) (by omega), binaryToInt_bin, ok_bind, slice_skip (k := 11) (by omega) (by omega), drop_skip (k := 11) (by omega) (by omega)] at h ⊢
    simp only [if_true, bind_ok_iff, intStr_ofNat] at h ⊢
    obtain ⟨p1, h1, p2, h2, h⟩ := h
    refine ⟨p1, h1, p2, h2, ?_⟩
    simp only [List.append_assoc, List.cons_append] at h ⊢
    exact SGLN.fromTagUri_swap h
  · have h8 : (SGLN.Coding.header .sgln195).length = 8 := rfl
    obtain ⟨rfl, s', rfl, hp'⟩ := parseHeader_swap (a' := bin 3 g) (n := 195) (p := py "sgln") (sz := py "195") (cs := SGLN.Coding.sgln195) rfl
      (by omega) (by omega) (by decide) (by decide) (by decide) (by decide) hp
    rw [hp', ok_bind]
    dsimp only at h ⊢
    rw [slice_append (by omega) (by omega), binaryToInt_bin, ok_bind, slice_skip (k := 11) (by omega) (by omega), drop_skip (k := 11) (by omega) (by omega)] at h ⊢
    simp only [reduceCtorEq, if_false, bind_ok_iff, intStr_ofNat] at h ⊢
    obtain ⟨p1, h1, p2, h2, h⟩ := h
    refine ⟨p1, h1, p2, h2, ?_⟩
    simp only [List.append_assoc, List.cons_append] at h ⊢
    exact SGLN.fromTagUri_swap h

theorem GRAI.fromTagUri_swap {cs : GRAI.Coding} {f g : Nat} {q : Str} {y : GRAI}
    (h : GRAI.fromTagUri (tagUriPrefix ++ (cs.value ++ ':' :: (natStr f ++ '.' :: q))) = .ok y) :
    GRAI.fromTagUri (tagUriPrefix ++ (cs.value ++ ':' :: (natStr g ++ '.' :: q))) = .ok y :=
  Epc.fromTagUri_swap (fun _ => GRAI.fromTagUri_iff) (by intro cs; cases cs <;> decide) (num_natStr f) (num_natStr g)
    (by cases cs <;> decide) h

theorem GRAI.fromBinary_swap {cs : GRAI.Coding} {f g : Fin 8} {s : Str} {y : GRAI}
    (h : GRAI.fromBinary (cs.header ++ (bin 3 f ++ s)) = .ok y) : GRAI.fromBinary (cs.header ++ (bin 3 g ++ s)) = .ok y := by
  have hf : (bin 3 f).length = 3 := length_bin (by omega) (by have := f.isLt; omega)
  have hg : (bin 3 g).length = 3 := length_bin (by omega) (by have := g.isLt; omega)
  unfold GRAI.fromBinary at h ⊢
  obtain ⟨⟨c', r⟩, hp, h⟩ := bind_ok_iff.1 h
  cases cs
  · have h8 : (GRAI.Coding.header .grai96).length = 8 := rfl
    obtain ⟨rfl, s', rfl, hp'⟩ := parseHeader_swap (a' := bin 3 g) (n := 96) (p := py "grai") (sz := py "96") (cs := GRAI.Coding.grai96) rfl
      (by omega) (by omega) (by decide) (by decide) (by decide) (by decide) hp
    rw [hp', ok_bind]
    dsimp only at h ⊢
    rw [slice_append (by omega) (by omega), binaryToInt_bin, ok_bind, slice_skip (k := 11) (by omega) (by omega), drop_skip (k := 11) (by omega) (by omega)] at h ⊢
    simp only [if_true, bind_ok_iff, intStr_ofNat] at h ⊢
    obtain ⟨p1, h1, p2, h2, h⟩ := h
    refine ⟨p1, h1, p2, h2, ?_⟩
    simp only [List.append_assoc, List.cons_append] at h ⊢
    exact GRAI.fromTagUri_swap h
  · have h8 : (GRAI.Coding.header .grai170).length = 8 := rfl
    obtain ⟨rfl, s', rfl, hp'⟩ := parseHeader_swap (a' := bin 3 g) (n := 170) (p := py "grai") (sz := py "170") (cs := GRAI.Coding.grai170) rfl
      (by omega) (by omega) (by decide) (by decide) (by decide) (by decide) hp
    rw [hp', ok_bind]
    dsimp only at h ⊢
    rw [slice_append (by omega) (by omega), binaryToInt_bin, ok_bind, slice_skip (k := 11) (by omega) (by omega), drop_skip (k := 11) (by omega) (by omega)] at h ⊢
    simp only [reduceCtorEq, if_false, bind_ok_iff, intStr_ofNat] at h ⊢
    obtain ⟨p1, h1, p2, h2, h⟩ := h
    refine ⟨p1, h1, p2, h2, ?_⟩
    simp only [List.append_assoc, List.cons_append] at h ⊢
    exact GRAI.fromTagUri_swap h

theorem GIAI.fromTagUri_swap {cs : GIAI.Coding} {f g : Nat} {q : Str} {y : GIAI}
    (h : GIAI.fromTagUri (tagUriPrefix ++ (cs.value ++ ':' :: (natStr f ++ '.' :: q))) = .ok y) :
    GIAI.fromTagUri (tagUriPrefix ++ (cs.value ++ ':' :: (natStr g ++ '.' :: q))) = .ok y :=
  Epc.fromTagUri_swap (fun _ => GIAI.fromTagUri_iff) (by intro cs; cases cs <;> decide) (num_natStr f) (num_natStr g)
    (by cases cs <;> decide) h

theorem GIAI.fromBinary_swap {cs : GIAI.Coding} {f g : Fin 8} {s : Str} {y : GIAI}
    (h : GIAI.fromBinary (cs.header ++ (bin 3 f ++ s)) = .ok y) : GIAI.fromBinary (cs.header ++ (bin 3 g ++ s)) = .ok y := by
  have hf : (bin 3 f).length = 3 := length_bin (by omega) (by have := f.isLt; omega)
  have hg : (bin 3 g).length = 3 := length_bin (by omega) (by have := g.isLt; omega)
  unfold GIAI.fromBinary at h ⊢
  obtain ⟨⟨c', r⟩, hp, h⟩ := bind_ok_iff.1 h
  cases cs
  · have h8 : (GIAI.Coding.header .giai96).length = 8 := rfl
    obtain ⟨rfl, s', rfl, hp'⟩ := parseHeader_swap (a' := bin 3 g) (n := 96) (p := py "giai") (sz := py "96") (cs := GIAI.Coding.giai96) rfl
      (by omega) (by omega) (by decide) (by decide) (by decide) (by decide) hp
    rw [hp', ok_bind]
    dsimp only at h ⊢
    rw [slice_append (by omega) (by omega), binaryToInt_bin, ok_bind, drop_skip (k := 11) (by omega) (by omega)] at h ⊢
    simp only [if_true, bind_ok_iff, intStr_ofNat] at h ⊢
    obtain ⟨p1, h1, h⟩ := h
    refine ⟨p1, h1, ?_⟩
    simp only [List.append_assoc, List.cons_append] at h ⊢
    exact GIAI.fromTagUri_swap h
  · have h8 : (GIAI.Coding.header .giai202).length = 8 := rfl
    obtain ⟨rfl, s', rfl, hp'⟩ := parseHeader_swap (a' := bin 3 g) (n := 202) (p := py "giai") (sz := py "202") (cs := GIAI.Coding.giai202) rfl
      (by omega) (by omega) (by decide) (by decide) (by decide) (by decide) hp
    rw [hp', ok_bind]
    dsimp only at h ⊢
    rw [slice_append (by omega) (by omega), binaryToInt_bin, ok_bind, drop_skip (k := 11) (by omega) (by omega)] at h ⊢
    simp only [reduceCtorEq, if_false, bind_ok_iff, intStr_ofNat] at h ⊢
    obtain ⟨p1, h1, h⟩ := h
    refine ⟨p1, h1, ?_⟩
    simp only [List.append_assoc, List.cons_append] at h ⊢
    exact GIAI.fromTagUri_swap h

theorem GSRN.fromTagUri_swap {cs : GSRN.Coding} {f g : Nat} {q : Str} {y : GSRN}
    (h : GSRN.fromTagUri (tagUriPrefix ++ (cs.value ++ ':' :: (natStr f ++ '.' :: q))) = .ok y) :
    GSRN.fromTagUri (tagUriPrefix ++ (cs.value ++ ':' :: (natStr g ++ '.' :: q))) = .ok y :=
  Epc.fromTagUri_swap (fun _ => GSRN.fromTagUri_iff) (by intro cs; cases cs <;> decide) (num_natStr f) (num_natStr g)
    (by cases cs <;> decide) h

theorem GSRN.fromBinary_swap {cs : GSRN.Coding} {f g : Fin 8} {s : Str} {y : GSRN}
    (h : GSRN.fromBinary (cs.header ++ (bin 3 f ++ s)) = .ok y) : GSRN.fromBinary (cs.header ++ (bin 3 g ++ s)) = .ok y := by
  have hf : (bin 3 f).length = 3 := length_bin (by omega) (by have := f.isLt; omega)
  have hg : (bin 3 g).length = 3 := length_bin (by omega) (by have := g.isLt; omega)
  unfold GSRN.fromBinary at h ⊢
  obtain ⟨⟨c', r⟩, hp, h⟩ := bind_ok_iff.1 h
  cases cs
  · have h8 : (GSRN.Coding.header .gsrn96).length = 8 := rfl
    obtain ⟨rfl, s', rfl, hp'⟩ := parseHeader_swap (a' := bin 3 g) (n := 96) (p := py "gsrn") (sz := py "96") (cs := GSRN.Coding.gsrn96) rfl
      (by omega) (by omega) (by decide) (by decide) (by decide) (by decide) hp
    rw [hp', ok_bind]
    dsimp only at h ⊢
    rw [slice_append (by omega) (by omega), binaryToInt_bin, ok_bind, slice_skip (k := 11) (by omega) (by omega)] at h ⊢
    simp only [bind_ok_iff, intStr_ofNat] at h ⊢
    obtain ⟨p1, h1, h⟩ := h
    refine ⟨p1, h1, ?_⟩
    simp only [List.append_assoc, List.cons_append] at h ⊢
    exact GSRN.fromTagUri_swap h

theorem GSRNP.fromTagUri_swap {cs : GSRNP.Coding} {f g : Nat} {q : Str} {y : GSRNP}
    (h : GSRNP.fromTagUri (tagUriPrefix ++ (cs.value ++ ':' :: (natStr f ++ '.' :: q))) = .ok y) :
    GSRNP.fromTagUri (tagUriPrefix ++ (cs.value ++ ':' :: (natStr g ++ '.' :: q))) = .ok y :=
  Epc.fromTagUri_swap (fun _ => GSRNP.fromTagUri_iff) (by intro cs; cases cs <;> decide) (num_natStr f) (num_natStr g)
    (by cases cs <;> decide) h

theorem GSRNP.fromBinary_swap {cs : GSRNP.Coding} {f g : Fin 8} {s : Str} {y : GSRNP}
    (h : GSRNP.fromBinary (cs.header ++ (bin 3 f ++ s)) = .ok y) : GSRNP.fromBinary (cs.header ++ (bin 3 g ++ s)) = .ok y := by
  have hf : (bin 3 f).length = 3 := length_bin (by omega) (by have := f.isLt; omega)
  have hg : (bin 3 g).length = 3 := length_bin (by omega) (by have := g.isLt; omega)
  unfold GSRNP.fromBinary at h ⊢
  obtain ⟨⟨c', r⟩, hp, h⟩ := bind_ok_iff.1 h
  cases cs
  · have h8 : (GSRNP.Coding.header .gsrnp96).length = 8 := rfl
    obtain ⟨rfl, s', rfl, hp'⟩ := parseHeader_swap (a' := bin 3 g) (n := 96) (p := py "gsrnp") (sz := py "96") (cs := GSRNP.Coding.gsrnp96) rfl
      (by omega) (by omega) (by decide) (by decide) (by decide) (by decide) hp
    rw [hp', ok_bind]
    dsimp only at h ⊢
    rw [slice_append (by omega) (by omega), binaryToInt_bin, ok_bind, slice_skip (k := 11) (by omega) (by omega)] at h ⊢
    simp only [bind_ok_iff, intStr_ofNat] at h ⊢
    obtain ⟨p1, h1, h⟩ := h
    refine ⟨p1, h1, ?_⟩
    simp only [List.append_assoc, List.cons_append] at h ⊢
    exact GSRNP.fromTagUri_swap h

theorem GDTI.fromTagUri_swap {cs : GDTI.Coding} {f g : Nat} {q : Str} {y : GDTI}
    (h : GDTI.fromTagUri (tagUriPrefix ++ (cs.value ++ ':' :: (natStr f ++ '.' :: q))) = .ok y) :
    GDTI.fromTagUri (tagUriPrefix ++ (cs.value ++ ':' :: (natStr g ++ '.' :: q))) = .ok y :=
  Epc.fromTagUri_swap (fun _ => GDTI.fromTagUri_iff) (by intro cs; cases cs <;> decide) (num_natStr f) (num_natStr g)
    (by cases cs <;> decide) h

theorem GDTI.fromBinary_swap {cs : GDTI.Coding} {f g : Fin 8} {s : Str} {y : GDTI}
    (h : GDTI.fromBinary (cs.header ++ (bin 3 f ++ s)) = .ok y) : GDTI.fromBinary (cs.header ++ (bin 3 g ++ s)) = .ok y := by
  have hf : (bin 3 f).length = 3 := length_bin (by omega) (by have := f.isLt; omega)
  have hg : (bin 3 g).length = 3 := length_bin (by omega) (by have := g.isLt; omega)
  unfold GDTI.fromBinary at h ⊢
  obtain ⟨⟨c', r⟩, hp, h⟩ := bind_ok_iff.1 h
  cases cs
  · have h8 : (GDTI.Coding.header .gdti96).length = 8 := rfl
    obtain ⟨rfl, s', rfl, hp'⟩ := parseHeader_swap (a' := bin 3 g) (n := 96) (p := py "gdti") (sz := py "96") (cs := GDTI.Coding.gdti96) rfl
      (by omega) (by omega) (by decide) (by decide) (by decide) (by decide) hp
    rw [hp', ok_bind]
    dsimp only at h ⊢
    rw [slice_append (by omega) (by omega), binaryToInt_bin, ok_bind, slice_skip (k := 11) (by omega) (by omega), drop_skip (k := 11) (by omega) (by omega)] at h ⊢
    simp only [if_true, bind_ok_iff, intStr_ofNat] at h ⊢
    obtain ⟨p1, h1, p2, h2, h⟩ := h
    refine ⟨p1, h1, p2, h2, ?_⟩
    simp only [List.append_assoc, List.cons_append] at h ⊢
    exact GDTI.fromTagUri_swap h
  · have h8 : (GDTI.Coding.header .gdti174).length = 8 := rfl
    obtain ⟨rfl, s', rfl, hp'⟩ := parseHeader_swap (a' := bin 3 g) (n := 174) (p := py "gdti") (sz := py "174") (cs := GDTI.Coding.gdti174) rfl
      (by omega) (by omega) (by decide) (by decide) (by decide) (by decide) hp
    rw [hp', ok_bind]
    dsimp only at h ⊢
    rw [slice_append (by omega) (by omega), binaryToInt_bin, ok_bind, slice_skip (k := 11) (by omega) (by omega), drop_skip (k := 11) (by omega) (by omega)] at h ⊢
    simp only [reduceCtorEq, if_false, bind_ok_iff, intStr_ofNat] at h ⊢
    obtain ⟨p1, h1, p2, h2, h⟩ := h
    refine ⟨p1, h1, p2, h2, ?_⟩
    simp only [List.append_assoc, List.cons_append] at h ⊢
    exact GDTI.fromTagUri_swap h

theorem CPI.fromTagUri_swap {cs : CPI.Coding} {f g : Nat} {q : Str} {y : CPI}
    (h : CPI.fromTagUri (tagUriPrefix ++ (cs.value ++ ':' :: (natStr f ++ '.' :: q))) = .ok y) :
    CPI.fromTagUri (tagUriPrefix ++ (cs.value ++ ':' :: (natStr g ++ '.' :: q))) = .ok y :=
  Epc.fromTagUri_swap (fun _ => CPI.fromTagUri_iff) (by intro cs; cases cs <;> decide) (num_natStr f) (num_natStr g)
    (by cases cs <;> decide) h

theorem SGCN.fromTagUri_swap {cs : SGCN.Coding} {f g : Nat} {q : Str} {y : SGCN}
    (h : SGCN.fromTagUri (tagUriPrefix ++ (cs.value ++ ':' :: (natStr f ++ '.' :: q))) = .ok y) :
    SGCN.fromTagUri (tagUriPrefix ++ (cs.value ++ ':' :: (natStr g ++ '.' :: q))) = .ok y :=
  Epc.fromTagUri_swap (fun _ => SGCN.fromTagUri_iff) (by intro cs; cases cs <;> decide) (num_natStr f) (num_natStr g)
    (by cases cs <;> decide) h

theorem SGCN.fromBinary_swap {cs : SGCN.Coding} {f g : Fin 8} {s : Str} {y : SGCN}
    (h : SGCN.fromBinary (cs.header ++ (bin 3 f ++ s)) = .ok y) : SGCN.fromBinary (cs.header ++ (bin 3 g ++ s)) = .ok y := by
  have hf : (bin 3 f).length = 3 := length_bin (by omega) (by have := f.isLt; omega)
  have hg : (bin 3 g).length = 3 := length_bin (by omega) (by have := g.isLt; omega)
  unfold SGCN.fromBinary at h ⊢
  obtain ⟨⟨c', r⟩, hp, h⟩ := bind_ok_iff.1 h
  cases cs
  · have h8 : (SGCN.Coding.header .sgcn96).length = 8 := rfl
    obtain ⟨rfl, s', rfl, hp'⟩ := parseHeader_swap (a' := bin 3 g) (n := 96) (p := py "sgcn") (sz := py "96") (cs := SGCN.Coding.sgcn96) rfl
      (by omega) (by omega) (by decide) (by decide) (by decide) (by decide) hp
    rw [hp', ok_bind]
    dsimp only at h ⊢
    rw [slice_append (by omega) (by omega), binaryToInt_bin, ok_bind, slice_skip (k := 11) (by omega) (by omega), drop_skip (k := 11) (by omega) (by omega)] at h ⊢
    simp only [bind_ok_iff, intStr_ofNat] at h ⊢
    obtain ⟨p1, h1, p2, h2, h⟩ := h
    refine ⟨p1, h1, p2, h2, ?_⟩
    simp only [List.append_assoc, List.cons_append] at h ⊢
    exact SGCN.fromTagUri_swap h

theorem ITIP.fromTagUri_swap {cs : ITIP.Coding} {f g : Nat} {q : Str} {y : ITIP}
    (h : ITIP.fromTagUri (tagUriPrefix ++ (cs.value ++ ':' :: (natStr f ++ '.' :: q))) = .ok y) :
    ITIP.fromTagUri (tagUriPrefix ++ (cs.value ++ ':' :: (natStr g ++ '.' :: q))) = .ok y :=
  Epc.fromTagUri_swap (fun _ => ITIP.fromTagUri_iff) (by intro cs; cases cs <;> decide) (num_natStr f) (num_natStr g)
    (by cases cs <;> decide) h

theorem ITIP.fromBinary_swap {cs : ITIP.Coding} {f g : Fin 8} {s : Str} {y : ITIP}
    (h : ITIP.fromBinary (cs.header ++ (bin 3 f ++ s)) = .ok y) : ITIP.fromBinary (cs.header ++ (bin 3 g ++ s)) = .ok y := by
  have hf : (bin 3 f).length = 3 := length_bin (by omega) (by have := f.isLt; omega)
  have hg : (bin 3 g).length = 3 := length_bin (by omega) (by have := g.isLt; omega)
  unfold ITIP.fromBinary at h ⊢
  obtain ⟨⟨c', r⟩, hp, h⟩ := bind_ok_iff.1 h
  cases cs
  · have h8 : (ITIP.Coding.header .itip110).length = 8 := rfl
    obtain ⟨rfl, s', rfl, hp'⟩ := parseHeader_swap (a' := bin 3 g) (n := 110) (p := py "itip") (sz := py "110") (cs := ITIP.Coding.itip110) rfl
      (by omega) (by omega) (by decide) (by decide) (by decide) (by decide) hp
    rw [hp', ok_bind]
    dsimp only at h ⊢
    rw [slice_append (by omega) (by omega), binaryToInt_bin, ok_bind, slice_skip (k := 11) (by omega) (by omega), slice_skip (k := 11) (by omega) (by omega), slice_skip (k := 11) (by omega) (by omega), drop_skip (k := 11) (by omega) (by omega)] at h ⊢
    simp only [if_true, bind_ok_iff, intStr_ofNat] at h ⊢
    obtain ⟨p1, h1, p2, h2, p3, h3, p4, h4, h⟩ := h
    refine ⟨p1, h1, p2, h2, p3, h3, p4, h4, ?_⟩
    simp only [List.append_assoc, List.cons_append] at h ⊢
    exact ITIP.fromTagUri_swap h
  · have h8 : (ITIP.Coding.header .itip212).length = 8 := rfl
    obtain ⟨rfl, s', rfl, hp'⟩ := parseHeader_swap (a' := bin 3 g) (n := 212) (p := py "itip") (sz := py "212") (cs := ITIP.Coding.itip212) rfl
      (by omega) (by omega) (by decide) (by decide) (by decide) (by decide) hp
    rw [hp', ok_bind]
    dsimp only at h ⊢
    rw [slice_append (by omega) (by omega), binaryToInt_bin, ok_bind, slice_skip (k := 11) (by omega) (by omega), slice_skip (k := 11) (by omega) (by omega), slice_skip (k := 11) (by omega) (by omega), drop_skip (k := 11) (by omega) (by omega)] at h ⊢
    simp only [reduceCtorEq, if_false, bind_ok_iff, intStr_ofNat] at h ⊢
    obtain ⟨p1, h1, p2, h2, p3, h3, p4, h4, h⟩ := h
    refine ⟨p1, h1, p2, h2, p3, h3, p4, h4, ?_⟩
    simp only [List.append_assoc, List.cons_append] at h ⊢
    exact ITIP.fromTagUri_swap h

theorem USDOD.fromTagUri_swap {cs : USDOD.Coding} {f g : Nat} {q : Str} {y : USDOD}
    (h : USDOD.fromTagUri (tagUriPrefix ++ (cs.value ++ ':' :: (natStr f ++ '.' :: q))) = .ok y) :
    USDOD.fromTagUri (tagUriPrefix ++ (cs.value ++ ':' :: (natStr g ++ '.' :: q))) = .ok y :=
  Epc.fromTagUri_swap (fun _ => USDOD.fromTagUri_iff) (by intro cs; cases cs <;> decide) (num_natStr f) (num_natStr g)
    (by cases cs <;> decide) h

theorem USDOD.fromBinary_swap {cs : USDOD.Coding} {f g : Fin 16} {s : Str} {y : USDOD}
    (h : USDOD.fromBinary (cs.header ++ (bin 4 f ++ s)) = .ok y) : USDOD.fromBinary (cs.header ++ (bin 4 g ++ s)) = .ok y := by
  have hf : (bin 4 f).length = 4 := length_bin (by omega) (by have := f.isLt; omega)
  have hg : (bin 4 g).length = 4 := length_bin (by omega) (by have := g.isLt; omega)
  unfold USDOD.fromBinary at h ⊢
  obtain ⟨⟨c', r⟩, hp, h⟩ := bind_ok_iff.1 h
  cases cs
  · have h8 : (USDOD.Coding.header .usdod96).length = 8 := rfl
    obtain ⟨rfl, s', rfl, hp'⟩ := parseHeader_swap (a' := bin 4 g) (n := 96) (p := py "usdod") (sz := py "96") (cs := USDOD.Coding.usdod96) rfl
      (by omega) (by omega) (by decide) (by decide) (by decide) (by decide) hp
    rw [hp', ok_bind]
    dsimp only at h ⊢
    rw [slice_append (by omega) (by omega), binaryToInt_bin, ok_bind, slice_skip (k := 12) (by omega) (by omega), drop_skip (k := 12) (by omega) (by omega)] at h ⊢
    simp only [bind_ok_iff, intStr_ofNat] at h ⊢
    obtain ⟨p1, h1, p2, h2, h⟩ := h
    refine ⟨p1, h1, p2, h2, ?_⟩
    simp only [List.append_assoc, List.cons_append] at h ⊢
    exact USDOD.fromTagUri_swap h

theorem ADI.fromTagUri_swap {cs : ADI.Coding} {f g : Nat} {q : Str} {y : ADI}
    (h : ADI.fromTagUri (tagUriPrefix ++ (cs.value ++ ':' :: (natStr f ++ '.' :: q))) = .ok y) :
    ADI.fromTagUri (tagUriPrefix ++ (cs.value ++ ':' :: (natStr g ++ '.' :: q))) = .ok y :=
  Epc.fromTagUri_swap (fun _ => ADI.fromTagUri_iff) (by intro cs; cases cs <;> decide) (num_natStr f) (num_natStr g)
    (by cases cs <;> decide) h

theorem CPI.fromBinary_swap {cs : CPI.Coding} {f g : Fin 8} {s : Str} {y : CPI}
    (h : CPI.fromBinary (cs.header ++ (bin 3 f ++ s)) = .ok y) : CPI.fromBinary (cs.header ++ (bin 3 g ++ s)) = .ok y := by
  have hf := length_bin3 f
  have hg := length_bin3 g
  have key : ∀ s' : Str, CPI.decodeParts cs (cs.header ++ (bin 3 f ++ s')) = CPI.decodeParts cs (cs.header ++ (bin 3 g ++ s')) := by
    intro s'
    have h8 : cs.header.length = 8 := by cases cs <;> rfl
    unfold CPI.decodeParts
    split
    · rw [slice_skip (k := 11) (by omega) (by omega), slice_skip (k := 11) (by omega) (by omega),
        drop_skip (k := 11) (by omega) (by omega), drop_skip (k := 11) (by omega) (by omega)]
    · dsimp only
      rw [drop_skip (k := 11) (by omega) (by omega), drop_skip (k := 11) (lo := 11) (by omega) (by omega)]
      refine congrArg _ (funext fun p => congrArg _ (funext fun q => congrArg _ (funext fun row => ?_)))
      rw [drop_skip (k := 11) (by omega) (by omega), drop_skip (k := 11) (by omega) (by omega)]
  unfold CPI.fromBinary at h ⊢
  obtain ⟨⟨c', r⟩, hp, h⟩ := bind_ok_iff.1 h
  have fin : ∀ s' : Str, (c' = cs ∧ r = cs.header ++ (bin 3 f ++ s') ∧ parseHeader CPI.headers CPI.Coding.value (cs.header ++ (bin 3 g ++ s)) =
      .ok (cs, cs.header ++ (bin 3 g ++ s'))) → (parseHeader CPI.headers CPI.Coding.value (cs.header ++ (bin 3 g ++ s)) >>= fun x => (do
        let (cpi, serialBinary) ← CPI.decodeParts x.1 x.2
        let filter ← binaryToInt (slice x.2 8 11)
        let serial ← binIntStr serialBinary
        CPI.fromTagUri (tagUriPrefix ++ x.1.value ++ ':' :: intStr filter ++ '.' :: cpi ++ '.' :: serial))) = .ok y := by
    rintro s' ⟨rfl, rfl, hp'⟩
    have h8 : c'.header.length = 8 := by cases c' <;> rfl
    rw [hp', ok_bind]
    dsimp only at h ⊢
    rw [key s'] at h
    rw [slice_append (by omega) (by omega), binaryToInt_bin] at h ⊢
    simp only [bind_ok_iff, intStr_ofNat, Except.ok.injEq, exists_eq_left'] at h ⊢
    obtain ⟨p1, h1, p2, h2, h⟩ := h
    refine ⟨p1, h1, p2, h2, ?_⟩
    simp only [List.append_assoc, List.cons_append] at h ⊢
    exact CPI.fromTagUri_swap h
  cases cs
  · obtain ⟨rfl, s', rfl, hp'⟩ := parseHeader_swap (a' := bin 3 g) (n := 96) (p := py "cpi") (sz := py "96") (cs := CPI.Coding.cpi96) rfl
      (by omega) (by omega) (by decide) (by decide) (by decide) (by decide) hp
    exact fin s' ⟨rfl, rfl, hp'⟩
  · obtain ⟨rfl, s', rfl, hp'⟩ := parseHeader_swap_var (a' := bin 3 g) (p := py "cpi") (sz := py "var") (cs := CPI.Coding.cpiVar) rfl
      (by decide) (by decide) (by decide) hp
    exact fin s' ⟨rfl, rfl, hp'⟩

theorem ADI.fromBinary_swap {cs : ADI.Coding} {f g : Fin 64} {s : Str} {y : ADI}
    (h : ADI.fromBinary (cs.header ++ (bin 6 f ++ s)) = .ok y) : ADI.fromBinary (cs.header ++ (bin 6 g ++ s)) = .ok y := by
  have hf : (bin 6 f).length = 6 := length_bin (by omega) (by have := f.isLt; omega)
  have hg : (bin 6 g).length = 6 := length_bin (by omega) (by have := g.isLt; omega)
  unfold ADI.fromBinary at h ⊢
  obtain ⟨⟨c', r⟩, hp, h⟩ := bind_ok_iff.1 h
  cases cs
  have h8 : (ADI.Coding.header .adiVar).length = 8 := rfl
  obtain ⟨rfl, s', rfl, hp'⟩ := parseHeader_swap_var (a' := bin 6 g) (p := py "adi") (sz := py "var") (cs := ADI.Coding.adiVar) rfl
    (by decide) (by decide) (by decide) hp
  rw [hp', ok_bind]
  dsimp only at h ⊢
  rw [slice_append (by omega) (by omega), binaryToInt_bin, drop_skip (k := 14) (by omega) (by omega), slice_skip (k := 14) (by omega) (by omega)] at h ⊢
  simp only [bind_ok_iff, intStr_ofNat, Except.ok.injEq, exists_eq_left'] at h ⊢
  obtain ⟨p0, h0, p1, h1, p2, h2, p3, h3, p4, h4, h⟩ := h
  refine ⟨p0, h0, p1, h1, p2, h2, p3, h3, p4, h4, ?_⟩
  simp only [List.append_assoc, List.cons_append] at h ⊢
  exact ADI.fromTagUri_swap h

theorem GID.binary_split {x : GID} {cs : GID.Coding} {b : Str} (hb : x.binary cs = .ok b) : ∃ s, b = cs.header ++ s := by
  unfold GID.binary at hb
  simp only [bind_ok_iff, pure_ok, Except.ok.injEq] at hb
  obtain ⟨p1, h1, p2, h2, p3, h3, rfl⟩ := hb
  exact ⟨p1 ++ p2 ++ p3, by simp⟩

end Epc
