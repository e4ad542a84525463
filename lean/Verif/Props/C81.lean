/-
C81: limits on decimal conversions.

CPython from 3.11 on refuses to convert decimal numerals of more than L digits (L = 4300 unless configured; the smallest configurable value
is 640; 0 switches the limit off), raising ValueError.  The theorems of the other files are about `int` without a limit.  Here: with any
limit the constructors accept the same URIs and yield the same objects; the only difference is that `GID(...)` and `USDOD(...)` raise
ValueError instead of ConvertException for numerals beyond the limit, and exactly which URIs these are.  In every other class each
attribute that is ever passed to `int` has at most 30 characters, so the limit is never reached.
-/
import Verif.Lemmas.Limit
import Verif.Lemmas.Unescape
import Verif.Spec.Layout

namespace Epc
open Spec Re

private theorem cageCode_iff {s : Str} : CageCode s ↔ Lang Rx.cage s := by
  unfold CageCode
  simp only [lang_cage, mem_cage]
  exact and_comm

/-- GID: the same URIs are accepted; ValueError is raised exactly when the first component that is not a small enough number has more
than `L` digits. -/
theorem C81_gid (L : Nat) (hL : 640 ≤ L) (u : Str) :
    (∀ x, GID.newLim L u = .ok x ↔ GID.new u = .ok x) ∧
    (∀ e, GID.newLim L u = .error e → e = .convert ∨ e = .value) ∧
    (GID.newLim L u = .error .value ↔ ∃ C D S, UNumeral C ∧ UNumeral D ∧ UNumeral S ∧
      u = py "urn:epc:id:gid:" ++ joinWith '.' [C, D, S] ∧
      (L < C.length ∨ unumber C < 2 ^ 28 ∧ (L < D.length ∨ unumber D < 2 ^ 24 ∧ L < S.length))) := by
  refine ⟨GID.newLim_ok hL u, ?_, ?_, ?_⟩
  · intro e h
    cases hm : Rx.gidUri.fullmatch u with
    | false => rw [GID.newLim_nomatch hm] at h; cases h; exact .inl rfl
    | true =>
      obtain ⟨C, D, S, hC, hD, hS, rfl⟩ := GID.shape.1 hm
      rw [GID.newLim_eq (by omega) hC hD hS] at h
      clear hm
      (repeat' split at h) <;> cases h <;> first | exact .inl rfl | exact .inr rfl
  · intro h
    cases hm : Rx.gidUri.fullmatch u with
    | false => rw [GID.newLim_nomatch hm] at h; cases h
    | true =>
      obtain ⟨C, D, S, hC, hD, hS, rfl⟩ := GID.shape.1 hm
      refine ⟨C, D, S, (uNumeral_iff _).2 hC, (uNumeral_iff _).2 hD, (uNumeral_iff _).2 hS, rfl, ?_⟩
      rw [GID.newLim_eq (by omega) hC hD hS] at h
      clear hm
      rw [← unumber_eq hC.dec, ← unumber_eq hD.dec]
      (repeat' split at h) <;> first | omega | (cases h; done)
  · rintro ⟨C, D, S, hC, hD, hS, rfl, h⟩
    rw [uNumeral_iff] at hC hD hS
    rw [← unumber_eq hC.dec, ← unumber_eq hD.dec] at h
    have hD' := num_long hL hD
    have hC' := num_long hL hC
    show GID.newLim L (py "urn:epc:id:gid" ++ ':' :: (C ++ '.' :: (D ++ '.' :: S))) = _
    rw [GID.newLim_eq (by omega) hC hD hS]
    repeat' split
    all_goals first | rfl | (exfalso; omega)

/-- GID from a tag URI: the same objects. -/
theorem C81_gid_tag (L : Nat) (hL : 640 ≤ L) (t : Str) (x : GID) : GID.fromTagUriLim L t = .ok x ↔ GID.fromTagUri t = .ok x :=
  fromTagUri_congr_ok (GID.newLim_ok hL) false t x

/-- USDOD: the same URIs are accepted; ValueError is raised exactly when the serial number has more than `L` digits. -/
theorem C81_usdod (L : Nat) (hL : 640 ≤ L) (u : Str) :
    (∀ x, USDOD.newLim L u = .ok x ↔ USDOD.new u = .ok x) ∧
    (∀ e, USDOD.newLim L u = .error e → e = .convert ∨ e = .value) ∧
    (USDOD.newLim L u = .error .value ↔ ∃ C S, CageCode C ∧ UNumeral S ∧
      u = py "urn:epc:id:usdod:" ++ joinWith '.' [C, S] ∧ L < S.length) := by
  refine ⟨USDOD.newLim_ok hL u, ?_, ?_, ?_⟩
  · intro e h
    cases hm : Rx.usdodUri.fullmatch u with
    | false => rw [USDOD.newLim_nomatch hm] at h; cases h; exact .inl rfl
    | true =>
      obtain ⟨C, S, hC, hS, rfl⟩ := USDOD.shape.1 hm
      rw [USDOD.newLim_eq (by omega) hC hS] at h
      clear hm
      (repeat' split at h) <;> cases h <;> first | exact .inl rfl | exact .inr rfl
  · intro h
    cases hm : Rx.usdodUri.fullmatch u with
    | false => rw [USDOD.newLim_nomatch hm] at h; cases h
    | true =>
      obtain ⟨C, S, hC, hS, rfl⟩ := USDOD.shape.1 hm
      refine ⟨C, S, cageCode_iff.2 hC, (uNumeral_iff _).2 hS, rfl, ?_⟩
      rw [USDOD.newLim_eq (by omega) hC hS] at h
      clear hm
      (repeat' split at h) <;> first | omega | (cases h; done)
  · rintro ⟨C, S, hC, hS, rfl, h⟩
    rw [uNumeral_iff] at hS
    show USDOD.newLim L (py "urn:epc:id:usdod" ++ ':' :: (C ++ '.' :: S)) = _
    rw [USDOD.newLim_eq (by omega) (cageCode_iff.1 hC) hS, if_pos h]

/-- USDOD from a tag URI: the same objects. -/
theorem C81_usdod_tag (L : Nat) (hL : 640 ≤ L) (t : Str) (x : USDOD) : USDOD.fromTagUriLim L t = .ok x ↔ USDOD.fromTagUri t = .ok x :=
  fromTagUri_congr_ok (USDOD.newLim_ok hL) true t x

/-- Without a limit the constructors are those of the other theorems. -/
theorem C81_unlimited (u : Str) : GID.newLim 0 u = GID.new u ∧ USDOD.newLim 0 u = USDOD.new u :=
  ⟨GID.newLim_zero u, USDOD.newLim_zero u⟩

/-- A text that `int` treats the same with any limit. -/
def LimitFree (s : Str) : Prop := ∀ L, 640 ≤ L → pyIntLim L s = pyInt 10 s

private theorem free {s : Str} (h : s.length ≤ 640) : LimitFree s := fun _ hL => pyIntLim_short (by omega)

private theorem unescape_numeric {s : Str} (h : isNumeric s = true) : replaceUriEscapes s = s := by
  have hd : ∀ c ∈ s, isNumericChar c = true := by
    unfold isNumeric at h
    simp only [Bool.and_eq_true, List.all_eq_true] at h
    exact h.2
  rw [replaceUriEscapes_eq]
  clear h
  induction s with
  | nil => rfl
  | cons c t ih =>
    rw [unescapeWith_ne (by rintro rfl; exact absurd (hd _ List.mem_cons_self) (by decide +kernel)), ih (fun c hc => hd c (List.mem_cons_of_mem _ hc))]

/-- SGTIN: no attribute that is converted to a number is long enough for a limit to matter. -/
theorem C81_sgtin (u : Str) (x : SGTIN) (h : SGTIN.new u = .ok x) : LimitFree x.companyPref ∧ LimitFree x.itemRef ∧ (isNumeric x.serial = true → LimitFree x.serial) := by
  obtain ⟨C, I, S, -, hc, -, rfl⟩ := SGTIN.new_iff.1 h
  exact ⟨(free (by dsimp only; omega)), (free (by dsimp only; omega)), (fun hn => free (by dsimp only at hn ⊢; have := unescape_numeric hn; rw [this] at hc; omega))⟩

/-- SSCC: likewise. -/
theorem C81_sscc (u : Str) (x : SSCC) (h : SSCC.new u = .ok x) : LimitFree x.companyPref ∧ LimitFree x.serial := by
  obtain ⟨C, I, -, hc, -, rfl⟩ := SSCC.new_iff.1 h
  exact ⟨(free (by dsimp only; omega)), (free (by dsimp only; omega))⟩

/-- SGLN: likewise. -/
theorem C81_sgln (u : Str) (x : SGLN) (h : SGLN.new u = .ok x) : LimitFree x.companyPref ∧ LimitFree x.locationRef ∧ (isNumeric x.serial = true → LimitFree x.serial) := by
  obtain ⟨C, D, S, -, hc, -, rfl⟩ := SGLN.new_iff.1 h
  exact ⟨(free (by dsimp only; omega)), (free (by dsimp only; omega)), (fun hn => free (by dsimp only at hn ⊢; have := unescape_numeric hn; rw [this] at hc; omega))⟩

/-- GRAI: likewise. -/
theorem C81_grai (u : Str) (x : GRAI) (h : GRAI.new u = .ok x) : LimitFree x.companyPref ∧ LimitFree x.assetType ∧ LimitFree x.serial := by
  obtain ⟨C, D, S, -, hc, -, rfl⟩ := GRAI.new_iff.1 h
  exact ⟨(free (by dsimp only; omega)), (free (by dsimp only; omega)), (free (by dsimp only; omega))⟩

/-- GIAI: likewise. -/
theorem C81_giai (u : Str) (x : GIAI) (h : GIAI.new u = .ok x) : LimitFree x.companyPref ∧ LimitFree x.assetRef := by
  obtain ⟨C, S, -, hc, -, rfl⟩ := GIAI.new_iff.1 h
  exact ⟨(free (by dsimp only; omega)), (free (by dsimp only; omega))⟩

/-- GSRN: likewise. -/
theorem C81_gsrn (u : Str) (x : GSRN) (h : GSRN.new u = .ok x) : LimitFree x.companyPref ∧ LimitFree x.serviceRef := by
  obtain ⟨C, D, -, hc, -, rfl⟩ := GSRN.new_iff.1 h
  exact ⟨(free (by dsimp only; omega)), (free (by dsimp only; omega))⟩

/-- GSRNP: likewise. -/
theorem C81_gsrnp (u : Str) (x : GSRNP) (h : GSRNP.new u = .ok x) : LimitFree x.companyPref ∧ LimitFree x.serviceRef := by
  obtain ⟨C, D, -, hc, -, rfl⟩ := GSRNP.new_iff.1 h
  exact ⟨(free (by dsimp only; omega)), (free (by dsimp only; omega))⟩

/-- GDTI: likewise. -/
theorem C81_gdti (u : Str) (x : GDTI) (h : GDTI.new u = .ok x) : LimitFree x.companyPref ∧ LimitFree x.docType ∧ LimitFree x.serial := by
  obtain ⟨C, D, S, -, hc, -, rfl⟩ := GDTI.new_iff.1 h
  exact ⟨(free (by dsimp only; omega)), (free (by dsimp only; omega)), (free (by dsimp only; omega))⟩

/-- CPI: likewise. -/
theorem C81_cpi (u : Str) (x : CPI) (h : CPI.new u = .ok x) : LimitFree x.companyPref ∧ LimitFree x.cpRef ∧ LimitFree x.serial := by
  obtain ⟨C, D, S, -, hc, -, rfl⟩ := CPI.new_iff.1 h
  exact ⟨(free (by dsimp only; omega)), (free (by dsimp only; omega)), (free (by dsimp only; omega))⟩

/-- ITIP: likewise. -/
theorem C81_itip (u : Str) (x : ITIP) (h : ITIP.new u = .ok x) : LimitFree x.companyPref ∧ LimitFree x.itemRef ∧ LimitFree x.piece ∧ LimitFree x.total ∧ (isNumeric x.serial = true → LimitFree x.serial) := by
  obtain ⟨C, I, A, B, S, -, hc, -, rfl⟩ := ITIP.new_iff.1 h
  exact ⟨(free (by dsimp only; omega)), (free (by dsimp only; omega)), (free (by dsimp only; omega)), (free (by dsimp only; omega)), (fun hn => free (by dsimp only at hn ⊢; have := unescape_numeric hn; rw [this] at hc; omega))⟩

/-- SGCN: likewise; the serial number is converted with a 1 in front. -/
theorem C81_sgcn (u : Str) (x : SGCN) (h : SGCN.new u = .ok x) :
    LimitFree x.companyPref ∧ LimitFree x.couponRef ∧ LimitFree ('1' :: x.serial) := by
  obtain ⟨C, D, S, -, hc, -, rfl⟩ := SGCN.new_iff.1 h
  exact ⟨(free (by dsimp only; omega)), (free (by dsimp only; omega)), (free (by simp only [List.length_cons]; omega))⟩

/-- A serial number of 5000 ones: ConvertException without a limit, ValueError with the default limit. -/
theorem C81_witness :
    USDOD.new (py "urn:epc:id:usdod:CAGEY." ++ List.replicate 5000 '1') = .error .convert ∧
    USDOD.newLim 4300 (py "urn:epc:id:usdod:CAGEY." ++ List.replicate 5000 '1') = .error .value := by
  have hS : UNumeral (List.replicate 5000 '1') := .inr ⟨'1', List.replicate 4999 '1', rfl, by decide, fun c hc => by
    rw [List.eq_of_mem_replicate hc]; exact ⟨1, by decide⟩⟩
  have hv := (C81_usdod 4300 (by decide) (py "urn:epc:id:usdod:CAGEY." ++ List.replicate 5000 '1')).2.2.2
    ⟨py "CAGEY", List.replicate 5000 '1', (by unfold CageCode; decide), hS, rfl, by rw [List.length_replicate]; decide⟩
  refine ⟨?_, hv⟩
  cases hn : USDOD.new (py "urn:epc:id:usdod:CAGEY." ++ List.replicate 5000 '1') with
  | error e => rw [USDOD.new_error hn]
  | ok x =>
    have := ((C81_usdod 4300 (by decide) _).1 x).2 hn
    rw [hv] at this
    cases this

example : (GID.newLim 4300 (py "urn:epc:id:gid:952056.2718.1414")).isOk = true := by decide +kernel
example : (SGTIN.new (py "urn:epc:id:sgtin:9521141.012345.4711")).isOk = true := by decide +kernel

end Epc
