/-
What each constructor accepts: for every scheme class, the shape of the URIs its pattern matches (`shape`), the checks the
constructor does on such a URI (`new_eq`), a characterisation of the accepted URIs and the resulting object (`new_iff`), and of the
exceptions (`new_error`).  Generated by /verif/tools/gen_new.py.
-/
import Verif.Lemmas.Uri
import Verif.Model.Parsers

set_option linter.unusedSimpArgs false

namespace Epc
open Spec Re

/-- Indicator or extension digit first, then the company prefix, then the rest of the reference. -/
def keyBody (C I : Str) : Str := I.take 1 ++ (C ++ I.drop 1)

theorem decide_lt_pow (n b k : Nat) : decide ((n : Int) < ((b ^ k : Nat) : Int)) = decide (n < b ^ k) := by
  simp only [Int.ofNat_lt]

theorem dec_keyBody {C I : Str} (hC : Dec C) (hI : Dec I) : Dec (keyBody C I) :=
  Dec.append.2 ⟨hI.take 1, Dec.append.2 ⟨hC, hI.drop 1⟩⟩

theorem length_keyBody (C I : Str) : (keyBody C I).length = C.length + I.length := by
  simp only [keyBody, List.length_append, List.length_take, List.length_drop]; omega

theorem gsin_checksum_dec {s : Str} (h : Dec s) (hl : s.length % 2 = 0) : GSIN.checksum s = .ok (uCheck s) := by
  unfold GSIN.checksum
  rw [mapM_digitInt_dec h, ok_bind]
  have hw := wsum_eq (decDigits s)
  rw [length_decDigits, if_pos hl] at hw
  unfold uCheck
  rw [hw]; rfl

theorem cpref_no_dot {s : Str} (h : Lang Rx.cpref s) : '.' ∉ s := by
  obtain ⟨raw, _, hr, rfl⟩ := (lang_cpref s).1 h
  exact escape39_no_dot hr
theorem cpref_no_colon {s : Str} (h : Lang Rx.cpref s) : ':' ∉ s := by
  obtain ⟨raw, _, hr, rfl⟩ := (lang_cpref s).1 h
  exact escape39_no_colon hr
theorem adiPart_no_dot {s : Str} (h : Lang (.star Rx.adiChar) s) : '.' ∉ s := by
  obtain ⟨raw, hr, rfl⟩ := (lang_adiPart s).1 h
  exact escape39_no_dot (fun c hc => (hr c hc).1)
theorem adiPart_no_colon {s : Str} (h : Lang (.star Rx.adiChar) s) : ':' ∉ s := by
  obtain ⟨raw, hr, rfl⟩ := (lang_adiPart s).1 h
  exact escape39_no_colon (fun c hc => (hr c hc).1)
theorem adiSerial_no_dot {s : Str} (h : Lang (.seq (opt (lit (py "%23"))) (plus Rx.adiChar)) s) : '.' ∉ s := by
  obtain ⟨raw, _, hr, _, rfl⟩ := (lang_adiSerial s).1 h
  exact escape39_no_dot hr
theorem adiSerial_no_colon {s : Str} (h : Lang (.seq (opt (lit (py "%23"))) (plus Rx.adiChar)) s) : ':' ∉ s := by
  obtain ⟨raw, _, hr, _, rfl⟩ := (lang_adiSerial s).1 h
  exact escape39_no_colon hr
theorem cage_no_dot {s : Str} (h : Lang Rx.cage s) : '.' ∉ s := by
  intro hm
  have := ((lang_cage s).1 h).2 _ hm
  revert this; decide
theorem cage_no_colon {s : Str} (h : Lang Rx.cage s) : ':' ∉ s := by
  intro hm
  have := ((lang_cage s).1 h).2 _ hm
  revert this; decide
theorem noColon2 {a b : Str} (ha : ':' ∉ a) (hb : ':' ∉ b) : ':' ∉ a ++ '.' :: b := by simp [ha, hb]

theorem lang_itip (s : Str) : Lang Rx.itipBody s ↔
    ∃ C I A B S, s = C ++ '.' :: (I ++ '.' :: (A ++ '.' :: (B ++ '.' :: S))) ∧ (C ≠ [] ∧ Dec C) ∧ (I ≠ [] ∧ Dec I) ∧
      (A ≠ [] ∧ Dec A) ∧ (B ≠ [] ∧ Dec B) ∧ Lang Rx.gs3a3 S := by
  have e : Lang Rx.itipBody s ↔ Lang (Rx.dotted2 Rx.padded (Rx.dotted2 Rx.padded (Rx.dotted2 Rx.padded
    (Rx.dotted2 Rx.padded Rx.gs3a3)))) s := Iff.rfl
  rw [e]
  simp only [lang_dotted2, lang_padded]
  constructor
  · rintro ⟨C, t, rfl, hC, I, t, rfl, hI, A, t, rfl, hA, B, S, rfl, hB, hS⟩
    exact ⟨C, I, A, B, S, rfl, hC, hI, hA, hB, hS⟩
  · rintro ⟨C, I, A, B, S, rfl, hC, hI, hA, hB, hS⟩
    exact ⟨C, _, rfl, hC, I, _, rfl, hI, A, _, rfl, hA, B, S, rfl, hB, hS⟩

/-! ### SGTIN -/

namespace SGTIN

theorem new_nomatch {u : Str} (h : Rx.sgtinUri.fullmatch u = false) : new u = .error .convert := by
  unfold new; rw [guard_false h]; rfl

theorem shape {u : Str} : Rx.sgtinUri.fullmatch u = true ↔ ∃ C I S, (C ≠ [] ∧ Dec C) ∧ (I ≠ [] ∧ Dec I) ∧ Lang Rx.gs3a3 S ∧
    u = py "urn:epc:id:sgtin" ++ ':' :: (C ++ '.' :: (I ++ '.' :: S)) := by
  rw [fullmatch_iff]
  unfold Rx.sgtinUri Rx.sgtinBody
  rw [lang_lit_seq]
  simp only [lang_dotted3, lang_padded, lang_paddedOrEmpty, lang_numeric]
  constructor
  · rintro ⟨t, rfl, C, I, S, rfl, hC, hI, hS⟩
    exact ⟨C, I, S, hC, hI, hS, rfl⟩
  · rintro ⟨C, I, S, hC, hI, hS, rfl⟩
    exact ⟨_, rfl, C, I, S, rfl, hC, hI, hS⟩

theorem new_eq {C I S : Str} (hC : (C ≠ [] ∧ Dec C)) (hI : (I ≠ [] ∧ Dec I)) (hS : Lang Rx.gs3a3 S) :
    new (py "urn:epc:id:sgtin" ++ ':' :: (C ++ '.' :: (I ++ '.' :: S))) = (do
      guardConvert (decide ((C ++ I).length = 13 ∧ 6 ≤ C.length ∧ C.length ≤ 12))
      verifyGs3a3 S
      guardConvert (decide (1 ≤ (replaceUriEscapes S).length ∧ (replaceUriEscapes S).length ≤ 20))
      return ⟨py "urn:epc:id:sgtin" ++ ':' :: (C ++ '.' :: (I ++ '.' :: S)), C, I, S, padLeft '0' 14 (keyBody C I ++ natStr (uCheck (keyBody C I)))⟩) := by
  have hm : Rx.sgtinUri.fullmatch (py "urn:epc:id:sgtin" ++ ':' :: (C ++ '.' :: (I ++ '.' :: S))) = true :=
    shape.2 ⟨C, I, S, hC, hI, hS, rfl⟩
  unfold new
  rw [guard_true hm, ok_bind, getPart4 rfl, ok_bind,
    head_colon2 hC.2.no_colon hI.2.no_colon, split_append_sep hC.2.no_dot, split_append_sep hI.2.no_dot, getPart_ok rfl, ok_bind,
    getPart_ok rfl, ok_bind, uriBody_eq rfl, serial_of_body2 hC.2.no_dot hI.2.no_dot]
  cases I with
  | nil => exact absurd rfl hI.1
  | cons i I =>
    have hk := dec_keyBody hC.2 hI.2
    have e : i :: C ++ (i :: I).drop 1 = keyBody C (i :: I) := rfl
    have hg : getIdx (i :: I) 0 = .ok i := rfl
    simp only [hg, ok_bind, e, checksum_dec hk]
    rw [zfill_dec (Dec.append.2 ⟨hk, dec_natStr _⟩)]

theorem new_iff {u : Str} {x : SGTIN} : new u = .ok x ↔ ∃ C I S, ((C ≠ [] ∧ Dec C) ∧ (I ≠ [] ∧ Dec I) ∧ Lang Rx.gs3a3 S) ∧
    (C.length + I.length = 13 ∧ (6 ≤ C.length ∧ C.length ≤ 12) ∧ verifyGs3a3 S = .ok () ∧ 1 ≤ (replaceUriEscapes S).length ∧ (replaceUriEscapes S).length ≤ 20) ∧
    u = py "urn:epc:id:sgtin" ++ ':' :: (C ++ '.' :: (I ++ '.' :: S)) ∧
    x = ⟨u, C, I, S, padLeft '0' 14 (keyBody C I ++ natStr (uCheck (keyBody C I)))⟩ := by
  constructor
  · intro h
    cases hm : Rx.sgtinUri.fullmatch u with
    | false => rw [new_nomatch hm] at h; cases h
    | true =>
      obtain ⟨C, I, S, hC, hI, hS, rfl⟩ := shape.1 hm
      rw [new_eq hC hI hS] at h
      simp only [unit_bind_ok, guard_ok_iff, pure_ok, Except.ok.injEq, decide_eq_true_eq, List.length_append, Nat.add_assoc] at h
      refine ⟨C, I, S, ⟨hC, hI, hS⟩, ?_, rfl, ?_⟩
      · simp_all
      · simp_all
  · rintro ⟨C, I, S, ⟨hC, hI, hS⟩, hc, rfl, rfl⟩
    rw [new_eq hC hI hS]
    simp only [unit_bind_ok, guard_ok_iff, pure_ok, Except.ok.injEq, decide_eq_true_eq, List.length_append, Nat.add_assoc]
    simp_all

theorem new_error {u : Str} {e : Err} (h : new u = .error e) : e = .convert ∨ ∃ C I S, ((C ≠ [] ∧ Dec C) ∧ (I ≠ [] ∧ Dec I) ∧ Lang Rx.gs3a3 S) ∧ u = py "urn:epc:id:sgtin" ++ ':' :: (C ++ '.' :: (I ++ '.' :: S)) ∧ verifyGs3a3 S = .error e := by
  cases hm : Rx.sgtinUri.fullmatch u with
  | false => rw [new_nomatch hm] at h; injection h with h; exact .inl h.symm
  | true =>
    obtain ⟨C, I, S, hC, hI, hS, rfl⟩ := shape.1 hm
    rw [new_eq hC hI hS] at h
    cases hver : verifyGs3a3 S with
    | error e' =>
      by_cases hee : e' = e
      · subst hee; exact .inr ⟨C, I, S, ⟨hC, hI, hS⟩, rfl, hver⟩
      · left
        clear hm
        simp only [hver, guard_bind_error, error_bind, ok_bind, pure_ok, reduceCtorEq, and_false, or_false, Except.error.injEq, hee] at h
        try exact h.2
    | ok a =>
      left
      clear hm
      simp only [hver, guard_bind_error, error_bind, ok_bind, pure_ok, reduceCtorEq, and_false, or_false] at h
      grind

end SGTIN

/-! ### SSCC -/

namespace SSCC

theorem new_nomatch {u : Str} (h : Rx.ssccUri.fullmatch u = false) : new u = .error .convert := by
  unfold new; rw [guard_false h]; rfl

theorem shape {u : Str} : Rx.ssccUri.fullmatch u = true ↔ ∃ C I, (C ≠ [] ∧ Dec C) ∧ (I ≠ [] ∧ Dec I) ∧
    u = py "urn:epc:id:sscc" ++ ':' :: (C ++ '.' :: I) := by
  rw [fullmatch_iff]
  unfold Rx.ssccUri Rx.ssccBody
  rw [lang_lit_seq]
  simp only [lang_dotted2, lang_padded, lang_paddedOrEmpty, lang_numeric]
  constructor
  · rintro ⟨t, rfl, C, I, rfl, hC, hI⟩
    exact ⟨C, I, hC, hI, rfl⟩
  · rintro ⟨C, I, hC, hI, rfl⟩
    exact ⟨_, rfl, C, I, rfl, hC, hI⟩

theorem new_eq {C I : Str} (hC : (C ≠ [] ∧ Dec C)) (hI : (I ≠ [] ∧ Dec I)) :
    new (py "urn:epc:id:sscc" ++ ':' :: (C ++ '.' :: I)) = (do
      guardConvert (decide ((C ++ I).length = 17 ∧ 6 ≤ C.length ∧ C.length ≤ 12))
      return ⟨py "urn:epc:id:sscc" ++ ':' :: (C ++ '.' :: I), C, I, keyBody C I ++ natStr (uCheck (keyBody C I))⟩) := by
  have hm : Rx.ssccUri.fullmatch (py "urn:epc:id:sscc" ++ ':' :: (C ++ '.' :: I)) = true :=
    shape.2 ⟨C, I, hC, hI, rfl⟩
  unfold new
  rw [guard_true hm, ok_bind, last_split (noDot_noColon hC.2 hI.2), split2 hC.2.no_dot hI.2.no_dot]
  cases I with
  | nil => exact absurd rfl hI.1
  | cons i I =>
    have hk := dec_keyBody hC.2 hI.2
    have e : i :: C ++ (i :: I).drop 1 = keyBody C (i :: I) := rfl
    have hg : getIdx (i :: I) 0 = .ok i := rfl
    simp only [unpack2, hg, ok_bind, e, checksum_dec hk]

theorem new_iff {u : Str} {x : SSCC} : new u = .ok x ↔ ∃ C I, ((C ≠ [] ∧ Dec C) ∧ (I ≠ [] ∧ Dec I)) ∧
    (C.length + I.length = 17 ∧ 6 ≤ C.length ∧ C.length ≤ 12) ∧
    u = py "urn:epc:id:sscc" ++ ':' :: (C ++ '.' :: I) ∧
    x = ⟨u, C, I, keyBody C I ++ natStr (uCheck (keyBody C I))⟩ := by
  constructor
  · intro h
    cases hm : Rx.ssccUri.fullmatch u with
    | false => rw [new_nomatch hm] at h; cases h
    | true =>
      obtain ⟨C, I, hC, hI, rfl⟩ := shape.1 hm
      rw [new_eq hC hI] at h
      simp only [unit_bind_ok, guard_ok_iff, pure_ok, Except.ok.injEq, decide_eq_true_eq, List.length_append, Nat.add_assoc] at h
      refine ⟨C, I, ⟨hC, hI⟩, ?_, rfl, ?_⟩
      · simp_all
      · simp_all
  · rintro ⟨C, I, ⟨hC, hI⟩, hc, rfl, rfl⟩
    rw [new_eq hC hI]
    simp only [unit_bind_ok, guard_ok_iff, pure_ok, Except.ok.injEq, decide_eq_true_eq, List.length_append, Nat.add_assoc]
    simp_all

theorem new_error {u : Str} {e : Err} (h : new u = .error e) : e = .convert := by
  cases hm : Rx.ssccUri.fullmatch u with
  | false => rw [new_nomatch hm] at h; injection h with h; exact h.symm
  | true =>
    obtain ⟨C, I, hC, hI, rfl⟩ := shape.1 hm
    rw [new_eq hC hI] at h
    clear hm
    simp only [guard_bind_error, ok_bind, pure_ok, reduceCtorEq, and_false, or_false, and_self] at h
    grind

end SSCC

/-! ### GSRN -/

namespace GSRN

theorem new_nomatch {u : Str} (h : Rx.gsrnUri.fullmatch u = false) : new u = .error .convert := by
  unfold new; rw [guard_false h]; rfl

theorem shape {u : Str} : Rx.gsrnUri.fullmatch u = true ↔ ∃ C D, (C ≠ [] ∧ Dec C) ∧ (D ≠ [] ∧ Dec D) ∧
    u = py "urn:epc:id:gsrn" ++ ':' :: (C ++ '.' :: D) := by
  rw [fullmatch_iff]
  unfold Rx.gsrnUri Rx.gsrnBody
  rw [lang_lit_seq]
  simp only [lang_dotted2, lang_padded, lang_paddedOrEmpty, lang_numeric]
  constructor
  · rintro ⟨t, rfl, C, D, rfl, hC, hD⟩
    exact ⟨C, D, hC, hD, rfl⟩
  · rintro ⟨C, D, hC, hD, rfl⟩
    exact ⟨_, rfl, C, D, rfl, hC, hD⟩

theorem new_eq {C D : Str} (hC : (C ≠ [] ∧ Dec C)) (hD : (D ≠ [] ∧ Dec D)) :
    new (py "urn:epc:id:gsrn" ++ ':' :: (C ++ '.' :: D)) = (do
      guardConvert (decide ((C ++ D).length = 17 ∧ 6 ≤ C.length ∧ C.length ≤ 12))
      return ⟨py "urn:epc:id:gsrn" ++ ':' :: (C ++ '.' :: D), C, D, C ++ D ++ natStr (uCheck (C ++ D))⟩) := by
  have hm : Rx.gsrnUri.fullmatch (py "urn:epc:id:gsrn" ++ ':' :: (C ++ '.' :: D)) = true :=
    shape.2 ⟨C, D, hC, hD, rfl⟩
  unfold new
  rw [guard_true hm, ok_bind, getPart4_noColon rfl (noDot_noColon hC.2 hD.2), ok_bind, split2 hC.2.no_dot hD.2.no_dot]
  simp only [unpack2, ok_bind, checksum_dec (Dec.append.2 ⟨hC.2, hD.2⟩)]

theorem new_iff {u : Str} {x : GSRN} : new u = .ok x ↔ ∃ C D, ((C ≠ [] ∧ Dec C) ∧ (D ≠ [] ∧ Dec D)) ∧
    (C.length + D.length = 17 ∧ 6 ≤ C.length ∧ C.length ≤ 12) ∧
    u = py "urn:epc:id:gsrn" ++ ':' :: (C ++ '.' :: D) ∧
    x = ⟨u, C, D, C ++ D ++ natStr (uCheck (C ++ D))⟩ := by
  constructor
  · intro h
    cases hm : Rx.gsrnUri.fullmatch u with
    | false => rw [new_nomatch hm] at h; cases h
    | true =>
      obtain ⟨C, D, hC, hD, rfl⟩ := shape.1 hm
      rw [new_eq hC hD] at h
      simp only [unit_bind_ok, guard_ok_iff, pure_ok, Except.ok.injEq, decide_eq_true_eq, List.length_append, Nat.add_assoc] at h
      refine ⟨C, D, ⟨hC, hD⟩, ?_, rfl, ?_⟩
      · simp_all
      · simp_all
  · rintro ⟨C, D, ⟨hC, hD⟩, hc, rfl, rfl⟩
    rw [new_eq hC hD]
    simp only [unit_bind_ok, guard_ok_iff, pure_ok, Except.ok.injEq, decide_eq_true_eq, List.length_append, Nat.add_assoc]
    simp_all

theorem new_error {u : Str} {e : Err} (h : new u = .error e) : e = .convert := by
  cases hm : Rx.gsrnUri.fullmatch u with
  | false => rw [new_nomatch hm] at h; injection h with h; exact h.symm
  | true =>
    obtain ⟨C, D, hC, hD, rfl⟩ := shape.1 hm
    rw [new_eq hC hD] at h
    clear hm
    simp only [guard_bind_error, ok_bind, pure_ok, reduceCtorEq, and_false, or_false, and_self] at h
    grind

end GSRN

/-! ### GSRNP -/

namespace GSRNP

theorem new_nomatch {u : Str} (h : Rx.gsrnpUri.fullmatch u = false) : new u = .error .convert := by
  unfold new; rw [guard_false h]; rfl

theorem shape {u : Str} : Rx.gsrnpUri.fullmatch u = true ↔ ∃ C D, (C ≠ [] ∧ Dec C) ∧ (D ≠ [] ∧ Dec D) ∧
    u = py "urn:epc:id:gsrnp" ++ ':' :: (C ++ '.' :: D) := by
  rw [fullmatch_iff]
  unfold Rx.gsrnpUri Rx.gsrnBody
  rw [lang_lit_seq]
  simp only [lang_dotted2, lang_padded, lang_paddedOrEmpty, lang_numeric]
  constructor
  · rintro ⟨t, rfl, C, D, rfl, hC, hD⟩
    exact ⟨C, D, hC, hD, rfl⟩
  · rintro ⟨C, D, hC, hD, rfl⟩
    exact ⟨_, rfl, C, D, rfl, hC, hD⟩

theorem new_eq {C D : Str} (hC : (C ≠ [] ∧ Dec C)) (hD : (D ≠ [] ∧ Dec D)) :
    new (py "urn:epc:id:gsrnp" ++ ':' :: (C ++ '.' :: D)) = (do
      guardConvert (decide ((C ++ D).length = 17 ∧ 6 ≤ C.length ∧ C.length ≤ 12))
      return ⟨py "urn:epc:id:gsrnp" ++ ':' :: (C ++ '.' :: D), C, D, C ++ D ++ natStr (uCheck (C ++ D))⟩) := by
  have hm : Rx.gsrnpUri.fullmatch (py "urn:epc:id:gsrnp" ++ ':' :: (C ++ '.' :: D)) = true :=
    shape.2 ⟨C, D, hC, hD, rfl⟩
  unfold new
  rw [guard_true hm, ok_bind, getPart4_noColon rfl (noDot_noColon hC.2 hD.2), ok_bind, split2 hC.2.no_dot hD.2.no_dot]
  simp only [unpack2, ok_bind, checksum_dec (Dec.append.2 ⟨hC.2, hD.2⟩)]

theorem new_iff {u : Str} {x : GSRNP} : new u = .ok x ↔ ∃ C D, ((C ≠ [] ∧ Dec C) ∧ (D ≠ [] ∧ Dec D)) ∧
    (C.length + D.length = 17 ∧ 6 ≤ C.length ∧ C.length ≤ 12) ∧
    u = py "urn:epc:id:gsrnp" ++ ':' :: (C ++ '.' :: D) ∧
    x = ⟨u, C, D, C ++ D ++ natStr (uCheck (C ++ D))⟩ := by
  constructor
  · intro h
    cases hm : Rx.gsrnpUri.fullmatch u with
    | false => rw [new_nomatch hm] at h; cases h
    | true =>
      obtain ⟨C, D, hC, hD, rfl⟩ := shape.1 hm
      rw [new_eq hC hD] at h
      simp only [unit_bind_ok, guard_ok_iff, pure_ok, Except.ok.injEq, decide_eq_true_eq, List.length_append, Nat.add_assoc] at h
      refine ⟨C, D, ⟨hC, hD⟩, ?_, rfl, ?_⟩
      · simp_all
      · simp_all
  · rintro ⟨C, D, ⟨hC, hD⟩, hc, rfl, rfl⟩
    rw [new_eq hC hD]
    simp only [unit_bind_ok, guard_ok_iff, pure_ok, Except.ok.injEq, decide_eq_true_eq, List.length_append, Nat.add_assoc]
    simp_all

theorem new_error {u : Str} {e : Err} (h : new u = .error e) : e = .convert := by
  cases hm : Rx.gsrnpUri.fullmatch u with
  | false => rw [new_nomatch hm] at h; injection h with h; exact h.symm
  | true =>
    obtain ⟨C, D, hC, hD, rfl⟩ := shape.1 hm
    rw [new_eq hC hD] at h
    clear hm
    simp only [guard_bind_error, ok_bind, pure_ok, reduceCtorEq, and_false, or_false, and_self] at h
    grind

end GSRNP

/-! ### PGLN -/

namespace PGLN

theorem new_nomatch {u : Str} (h : Rx.pglnUri.fullmatch u = false) : new u = .error .convert := by
  unfold new; rw [guard_false h]; rfl

theorem shape {u : Str} : Rx.pglnUri.fullmatch u = true ↔ ∃ C D, (C ≠ [] ∧ Dec C) ∧ Dec D ∧
    u = py "urn:epc:id:pgln" ++ ':' :: (C ++ '.' :: D) := by
  rw [fullmatch_iff]
  unfold Rx.pglnUri Rx.pglnBody
  rw [lang_lit_seq]
  simp only [lang_dotted2, lang_padded, lang_paddedOrEmpty, lang_numeric]
  constructor
  · rintro ⟨t, rfl, C, D, rfl, hC, hD⟩
    exact ⟨C, D, hC, hD, rfl⟩
  · rintro ⟨C, D, hC, hD, rfl⟩
    exact ⟨_, rfl, C, D, rfl, hC, hD⟩

theorem new_eq {C D : Str} (hC : (C ≠ [] ∧ Dec C)) (hD : Dec D) :
    new (py "urn:epc:id:pgln" ++ ':' :: (C ++ '.' :: D)) = (do
      guardConvert (decide ((C ++ D).length = 12 ∧ 6 ≤ C.length ∧ C.length ≤ 12))
      return ⟨py "urn:epc:id:pgln" ++ ':' :: (C ++ '.' :: D), C, D, C ++ D ++ natStr (uCheck (C ++ D))⟩) := by
  have hm : Rx.pglnUri.fullmatch (py "urn:epc:id:pgln" ++ ':' :: (C ++ '.' :: D)) = true :=
    shape.2 ⟨C, D, hC, hD, rfl⟩
  unfold new
  rw [guard_true hm, ok_bind, getPart4_noColon rfl (noDot_noColon hC.2 hD), ok_bind, split2 hC.2.no_dot hD.no_dot]
  simp only [unpack2, ok_bind, checksum_dec (Dec.append.2 ⟨hC.2, hD⟩)]

theorem new_iff {u : Str} {x : PGLN} : new u = .ok x ↔ ∃ C D, ((C ≠ [] ∧ Dec C) ∧ Dec D) ∧
    (C.length + D.length = 12 ∧ 6 ≤ C.length ∧ C.length ≤ 12) ∧
    u = py "urn:epc:id:pgln" ++ ':' :: (C ++ '.' :: D) ∧
    x = ⟨u, C, D, C ++ D ++ natStr (uCheck (C ++ D))⟩ := by
  constructor
  · intro h
    cases hm : Rx.pglnUri.fullmatch u with
    | false => rw [new_nomatch hm] at h; cases h
    | true =>
      obtain ⟨C, D, hC, hD, rfl⟩ := shape.1 hm
      rw [new_eq hC hD] at h
      simp only [unit_bind_ok, guard_ok_iff, pure_ok, Except.ok.injEq, decide_eq_true_eq, List.length_append, Nat.add_assoc] at h
      refine ⟨C, D, ⟨hC, hD⟩, ?_, rfl, ?_⟩
      · simp_all
      · simp_all
  · rintro ⟨C, D, ⟨hC, hD⟩, hc, rfl, rfl⟩
    rw [new_eq hC hD]
    simp only [unit_bind_ok, guard_ok_iff, pure_ok, Except.ok.injEq, decide_eq_true_eq, List.length_append, Nat.add_assoc]
    simp_all

theorem new_error {u : Str} {e : Err} (h : new u = .error e) : e = .convert := by
  cases hm : Rx.pglnUri.fullmatch u with
  | false => rw [new_nomatch hm] at h; injection h with h; exact h.symm
  | true =>
    obtain ⟨C, D, hC, hD, rfl⟩ := shape.1 hm
    rw [new_eq hC hD] at h
    clear hm
    simp only [guard_bind_error, ok_bind, pure_ok, reduceCtorEq, and_false, or_false, and_self] at h
    grind

end PGLN

/-! ### GSIN -/

namespace GSIN

theorem new_nomatch {u : Str} (h : Rx.gsinUri.fullmatch u = false) : new u = .error .convert := by
  unfold new; rw [guard_false h]; rfl

theorem shape {u : Str} : Rx.gsinUri.fullmatch u = true ↔ ∃ C D, (C ≠ [] ∧ Dec C) ∧ (D ≠ [] ∧ Dec D) ∧
    u = py "urn:epc:id:gsin" ++ ':' :: (C ++ '.' :: D) := by
  rw [fullmatch_iff]
  unfold Rx.gsinUri Rx.gsinBody
  rw [lang_lit_seq]
  simp only [lang_dotted2, lang_padded, lang_paddedOrEmpty, lang_numeric]
  constructor
  · rintro ⟨t, rfl, C, D, rfl, hC, hD⟩
    exact ⟨C, D, hC, hD, rfl⟩
  · rintro ⟨C, D, hC, hD, rfl⟩
    exact ⟨_, rfl, C, D, rfl, hC, hD⟩

theorem new_eq {C D : Str} (hC : (C ≠ [] ∧ Dec C)) (hD : (D ≠ [] ∧ Dec D)) :
    new (py "urn:epc:id:gsin" ++ ':' :: (C ++ '.' :: D)) = (do
      guardConvert (decide ((C ++ D).length = 16 ∧ 6 ≤ C.length ∧ C.length ≤ 12))
      return ⟨py "urn:epc:id:gsin" ++ ':' :: (C ++ '.' :: D), C, D, C ++ D ++ natStr (uCheck (C ++ D))⟩) := by
  have hm : Rx.gsinUri.fullmatch (py "urn:epc:id:gsin" ++ ':' :: (C ++ '.' :: D)) = true :=
    shape.2 ⟨C, D, hC, hD, rfl⟩
  unfold new
  rw [guard_true hm, ok_bind, getPart4_noColon rfl (noDot_noColon hC.2 hD.2), ok_bind, split2 hC.2.no_dot hD.2.no_dot]
  simp only [unpack2, ok_bind]
  by_cases hg : (C ++ D).length = 16 ∧ 6 ≤ C.length ∧ C.length ≤ 12
  · rw [guard_true (by simp only [decide_eq_true_eq]; exact hg), ok_bind, ok_bind,
      gsin_checksum_dec (Dec.append.2 ⟨hC.2, hD.2⟩) (by rw [hg.1])]
    rfl
  · rw [guard_false (by simp only [decide_eq_false_iff_not]; exact hg)]
    rfl

theorem new_iff {u : Str} {x : GSIN} : new u = .ok x ↔ ∃ C D, ((C ≠ [] ∧ Dec C) ∧ (D ≠ [] ∧ Dec D)) ∧
    (C.length + D.length = 16 ∧ 6 ≤ C.length ∧ C.length ≤ 12) ∧
    u = py "urn:epc:id:gsin" ++ ':' :: (C ++ '.' :: D) ∧
    x = ⟨u, C, D, C ++ D ++ natStr (uCheck (C ++ D))⟩ := by
  constructor
  · intro h
    cases hm : Rx.gsinUri.fullmatch u with
    | false => rw [new_nomatch hm] at h; cases h
    | true =>
      obtain ⟨C, D, hC, hD, rfl⟩ := shape.1 hm
      rw [new_eq hC hD] at h
      simp only [unit_bind_ok, guard_ok_iff, pure_ok, Except.ok.injEq, decide_eq_true_eq, List.length_append, Nat.add_assoc] at h
      refine ⟨C, D, ⟨hC, hD⟩, ?_, rfl, ?_⟩
      · simp_all
      · simp_all
  · rintro ⟨C, D, ⟨hC, hD⟩, hc, rfl, rfl⟩
    rw [new_eq hC hD]
    simp only [unit_bind_ok, guard_ok_iff, pure_ok, Except.ok.injEq, decide_eq_true_eq, List.length_append, Nat.add_assoc]
    simp_all

theorem new_error {u : Str} {e : Err} (h : new u = .error e) : e = .convert := by
  cases hm : Rx.gsinUri.fullmatch u with
  | false => rw [new_nomatch hm] at h; injection h with h; exact h.symm
  | true =>
    obtain ⟨C, D, hC, hD, rfl⟩ := shape.1 hm
    rw [new_eq hC hD] at h
    clear hm
    simp only [guard_bind_error, ok_bind, pure_ok, reduceCtorEq, and_false, or_false, and_self] at h
    grind

end GSIN

/-! ### SGLN -/

namespace SGLN

theorem new_nomatch {u : Str} (h : Rx.sglnUri.fullmatch u = false) : new u = .error .convert := by
  unfold new; rw [guard_false h]; rfl

theorem shape {u : Str} : Rx.sglnUri.fullmatch u = true ↔ ∃ C D S, (C ≠ [] ∧ Dec C) ∧ Dec D ∧ Lang Rx.gs3a3 S ∧
    u = py "urn:epc:id:sgln" ++ ':' :: (C ++ '.' :: (D ++ '.' :: S)) := by
  rw [fullmatch_iff]
  unfold Rx.sglnUri Rx.sglnBody
  rw [lang_lit_seq]
  simp only [lang_dotted3, lang_padded, lang_paddedOrEmpty, lang_numeric]
  constructor
  · rintro ⟨t, rfl, C, D, S, rfl, hC, hD, hS⟩
    exact ⟨C, D, S, hC, hD, hS, rfl⟩
  · rintro ⟨C, D, S, hC, hD, hS, rfl⟩
    exact ⟨_, rfl, C, D, S, rfl, hC, hD, hS⟩

theorem new_eq {C D S : Str} (hC : (C ≠ [] ∧ Dec C)) (hD : Dec D) (hS : Lang Rx.gs3a3 S) :
    new (py "urn:epc:id:sgln" ++ ':' :: (C ++ '.' :: (D ++ '.' :: S))) = (do
      guardConvert (decide ((C ++ D).length = 12 ∧ (6 ≤ C.length ∧ C.length ≤ 12) ∧ (replaceUriEscapes S).length ≤ 20))
      verifyGs3a3 S
      return ⟨py "urn:epc:id:sgln" ++ ':' :: (C ++ '.' :: (D ++ '.' :: S)), C, D, S, C ++ D ++ natStr (uCheck (C ++ D))⟩) := by
  have hm : Rx.sglnUri.fullmatch (py "urn:epc:id:sgln" ++ ':' :: (C ++ '.' :: (D ++ '.' :: S))) = true :=
    shape.2 ⟨C, D, S, hC, hD, hS, rfl⟩
  unfold new
  rw [guard_true hm, ok_bind, getPart4 rfl, ok_bind, head_colon2 hC.2.no_colon hD.no_colon,
    unpack2_take hC.2.no_dot hD.no_dot, ok_bind, uriBody_eq rfl, serial_of_body2 hC.2.no_dot hD.no_dot]
  simp only [checksum_dec (Dec.append.2 ⟨hC.2, hD⟩), ok_bind]

theorem new_iff {u : Str} {x : SGLN} : new u = .ok x ↔ ∃ C D S, ((C ≠ [] ∧ Dec C) ∧ Dec D ∧ Lang Rx.gs3a3 S) ∧
    (C.length + D.length = 12 ∧ (6 ≤ C.length ∧ C.length ≤ 12) ∧ verifyGs3a3 S = .ok () ∧ (replaceUriEscapes S).length ≤ 20) ∧
    u = py "urn:epc:id:sgln" ++ ':' :: (C ++ '.' :: (D ++ '.' :: S)) ∧
    x = ⟨u, C, D, S, C ++ D ++ natStr (uCheck (C ++ D))⟩ := by
  constructor
  · intro h
    cases hm : Rx.sglnUri.fullmatch u with
    | false => rw [new_nomatch hm] at h; cases h
    | true =>
      obtain ⟨C, D, S, hC, hD, hS, rfl⟩ := shape.1 hm
      rw [new_eq hC hD hS] at h
      simp only [unit_bind_ok, guard_ok_iff, pure_ok, Except.ok.injEq, decide_eq_true_eq, List.length_append, Nat.add_assoc] at h
      refine ⟨C, D, S, ⟨hC, hD, hS⟩, ?_, rfl, ?_⟩
      · simp_all
      · simp_all
  · rintro ⟨C, D, S, ⟨hC, hD, hS⟩, hc, rfl, rfl⟩
    rw [new_eq hC hD hS]
    simp only [unit_bind_ok, guard_ok_iff, pure_ok, Except.ok.injEq, decide_eq_true_eq, List.length_append, Nat.add_assoc]
    simp_all

theorem new_error {u : Str} {e : Err} (h : new u = .error e) : e = .convert ∨ ∃ C D S, ((C ≠ [] ∧ Dec C) ∧ Dec D ∧ Lang Rx.gs3a3 S) ∧ u = py "urn:epc:id:sgln" ++ ':' :: (C ++ '.' :: (D ++ '.' :: S)) ∧ verifyGs3a3 S = .error e := by
  cases hm : Rx.sglnUri.fullmatch u with
  | false => rw [new_nomatch hm] at h; injection h with h; exact .inl h.symm
  | true =>
    obtain ⟨C, D, S, hC, hD, hS, rfl⟩ := shape.1 hm
    rw [new_eq hC hD hS] at h
    cases hver : verifyGs3a3 S with
    | error e' =>
      by_cases hee : e' = e
      · subst hee; exact .inr ⟨C, D, S, ⟨hC, hD, hS⟩, rfl, hver⟩
      · left
        clear hm
        simp only [hver, guard_bind_error, error_bind, ok_bind, pure_ok, reduceCtorEq, and_false, or_false, Except.error.injEq, hee] at h
        try exact h.2
    | ok a =>
      left
      clear hm
      simp only [hver, guard_bind_error, error_bind, ok_bind, pure_ok, reduceCtorEq, and_false, or_false] at h
      grind

end SGLN

/-! ### GRAI -/

namespace GRAI

theorem new_nomatch {u : Str} (h : Rx.graiUri.fullmatch u = false) : new u = .error .convert := by
  unfold new; rw [guard_false h]; rfl

theorem shape {u : Str} : Rx.graiUri.fullmatch u = true ↔ ∃ C D S, (C ≠ [] ∧ Dec C) ∧ Dec D ∧ Lang Rx.gs3a3 S ∧
    u = py "urn:epc:id:grai" ++ ':' :: (C ++ '.' :: (D ++ '.' :: S)) := by
  rw [fullmatch_iff]
  unfold Rx.graiUri Rx.graiBody
  rw [lang_lit_seq]
  simp only [lang_dotted3, lang_padded, lang_paddedOrEmpty, lang_numeric]
  constructor
  · rintro ⟨t, rfl, C, D, S, rfl, hC, hD, hS⟩
    exact ⟨C, D, S, hC, hD, hS, rfl⟩
  · rintro ⟨C, D, S, hC, hD, hS, rfl⟩
    exact ⟨_, rfl, C, D, S, rfl, hC, hD, hS⟩

theorem new_eq {C D S : Str} (hC : (C ≠ [] ∧ Dec C)) (hD : Dec D) (hS : Lang Rx.gs3a3 S) :
    new (py "urn:epc:id:grai" ++ ':' :: (C ++ '.' :: (D ++ '.' :: S))) = (do
      verifyGs3a3 S
      guardConvert (decide ((C ++ D).length = 12 ∧ (6 ≤ C.length ∧ C.length ≤ 12) ∧ S.length ≤ 16))
      return ⟨py "urn:epc:id:grai" ++ ':' :: (C ++ '.' :: (D ++ '.' :: S)), C, D, S, C ++ D ++ natStr (uCheck (C ++ D)) ++ replaceUriEscapes S⟩) := by
  have hm : Rx.graiUri.fullmatch (py "urn:epc:id:grai" ++ ':' :: (C ++ '.' :: (D ++ '.' :: S))) = true :=
    shape.2 ⟨C, D, S, hC, hD, hS, rfl⟩
  unfold new
  rw [guard_true hm, ok_bind, getPart4 rfl, head_colon2 hC.2.no_colon hD.no_colon, uriBody_eq rfl,
    serial_of_body2 hC.2.no_dot hD.no_dot]
  simp only [ok_bind, unpack2_take hC.2.no_dot hD.no_dot, checksum_dec (Dec.append.2 ⟨hC.2, hD⟩)]

theorem new_iff {u : Str} {x : GRAI} : new u = .ok x ↔ ∃ C D S, ((C ≠ [] ∧ Dec C) ∧ Dec D ∧ Lang Rx.gs3a3 S) ∧
    (C.length + D.length = 12 ∧ (6 ≤ C.length ∧ C.length ≤ 12) ∧ verifyGs3a3 S = .ok () ∧ S.length ≤ 16) ∧
    u = py "urn:epc:id:grai" ++ ':' :: (C ++ '.' :: (D ++ '.' :: S)) ∧
    x = ⟨u, C, D, S, C ++ D ++ natStr (uCheck (C ++ D)) ++ replaceUriEscapes S⟩ := by
  constructor
  · intro h
    cases hm : Rx.graiUri.fullmatch u with
    | false => rw [new_nomatch hm] at h; cases h
    | true =>
      obtain ⟨C, D, S, hC, hD, hS, rfl⟩ := shape.1 hm
      rw [new_eq hC hD hS] at h
      simp only [unit_bind_ok, guard_ok_iff, pure_ok, Except.ok.injEq, decide_eq_true_eq, List.length_append, Nat.add_assoc] at h
      refine ⟨C, D, S, ⟨hC, hD, hS⟩, ?_, rfl, ?_⟩
      · simp_all
      · simp_all
  · rintro ⟨C, D, S, ⟨hC, hD, hS⟩, hc, rfl, rfl⟩
    rw [new_eq hC hD hS]
    simp only [unit_bind_ok, guard_ok_iff, pure_ok, Except.ok.injEq, decide_eq_true_eq, List.length_append, Nat.add_assoc]
    simp_all

theorem new_error {u : Str} {e : Err} (h : new u = .error e) : e = .convert ∨ ∃ C D S, ((C ≠ [] ∧ Dec C) ∧ Dec D ∧ Lang Rx.gs3a3 S) ∧ u = py "urn:epc:id:grai" ++ ':' :: (C ++ '.' :: (D ++ '.' :: S)) ∧ verifyGs3a3 S = .error e := by
  cases hm : Rx.graiUri.fullmatch u with
  | false => rw [new_nomatch hm] at h; injection h with h; exact .inl h.symm
  | true =>
    obtain ⟨C, D, S, hC, hD, hS, rfl⟩ := shape.1 hm
    rw [new_eq hC hD hS] at h
    cases hver : verifyGs3a3 S with
    | error e' =>
      by_cases hee : e' = e
      · subst hee; exact .inr ⟨C, D, S, ⟨hC, hD, hS⟩, rfl, hver⟩
      · left
        clear hm
        simp only [hver, guard_bind_error, error_bind, ok_bind, pure_ok, reduceCtorEq, and_false, or_false, Except.error.injEq, hee] at h
        try exact h.2
    | ok a =>
      left
      clear hm
      simp only [hver, guard_bind_error, error_bind, ok_bind, pure_ok, reduceCtorEq, and_false, or_false] at h
      grind

end GRAI

/-! ### GDTI -/

namespace GDTI

theorem new_nomatch {u : Str} (h : Rx.gdtiUri.fullmatch u = false) : new u = .error .convert := by
  unfold new; rw [guard_false h]; rfl

theorem shape {u : Str} : Rx.gdtiUri.fullmatch u = true ↔ ∃ C D S, (C ≠ [] ∧ Dec C) ∧ Dec D ∧ Lang Rx.gs3a3 S ∧
    u = py "urn:epc:id:gdti" ++ ':' :: (C ++ '.' :: (D ++ '.' :: S)) := by
  rw [fullmatch_iff]
  unfold Rx.gdtiUri Rx.gdtiBody
  rw [lang_lit_seq]
  simp only [lang_dotted3, lang_padded, lang_paddedOrEmpty, lang_numeric]
  constructor
  · rintro ⟨t, rfl, C, D, S, rfl, hC, hD, hS⟩
    exact ⟨C, D, S, hC, hD, hS, rfl⟩
  · rintro ⟨C, D, S, hC, hD, hS, rfl⟩
    exact ⟨_, rfl, C, D, S, rfl, hC, hD, hS⟩

theorem new_eq {C D S : Str} (hC : (C ≠ [] ∧ Dec C)) (hD : Dec D) (hS : Lang Rx.gs3a3 S) :
    new (py "urn:epc:id:gdti" ++ ':' :: (C ++ '.' :: (D ++ '.' :: S))) = (do
      verifyGs3a3 S
      guardConvert (decide ((C ++ D).length = 12 ∧ S.length ≤ 17 ∧ (6 ≤ C.length ∧ C.length ≤ 12)))
      return ⟨py "urn:epc:id:gdti" ++ ':' :: (C ++ '.' :: (D ++ '.' :: S)), C, D, S, C ++ D ++ natStr (uCheck (C ++ D)) ++ replaceUriEscapes S⟩) := by
  have hm : Rx.gdtiUri.fullmatch (py "urn:epc:id:gdti" ++ ':' :: (C ++ '.' :: (D ++ '.' :: S))) = true :=
    shape.2 ⟨C, D, S, hC, hD, hS, rfl⟩
  unfold new
  rw [guard_true hm, ok_bind, getPart4 rfl, head_colon2 hC.2.no_colon hD.no_colon, uriBody_eq rfl,
    serial_of_body2 hC.2.no_dot hD.no_dot]
  simp only [ok_bind, unpack2_take hC.2.no_dot hD.no_dot, checksum_dec (Dec.append.2 ⟨hC.2, hD⟩)]

theorem new_iff {u : Str} {x : GDTI} : new u = .ok x ↔ ∃ C D S, ((C ≠ [] ∧ Dec C) ∧ Dec D ∧ Lang Rx.gs3a3 S) ∧
    (C.length + D.length = 12 ∧ (6 ≤ C.length ∧ C.length ≤ 12) ∧ verifyGs3a3 S = .ok () ∧ S.length ≤ 17) ∧
    u = py "urn:epc:id:gdti" ++ ':' :: (C ++ '.' :: (D ++ '.' :: S)) ∧
    x = ⟨u, C, D, S, C ++ D ++ natStr (uCheck (C ++ D)) ++ replaceUriEscapes S⟩ := by
  constructor
  · intro h
    cases hm : Rx.gdtiUri.fullmatch u with
    | false => rw [new_nomatch hm] at h; cases h
    | true =>
      obtain ⟨C, D, S, hC, hD, hS, rfl⟩ := shape.1 hm
      rw [new_eq hC hD hS] at h
      simp only [unit_bind_ok, guard_ok_iff, pure_ok, Except.ok.injEq, decide_eq_true_eq, List.length_append, Nat.add_assoc] at h
      refine ⟨C, D, S, ⟨hC, hD, hS⟩, ?_, rfl, ?_⟩
      · simp_all
      · simp_all
  · rintro ⟨C, D, S, ⟨hC, hD, hS⟩, hc, rfl, rfl⟩
    rw [new_eq hC hD hS]
    simp only [unit_bind_ok, guard_ok_iff, pure_ok, Except.ok.injEq, decide_eq_true_eq, List.length_append, Nat.add_assoc]
    simp_all

theorem new_error {u : Str} {e : Err} (h : new u = .error e) : e = .convert ∨ ∃ C D S, ((C ≠ [] ∧ Dec C) ∧ Dec D ∧ Lang Rx.gs3a3 S) ∧ u = py "urn:epc:id:gdti" ++ ':' :: (C ++ '.' :: (D ++ '.' :: S)) ∧ verifyGs3a3 S = .error e := by
  cases hm : Rx.gdtiUri.fullmatch u with
  | false => rw [new_nomatch hm] at h; injection h with h; exact .inl h.symm
  | true =>
    obtain ⟨C, D, S, hC, hD, hS, rfl⟩ := shape.1 hm
    rw [new_eq hC hD hS] at h
    cases hver : verifyGs3a3 S with
    | error e' =>
      by_cases hee : e' = e
      · subst hee; exact .inr ⟨C, D, S, ⟨hC, hD, hS⟩, rfl, hver⟩
      · left
        clear hm
        simp only [hver, guard_bind_error, error_bind, ok_bind, pure_ok, reduceCtorEq, and_false, or_false, Except.error.injEq, hee] at h
        try exact h.2
    | ok a =>
      left
      clear hm
      simp only [hver, guard_bind_error, error_bind, ok_bind, pure_ok, reduceCtorEq, and_false, or_false] at h
      grind

end GDTI

/-! ### GIAI -/

namespace GIAI

theorem new_nomatch {u : Str} (h : Rx.giaiUri.fullmatch u = false) : new u = .error .convert := by
  unfold new; rw [guard_false h]; rfl

theorem shape {u : Str} : Rx.giaiUri.fullmatch u = true ↔ ∃ C S, (C ≠ [] ∧ Dec C) ∧ Lang Rx.gs3a3 S ∧
    u = py "urn:epc:id:giai" ++ ':' :: (C ++ '.' :: S) := by
  rw [fullmatch_iff]
  unfold Rx.giaiUri Rx.giaiBody
  rw [lang_lit_seq]
  simp only [lang_dotted2, lang_padded, lang_paddedOrEmpty, lang_numeric]
  constructor
  · rintro ⟨t, rfl, C, S, rfl, hC, hS⟩
    exact ⟨C, S, hC, hS, rfl⟩
  · rintro ⟨C, S, hC, hS, rfl⟩
    exact ⟨_, rfl, C, S, rfl, hC, hS⟩

theorem new_eq {C S : Str} (hC : (C ≠ [] ∧ Dec C)) (hS : Lang Rx.gs3a3 S) :
    new (py "urn:epc:id:giai" ++ ':' :: (C ++ '.' :: S)) = (do
      guardConvert (decide ((6 ≤ C.length ∧ C.length ≤ 12) ∧ (C ++ (split ':' S).headD []).length ≤ 30))
      verifyGs3a3 ((split ':' S).headD [])
      return ⟨py "urn:epc:id:giai" ++ ':' :: (C ++ '.' :: S), C, (split ':' S).headD [], C ++ replaceUriEscapes ((split ':' S).headD [])⟩) := by
  have hm : Rx.giaiUri.fullmatch (py "urn:epc:id:giai" ++ ':' :: (C ++ '.' :: S)) = true :=
    shape.2 ⟨C, S, hC, hS, rfl⟩
  unfold new
  rw [guard_true hm, ok_bind, getPart4 rfl, ok_bind, head_colon1 hC.2.no_colon, split_append_sep hC.2.no_dot]
  simp only [unpack1s, ok_bind, joinWith_split]

theorem new_iff {u : Str} {x : GIAI} : new u = .ok x ↔ ∃ C S, ((C ≠ [] ∧ Dec C) ∧ Lang Rx.gs3a3 S) ∧
    ((6 ≤ C.length ∧ C.length ≤ 12) ∧ verifyGs3a3 ((split ':' S).headD []) = .ok () ∧ C.length + ((split ':' S).headD []).length ≤ 30) ∧
    u = py "urn:epc:id:giai" ++ ':' :: (C ++ '.' :: S) ∧
    x = ⟨u, C, (split ':' S).headD [], C ++ replaceUriEscapes ((split ':' S).headD [])⟩ := by
  constructor
  · intro h
    cases hm : Rx.giaiUri.fullmatch u with
    | false => rw [new_nomatch hm] at h; cases h
    | true =>
      obtain ⟨C, S, hC, hS, rfl⟩ := shape.1 hm
      rw [new_eq hC hS] at h
      simp only [unit_bind_ok, guard_ok_iff, pure_ok, Except.ok.injEq, decide_eq_true_eq, List.length_append, Nat.add_assoc] at h
      refine ⟨C, S, ⟨hC, hS⟩, ?_, rfl, ?_⟩
      · simp_all
      · simp_all
  · rintro ⟨C, S, ⟨hC, hS⟩, hc, rfl, rfl⟩
    rw [new_eq hC hS]
    simp only [unit_bind_ok, guard_ok_iff, pure_ok, Except.ok.injEq, decide_eq_true_eq, List.length_append, Nat.add_assoc]
    simp_all

theorem new_error {u : Str} {e : Err} (h : new u = .error e) : e = .convert ∨ ∃ C S, ((C ≠ [] ∧ Dec C) ∧ Lang Rx.gs3a3 S) ∧ u = py "urn:epc:id:giai" ++ ':' :: (C ++ '.' :: S) ∧ verifyGs3a3 ((split ':' S).headD []) = .error e := by
  cases hm : Rx.giaiUri.fullmatch u with
  | false => rw [new_nomatch hm] at h; injection h with h; exact .inl h.symm
  | true =>
    obtain ⟨C, S, hC, hS, rfl⟩ := shape.1 hm
    rw [new_eq hC hS] at h
    cases hver : verifyGs3a3 ((split ':' S).headD []) with
    | error e' =>
      by_cases hee : e' = e
      · subst hee; exact .inr ⟨C, S, ⟨hC, hS⟩, rfl, hver⟩
      · left
        clear hm
        simp only [hver, guard_bind_error, error_bind, ok_bind, pure_ok, reduceCtorEq, and_false, or_false, Except.error.injEq, hee] at h
        try exact h.2
    | ok a =>
      left
      clear hm
      simp only [hver, guard_bind_error, error_bind, ok_bind, pure_ok, reduceCtorEq, and_false, or_false] at h
      grind

end GIAI

/-! ### GINC -/

namespace GINC

theorem new_nomatch {u : Str} (h : Rx.gincUri.fullmatch u = false) : new u = .error .convert := by
  unfold new; rw [guard_false h]; rfl

theorem shape {u : Str} : Rx.gincUri.fullmatch u = true ↔ ∃ C S, (C ≠ [] ∧ Dec C) ∧ Lang Rx.gs3a3 S ∧
    u = py "urn:epc:id:ginc" ++ ':' :: (C ++ '.' :: S) := by
  rw [fullmatch_iff]
  unfold Rx.gincUri Rx.gincBody
  rw [lang_lit_seq]
  simp only [lang_dotted2, lang_padded, lang_paddedOrEmpty, lang_numeric]
  constructor
  · rintro ⟨t, rfl, C, S, rfl, hC, hS⟩
    exact ⟨C, S, hC, hS, rfl⟩
  · rintro ⟨C, S, hC, hS, rfl⟩
    exact ⟨_, rfl, C, S, rfl, hC, hS⟩

theorem new_eq {C S : Str} (hC : (C ≠ [] ∧ Dec C)) (hS : Lang Rx.gs3a3 S) :
    new (py "urn:epc:id:ginc" ++ ':' :: (C ++ '.' :: S)) = (do
      verifyGs3a3 S
      guardConvert (decide (6 ≤ C.length ∧ C.length ≤ 12))
      guardConvert (decide ((replaceUriEscapes S).length ≠ 0))
      guardConvert (decide ((C ++ replaceUriEscapes S).length ≤ 30))
      return ⟨py "urn:epc:id:ginc" ++ ':' :: (C ++ '.' :: S), C ++ replaceUriEscapes S⟩) := by
  have hm : Rx.gincUri.fullmatch (py "urn:epc:id:ginc" ++ ':' :: (C ++ '.' :: S)) = true :=
    shape.2 ⟨C, S, hC, hS, rfl⟩
  unfold new
  rw [guard_true hm, ok_bind, uriBody_eq rfl, split_append_sep hC.2.no_dot]
  simp only [unpack1s, ok_bind, joinWith_split]

theorem new_iff {u : Str} {x : GINC} : new u = .ok x ↔ ∃ C S, ((C ≠ [] ∧ Dec C) ∧ Lang Rx.gs3a3 S) ∧
    ((6 ≤ C.length ∧ C.length ≤ 12) ∧ verifyGs3a3 S = .ok () ∧ (replaceUriEscapes S).length ≠ 0 ∧ C.length + (replaceUriEscapes S).length ≤ 30) ∧
    u = py "urn:epc:id:ginc" ++ ':' :: (C ++ '.' :: S) ∧
    x = ⟨u, C ++ replaceUriEscapes S⟩ := by
  constructor
  · intro h
    cases hm : Rx.gincUri.fullmatch u with
    | false => rw [new_nomatch hm] at h; cases h
    | true =>
      obtain ⟨C, S, hC, hS, rfl⟩ := shape.1 hm
      rw [new_eq hC hS] at h
      simp only [unit_bind_ok, guard_ok_iff, pure_ok, Except.ok.injEq, decide_eq_true_eq, List.length_append, Nat.add_assoc] at h
      refine ⟨C, S, ⟨hC, hS⟩, ?_, rfl, ?_⟩
      · simp_all
      · simp_all
  · rintro ⟨C, S, ⟨hC, hS⟩, hc, rfl, rfl⟩
    rw [new_eq hC hS]
    simp only [unit_bind_ok, guard_ok_iff, pure_ok, Except.ok.injEq, decide_eq_true_eq, List.length_append, Nat.add_assoc]
    simp_all

theorem new_error {u : Str} {e : Err} (h : new u = .error e) : e = .convert ∨ ∃ C S, ((C ≠ [] ∧ Dec C) ∧ Lang Rx.gs3a3 S) ∧ u = py "urn:epc:id:ginc" ++ ':' :: (C ++ '.' :: S) ∧ verifyGs3a3 S = .error e := by
  cases hm : Rx.gincUri.fullmatch u with
  | false => rw [new_nomatch hm] at h; injection h with h; exact .inl h.symm
  | true =>
    obtain ⟨C, S, hC, hS, rfl⟩ := shape.1 hm
    rw [new_eq hC hS] at h
    cases hver : verifyGs3a3 S with
    | error e' =>
      by_cases hee : e' = e
      · subst hee; exact .inr ⟨C, S, ⟨hC, hS⟩, rfl, hver⟩
      · left
        clear hm
        simp only [hver, guard_bind_error, error_bind, ok_bind, pure_ok, reduceCtorEq, and_false, or_false, Except.error.injEq, hee] at h
        try exact h.2
    | ok a =>
      left
      clear hm
      simp only [hver, guard_bind_error, error_bind, ok_bind, pure_ok, reduceCtorEq, and_false, or_false] at h
      grind

end GINC

/-! ### SGCN -/

namespace SGCN

theorem new_nomatch {u : Str} (h : Rx.sgcnUri.fullmatch u = false) : new u = .error .convert := by
  unfold new; rw [guard_false h]; rfl

theorem shape {u : Str} : Rx.sgcnUri.fullmatch u = true ↔ ∃ C D S, (C ≠ [] ∧ Dec C) ∧ Dec D ∧ (S ≠ [] ∧ Dec S) ∧
    u = py "urn:epc:id:sgcn" ++ ':' :: (C ++ '.' :: (D ++ '.' :: S)) := by
  rw [fullmatch_iff]
  unfold Rx.sgcnUri Rx.sgcnBody
  rw [lang_lit_seq]
  simp only [lang_dotted3, lang_padded, lang_paddedOrEmpty, lang_numeric]
  constructor
  · rintro ⟨t, rfl, C, D, S, rfl, hC, hD, hS⟩
    exact ⟨C, D, S, hC, hD, hS, rfl⟩
  · rintro ⟨C, D, S, hC, hD, hS, rfl⟩
    exact ⟨_, rfl, C, D, S, rfl, hC, hD, hS⟩

theorem new_eq {C D S : Str} (hC : (C ≠ [] ∧ Dec C)) (hD : Dec D) (hS : (S ≠ [] ∧ Dec S)) :
    new (py "urn:epc:id:sgcn" ++ ':' :: (C ++ '.' :: (D ++ '.' :: S))) = (do
      guardConvert (decide ((C ++ D).length = 12 ∧ S.length ≤ 12 ∧ (6 ≤ C.length ∧ C.length ≤ 12)))
      return ⟨py "urn:epc:id:sgcn" ++ ':' :: (C ++ '.' :: (D ++ '.' :: S)), C, D, S, C ++ D ++ natStr (uCheck (C ++ D)) ++ S⟩) := by
  have hm : Rx.sgcnUri.fullmatch (py "urn:epc:id:sgcn" ++ ':' :: (C ++ '.' :: (D ++ '.' :: S))) = true :=
    shape.2 ⟨C, D, S, hC, hD, hS, rfl⟩
  unfold new
  rw [guard_true hm, ok_bind, getPart4_noColon rfl (noColon3 hC.2.no_colon hD.no_colon hS.2.no_colon), ok_bind,
    split3 hC.2.no_dot hD.no_dot hS.2.no_dot]
  simp only [unpack3, ok_bind, checksum_dec (Dec.append.2 ⟨hC.2, hD⟩)]

theorem new_iff {u : Str} {x : SGCN} : new u = .ok x ↔ ∃ C D S, ((C ≠ [] ∧ Dec C) ∧ Dec D ∧ (S ≠ [] ∧ Dec S)) ∧
    (C.length + D.length = 12 ∧ S.length ≤ 12 ∧ (6 ≤ C.length ∧ C.length ≤ 12)) ∧
    u = py "urn:epc:id:sgcn" ++ ':' :: (C ++ '.' :: (D ++ '.' :: S)) ∧
    x = ⟨u, C, D, S, C ++ D ++ natStr (uCheck (C ++ D)) ++ S⟩ := by
  constructor
  · intro h
    cases hm : Rx.sgcnUri.fullmatch u with
    | false => rw [new_nomatch hm] at h; cases h
    | true =>
      obtain ⟨C, D, S, hC, hD, hS, rfl⟩ := shape.1 hm
      rw [new_eq hC hD hS] at h
      simp only [unit_bind_ok, guard_ok_iff, pure_ok, Except.ok.injEq, decide_eq_true_eq, List.length_append, Nat.add_assoc] at h
      refine ⟨C, D, S, ⟨hC, hD, hS⟩, ?_, rfl, ?_⟩
      · simp_all
      · simp_all
  · rintro ⟨C, D, S, ⟨hC, hD, hS⟩, hc, rfl, rfl⟩
    rw [new_eq hC hD hS]
    simp only [unit_bind_ok, guard_ok_iff, pure_ok, Except.ok.injEq, decide_eq_true_eq, List.length_append, Nat.add_assoc]
    simp_all

theorem new_error {u : Str} {e : Err} (h : new u = .error e) : e = .convert := by
  cases hm : Rx.sgcnUri.fullmatch u with
  | false => rw [new_nomatch hm] at h; injection h with h; exact h.symm
  | true =>
    obtain ⟨C, D, S, hC, hD, hS, rfl⟩ := shape.1 hm
    rw [new_eq hC hD hS] at h
    clear hm
    simp only [guard_bind_error, ok_bind, pure_ok, reduceCtorEq, and_false, or_false, and_self] at h
    grind

end SGCN

/-! ### CPI -/

namespace CPI

theorem new_nomatch {u : Str} (h : Rx.cpiUri.fullmatch u = false) : new u = .error .convert := by
  unfold new; rw [guard_false h]; rfl

theorem shape {u : Str} : Rx.cpiUri.fullmatch u = true ↔ ∃ C D S, (C ≠ [] ∧ Dec C) ∧ Lang Rx.cpref D ∧ Num S ∧
    u = py "urn:epc:id:cpi" ++ ':' :: (C ++ '.' :: (D ++ '.' :: S)) := by
  rw [fullmatch_iff]
  unfold Rx.cpiUri Rx.cpiBody
  rw [lang_lit_seq]
  simp only [lang_dotted3, lang_padded, lang_paddedOrEmpty, lang_numeric]
  constructor
  · rintro ⟨t, rfl, C, D, S, rfl, hC, hD, hS⟩
    exact ⟨C, D, S, hC, hD, hS, rfl⟩
  · rintro ⟨C, D, S, hC, hD, hS, rfl⟩
    exact ⟨_, rfl, C, D, S, rfl, hC, hD, hS⟩

theorem new_eq {C D S : Str} (hC : (C ≠ [] ∧ Dec C)) (hD : Lang Rx.cpref D) (hS : Num S) :
    new (py "urn:epc:id:cpi" ++ ':' :: (C ++ '.' :: (D ++ '.' :: S))) = (do
      guardConvert (decide ((C ++ D).length ≤ 30 ∧ S.length ≤ 12 ∧ (6 ≤ C.length ∧ C.length ≤ 12)))
      return ⟨py "urn:epc:id:cpi" ++ ':' :: (C ++ '.' :: (D ++ '.' :: S)), C, D, S⟩) := by
  have hm : Rx.cpiUri.fullmatch (py "urn:epc:id:cpi" ++ ':' :: (C ++ '.' :: (D ++ '.' :: S))) = true :=
    shape.2 ⟨C, D, S, hC, hD, hS, rfl⟩
  unfold new
  rw [guard_true hm, ok_bind, getPart4_noColon rfl (noColon3 hC.2.no_colon (cpref_no_colon hD) hS.dec.no_colon), ok_bind,
    split3 hC.2.no_dot (cpref_no_dot hD) hS.dec.no_dot]
  simp only [unpack3, ok_bind]

theorem new_iff {u : Str} {x : CPI} : new u = .ok x ↔ ∃ C D S, ((C ≠ [] ∧ Dec C) ∧ Lang Rx.cpref D ∧ Num S) ∧
    (C.length + D.length ≤ 30 ∧ S.length ≤ 12 ∧ (6 ≤ C.length ∧ C.length ≤ 12)) ∧
    u = py "urn:epc:id:cpi" ++ ':' :: (C ++ '.' :: (D ++ '.' :: S)) ∧
    x = ⟨u, C, D, S⟩ := by
  constructor
  · intro h
    cases hm : Rx.cpiUri.fullmatch u with
    | false => rw [new_nomatch hm] at h; cases h
    | true =>
      obtain ⟨C, D, S, hC, hD, hS, rfl⟩ := shape.1 hm
      rw [new_eq hC hD hS] at h
      simp only [unit_bind_ok, guard_ok_iff, pure_ok, Except.ok.injEq, decide_eq_true_eq, List.length_append, Nat.add_assoc] at h
      refine ⟨C, D, S, ⟨hC, hD, hS⟩, ?_, rfl, ?_⟩
      · simp_all
      · simp_all
  · rintro ⟨C, D, S, ⟨hC, hD, hS⟩, hc, rfl, rfl⟩
    rw [new_eq hC hD hS]
    simp only [unit_bind_ok, guard_ok_iff, pure_ok, Except.ok.injEq, decide_eq_true_eq, List.length_append, Nat.add_assoc]
    simp_all

theorem new_error {u : Str} {e : Err} (h : new u = .error e) : e = .convert := by
  cases hm : Rx.cpiUri.fullmatch u with
  | false => rw [new_nomatch hm] at h; injection h with h; exact h.symm
  | true =>
    obtain ⟨C, D, S, hC, hD, hS, rfl⟩ := shape.1 hm
    rw [new_eq hC hD hS] at h
    clear hm
    simp only [guard_bind_error, ok_bind, pure_ok, reduceCtorEq, and_false, or_false, and_self] at h
    grind

end CPI

/-! ### GID -/

namespace GID

theorem new_nomatch {u : Str} (h : Rx.gidUri.fullmatch u = false) : new u = .error .convert := by
  unfold new; rw [guard_false h]; rfl

theorem shape {u : Str} : Rx.gidUri.fullmatch u = true ↔ ∃ C D S, Num C ∧ Num D ∧ Num S ∧
    u = py "urn:epc:id:gid" ++ ':' :: (C ++ '.' :: (D ++ '.' :: S)) := by
  rw [fullmatch_iff]
  unfold Rx.gidUri Rx.gidBody
  rw [lang_lit_seq]
  simp only [lang_dotted3, lang_padded, lang_paddedOrEmpty, lang_numeric]
  constructor
  · rintro ⟨t, rfl, C, D, S, rfl, hC, hD, hS⟩
    exact ⟨C, D, S, hC, hD, hS, rfl⟩
  · rintro ⟨C, D, S, hC, hD, hS, rfl⟩
    exact ⟨_, rfl, C, D, S, rfl, hC, hD, hS⟩

theorem new_eq {C D S : Str} (hC : Num C) (hD : Num D) (hS : Num S) :
    new (py "urn:epc:id:gid" ++ ':' :: (C ++ '.' :: (D ++ '.' :: S))) = (do
      guardConvert (decide (decVal C < 2 ^ 28))
      guardConvert (decide (decVal D < 2 ^ 24))
      guardConvert (decide (decVal S < 2 ^ 36))
      return ⟨py "urn:epc:id:gid" ++ ':' :: (C ++ '.' :: (D ++ '.' :: S)), C, D, S⟩) := by
  have hm : Rx.gidUri.fullmatch (py "urn:epc:id:gid" ++ ':' :: (C ++ '.' :: (D ++ '.' :: S))) = true :=
    shape.2 ⟨C, D, S, hC, hD, hS, rfl⟩
  unfold new
  rw [guard_true hm, ok_bind, getPart4_noColon rfl (noColon3 hC.dec.no_colon hD.dec.no_colon hS.dec.no_colon), ok_bind,
    split3 hC.dec.no_dot hD.dec.no_dot hS.dec.no_dot]
  have hz : (decide (S.length > 1) && S.head? == some '0') = false := by
    have := hS.no_zero
    simpa only [Bool.and_eq_false_iff, decide_eq_false_iff_not, beq_eq_false_iff_ne, Decidable.not_and_iff_not_or_not] using this
  simp only [unpack3, ok_bind]
  rw [pyInt_decimal hC.dec hC.ne_nil, ok_bind, decide_lt_pow]
  rw [pyInt_decimal hD.dec hD.ne_nil, ok_bind, decide_lt_pow]
  rw [pyInt_decimal hS.dec hS.ne_nil, ok_bind, decide_lt_pow, hz, Bool.not_false, Bool.and_true]

theorem new_iff {u : Str} {x : GID} : new u = .ok x ↔ ∃ C D S, (Num C ∧ Num D ∧ Num S) ∧
    (decVal C < 2 ^ 28 ∧ decVal D < 2 ^ 24 ∧ decVal S < 2 ^ 36) ∧
    u = py "urn:epc:id:gid" ++ ':' :: (C ++ '.' :: (D ++ '.' :: S)) ∧
    x = ⟨u, C, D, S⟩ := by
  constructor
  · intro h
    cases hm : Rx.gidUri.fullmatch u with
    | false => rw [new_nomatch hm] at h; cases h
    | true =>
      obtain ⟨C, D, S, hC, hD, hS, rfl⟩ := shape.1 hm
      rw [new_eq hC hD hS] at h
      simp only [unit_bind_ok, guard_ok_iff, pure_ok, Except.ok.injEq, decide_eq_true_eq, List.length_append, Nat.add_assoc] at h
      refine ⟨C, D, S, ⟨hC, hD, hS⟩, ?_, rfl, ?_⟩
      · simp_all
      · simp_all
  · rintro ⟨C, D, S, ⟨hC, hD, hS⟩, hc, rfl, rfl⟩
    rw [new_eq hC hD hS]
    simp only [unit_bind_ok, guard_ok_iff, pure_ok, Except.ok.injEq, decide_eq_true_eq, List.length_append, Nat.add_assoc]
    simp_all

theorem new_error {u : Str} {e : Err} (h : new u = .error e) : e = .convert := by
  cases hm : Rx.gidUri.fullmatch u with
  | false => rw [new_nomatch hm] at h; injection h with h; exact h.symm
  | true =>
    obtain ⟨C, D, S, hC, hD, hS, rfl⟩ := shape.1 hm
    rw [new_eq hC hD hS] at h
    clear hm
    simp only [guard_bind_error, ok_bind, pure_ok, reduceCtorEq, and_false, or_false, and_self] at h
    grind

end GID

/-! ### USDOD -/

namespace USDOD

theorem new_nomatch {u : Str} (h : Rx.usdodUri.fullmatch u = false) : new u = .error .convert := by
  unfold new; rw [guard_false h]; rfl

theorem shape {u : Str} : Rx.usdodUri.fullmatch u = true ↔ ∃ C S, Lang Rx.cage C ∧ Num S ∧
    u = py "urn:epc:id:usdod" ++ ':' :: (C ++ '.' :: S) := by
  rw [fullmatch_iff]
  unfold Rx.usdodUri Rx.usdodBody
  rw [lang_lit_seq]
  simp only [lang_dotted2, lang_padded, lang_paddedOrEmpty, lang_numeric]
  constructor
  · rintro ⟨t, rfl, C, S, rfl, hC, hS⟩
    exact ⟨C, S, hC, hS, rfl⟩
  · rintro ⟨C, S, hC, hS, rfl⟩
    exact ⟨_, rfl, C, S, rfl, hC, hS⟩

theorem new_eq {C S : Str} (hC : Lang Rx.cage C) (hS : Num S) :
    new (py "urn:epc:id:usdod" ++ ':' :: (C ++ '.' :: S)) = (do
      guardConvert (decide (decVal S < 2 ^ 36))
      return ⟨py "urn:epc:id:usdod" ++ ':' :: (C ++ '.' :: S), C, S⟩) := by
  have hm : Rx.usdodUri.fullmatch (py "urn:epc:id:usdod" ++ ':' :: (C ++ '.' :: S)) = true :=
    shape.2 ⟨C, S, hC, hS, rfl⟩
  unfold new
  rw [guard_true hm, ok_bind, getPart4_noColon rfl (noColon2 (cage_no_colon hC) hS.dec.no_colon), ok_bind,
    split2 (cage_no_dot hC) hS.dec.no_dot]
  have hz : (decide (S.length > 1) && S.head? == some '0') = false := by
    have := hS.no_zero
    simpa only [Bool.and_eq_false_iff, decide_eq_false_iff_not, beq_eq_false_iff_ne, Decidable.not_and_iff_not_or_not] using this
  simp only [unpack2, ok_bind]
  rw [pyInt_decimal hS.dec hS.ne_nil, ok_bind, decide_lt_pow, hz, Bool.not_false, Bool.and_true]

theorem new_iff {u : Str} {x : USDOD} : new u = .ok x ↔ ∃ C S, (Lang Rx.cage C ∧ Num S) ∧
    (decVal S < 2 ^ 36) ∧
    u = py "urn:epc:id:usdod" ++ ':' :: (C ++ '.' :: S) ∧
    x = ⟨u, C, S⟩ := by
  constructor
  · intro h
    cases hm : Rx.usdodUri.fullmatch u with
    | false => rw [new_nomatch hm] at h; cases h
    | true =>
      obtain ⟨C, S, hC, hS, rfl⟩ := shape.1 hm
      rw [new_eq hC hS] at h
      simp only [unit_bind_ok, guard_ok_iff, pure_ok, Except.ok.injEq, decide_eq_true_eq, List.length_append, Nat.add_assoc] at h
      refine ⟨C, S, ⟨hC, hS⟩, ?_, rfl, ?_⟩
      · simp_all
      · simp_all
  · rintro ⟨C, S, ⟨hC, hS⟩, hc, rfl, rfl⟩
    rw [new_eq hC hS]
    simp only [unit_bind_ok, guard_ok_iff, pure_ok, Except.ok.injEq, decide_eq_true_eq, List.length_append, Nat.add_assoc]
    simp_all

theorem new_error {u : Str} {e : Err} (h : new u = .error e) : e = .convert := by
  cases hm : Rx.usdodUri.fullmatch u with
  | false => rw [new_nomatch hm] at h; injection h with h; exact h.symm
  | true =>
    obtain ⟨C, S, hC, hS, rfl⟩ := shape.1 hm
    rw [new_eq hC hS] at h
    clear hm
    simp only [guard_bind_error, ok_bind, pure_ok, reduceCtorEq, and_false, or_false, and_self] at h
    grind

end USDOD

/-! ### ADI -/

namespace ADI

theorem new_nomatch {u : Str} (h : Rx.adiUri.fullmatch u = false) : new u = .error .convert := by
  unfold new; rw [guard_false h]; rfl

theorem shape {u : Str} : Rx.adiUri.fullmatch u = true ↔ ∃ C D S, Lang Rx.cage C ∧ Lang (.star Rx.adiChar) D ∧ Lang (.seq (opt (lit (py "%23"))) (plus Rx.adiChar)) S ∧
    u = py "urn:epc:id:adi" ++ ':' :: (C ++ '.' :: (D ++ '.' :: S)) := by
  rw [fullmatch_iff]
  unfold Rx.adiUri Rx.adiBody
  rw [lang_lit_seq]
  simp only [lang_dotted3, lang_padded, lang_paddedOrEmpty, lang_numeric]
  constructor
  · rintro ⟨t, rfl, C, D, S, rfl, hC, hD, hS⟩
    exact ⟨C, D, S, hC, hD, hS, rfl⟩
  · rintro ⟨C, D, S, hC, hD, hS, rfl⟩
    exact ⟨_, rfl, C, D, S, rfl, hC, hD, hS⟩

theorem new_eq {C D S : Str} (hC : Lang Rx.cage C) (hD : Lang (.star Rx.adiChar) D) (hS : Lang (.seq (opt (lit (py "%23"))) (plus Rx.adiChar)) S) :
    new (py "urn:epc:id:adi" ++ ':' :: (C ++ '.' :: (D ++ '.' :: S))) = (do
      guardConvert (decide ((replaceAll (py "%2F") (py "/") D).length ≤ 32))
      guardConvert (decide (1 ≤ (replaceAll (py "%23") (py "#") (replaceAll (py "%2F") (py "/") S)).length ∧
        (replaceAll (py "%23") (py "#") (replaceAll (py "%2F") (py "/") S)).length ≤ 30))
      return ⟨py "urn:epc:id:adi" ++ ':' :: (C ++ '.' :: (D ++ '.' :: S)), C, D, S⟩) := by
  have hm : Rx.adiUri.fullmatch (py "urn:epc:id:adi" ++ ':' :: (C ++ '.' :: (D ++ '.' :: S))) = true :=
    shape.2 ⟨C, D, S, hC, hD, hS, rfl⟩
  unfold new
  rw [guard_true hm, ok_bind, getPart4_noColon rfl (noColon3 (cage_no_colon hC) (adiPart_no_colon hD) (adiSerial_no_colon hS)), ok_bind,
    split3 (cage_no_dot hC) (adiPart_no_dot hD) (adiSerial_no_dot hS)]
  simp only [unpack3, ok_bind]

theorem new_iff {u : Str} {x : ADI} : new u = .ok x ↔ ∃ C D S, (Lang Rx.cage C ∧ Lang (.star Rx.adiChar) D ∧ Lang (.seq (opt (lit (py "%23"))) (plus Rx.adiChar)) S) ∧
    ((replaceAll (py "%2F") (py "/") D).length ≤ 32 ∧ 1 ≤ (replaceAll (py "%23") (py "#") (replaceAll (py "%2F") (py "/") S)).length ∧ (replaceAll (py "%23") (py "#") (replaceAll (py "%2F") (py "/") S)).length ≤ 30) ∧
    u = py "urn:epc:id:adi" ++ ':' :: (C ++ '.' :: (D ++ '.' :: S)) ∧
    x = ⟨u, C, D, S⟩ := by
  constructor
  · intro h
    cases hm : Rx.adiUri.fullmatch u with
    | false => rw [new_nomatch hm] at h; cases h
    | true =>
      obtain ⟨C, D, S, hC, hD, hS, rfl⟩ := shape.1 hm
      rw [new_eq hC hD hS] at h
      simp only [unit_bind_ok, guard_ok_iff, pure_ok, Except.ok.injEq, decide_eq_true_eq, List.length_append, Nat.add_assoc] at h
      refine ⟨C, D, S, ⟨hC, hD, hS⟩, ?_, rfl, ?_⟩
      · simp_all
      · simp_all
  · rintro ⟨C, D, S, ⟨hC, hD, hS⟩, hc, rfl, rfl⟩
    rw [new_eq hC hD hS]
    simp only [unit_bind_ok, guard_ok_iff, pure_ok, Except.ok.injEq, decide_eq_true_eq, List.length_append, Nat.add_assoc]
    simp_all

theorem new_error {u : Str} {e : Err} (h : new u = .error e) : e = .convert := by
  cases hm : Rx.adiUri.fullmatch u with
  | false => rw [new_nomatch hm] at h; injection h with h; exact h.symm
  | true =>
    obtain ⟨C, D, S, hC, hD, hS, rfl⟩ := shape.1 hm
    rw [new_eq hC hD hS] at h
    clear hm
    simp only [guard_bind_error, ok_bind, pure_ok, reduceCtorEq, and_false, or_false, and_self] at h
    grind

end ADI

/-! ### UPUI -/

namespace UPUI

theorem new_nomatch {u : Str} (h : Rx.upuiUri.fullmatch u = false) : new u = .error .convert := by
  unfold new; rw [guard_false h]; rfl

theorem shape {u : Str} : Rx.upuiUri.fullmatch u = true ↔ ∃ C I S, (C ≠ [] ∧ Dec C) ∧ Dec I ∧ Lang Rx.gs3a3 S ∧
    u = py "urn:epc:id:upui" ++ ':' :: (C ++ '.' :: (I ++ '.' :: S)) := by
  rw [fullmatch_iff]
  unfold Rx.upuiUri Rx.upuiBody
  rw [lang_lit_seq]
  simp only [lang_dotted3, lang_padded, lang_paddedOrEmpty, lang_numeric]
  constructor
  · rintro ⟨t, rfl, C, I, S, rfl, hC, hI, hS⟩
    exact ⟨C, I, S, hC, hI, hS, rfl⟩
  · rintro ⟨C, I, S, hC, hI, hS, rfl⟩
    exact ⟨_, rfl, C, I, S, rfl, hC, hI, hS⟩

theorem new_eq {C I S : Str} (hC : (C ≠ [] ∧ Dec C)) (hI : Dec I) (hS : Lang Rx.gs3a3 S) :
    new (py "urn:epc:id:upui" ++ ':' :: (C ++ '.' :: (I ++ '.' :: S))) = (do
      verifyGs3a3 S
      guardConvert (decide (1 ≤ (replaceUriEscapes S).length ∧ (replaceUriEscapes S).length ≤ 28))
      guardConvert (decide ((C ++ I).length = 13))
      return ⟨py "urn:epc:id:upui" ++ ':' :: (C ++ '.' :: (I ++ '.' :: S)), C, I, replaceUriEscapes S⟩) := by
  have hm : Rx.upuiUri.fullmatch (py "urn:epc:id:upui" ++ ':' :: (C ++ '.' :: (I ++ '.' :: S))) = true :=
    shape.2 ⟨C, I, S, hC, hI, hS, rfl⟩
  unfold new
  rw [guard_true hm, ok_bind, uriBody_eq rfl, split_append_sep hC.2.no_dot, split_append_sep hI.no_dot]
  simp only [unpack2s, ok_bind, joinWith_split]

theorem new_iff {u : Str} {x : UPUI} : new u = .ok x ↔ ∃ C I S, ((C ≠ [] ∧ Dec C) ∧ Dec I ∧ Lang Rx.gs3a3 S) ∧
    (C.length + I.length = 13 ∧ verifyGs3a3 S = .ok () ∧ 1 ≤ (replaceUriEscapes S).length ∧ (replaceUriEscapes S).length ≤ 28) ∧
    u = py "urn:epc:id:upui" ++ ':' :: (C ++ '.' :: (I ++ '.' :: S)) ∧
    x = ⟨u, C, I, replaceUriEscapes S⟩ := by
  constructor
  · intro h
    cases hm : Rx.upuiUri.fullmatch u with
    | false => rw [new_nomatch hm] at h; cases h
    | true =>
      obtain ⟨C, I, S, hC, hI, hS, rfl⟩ := shape.1 hm
      rw [new_eq hC hI hS] at h
      simp only [unit_bind_ok, guard_ok_iff, pure_ok, Except.ok.injEq, decide_eq_true_eq, List.length_append, Nat.add_assoc] at h
      refine ⟨C, I, S, ⟨hC, hI, hS⟩, ?_, rfl, ?_⟩
      · simp_all
      · simp_all
  · rintro ⟨C, I, S, ⟨hC, hI, hS⟩, hc, rfl, rfl⟩
    rw [new_eq hC hI hS]
    simp only [unit_bind_ok, guard_ok_iff, pure_ok, Except.ok.injEq, decide_eq_true_eq, List.length_append, Nat.add_assoc]
    simp_all

theorem new_error {u : Str} {e : Err} (h : new u = .error e) : e = .convert ∨ ∃ C I S, ((C ≠ [] ∧ Dec C) ∧ Dec I ∧ Lang Rx.gs3a3 S) ∧ u = py "urn:epc:id:upui" ++ ':' :: (C ++ '.' :: (I ++ '.' :: S)) ∧ verifyGs3a3 S = .error e := by
  cases hm : Rx.upuiUri.fullmatch u with
  | false => rw [new_nomatch hm] at h; injection h with h; exact .inl h.symm
  | true =>
    obtain ⟨C, I, S, hC, hI, hS, rfl⟩ := shape.1 hm
    rw [new_eq hC hI hS] at h
    cases hver : verifyGs3a3 S with
    | error e' =>
      by_cases hee : e' = e
      · subst hee; exact .inr ⟨C, I, S, ⟨hC, hI, hS⟩, rfl, hver⟩
      · left
        clear hm
        simp only [hver, guard_bind_error, error_bind, ok_bind, pure_ok, reduceCtorEq, and_false, or_false, Except.error.injEq, hee] at h
        try exact h.2
    | ok a =>
      left
      clear hm
      simp only [hver, guard_bind_error, error_bind, ok_bind, pure_ok, reduceCtorEq, and_false, or_false] at h
      grind

end UPUI

/-! ### LGTIN -/

namespace LGTIN

theorem new_nomatch {u : Str} (h : Rx.lgtinClass.fullmatch u = false) : new u = .error .convert := by
  unfold new; rw [guard_false h]; rfl

theorem shape {u : Str} : Rx.lgtinClass.fullmatch u = true ↔ ∃ C I S, (C ≠ [] ∧ Dec C) ∧ (I ≠ [] ∧ Dec I) ∧ Lang Rx.gs3a3 S ∧
    u = py "urn:epc:class:lgtin" ++ ':' :: (C ++ '.' :: (I ++ '.' :: S)) := by
  rw [fullmatch_iff]
  unfold Rx.lgtinClass
  rw [lang_lit_seq]
  simp only [lang_dotted3, lang_padded, lang_paddedOrEmpty, lang_numeric]
  constructor
  · rintro ⟨t, rfl, C, I, S, rfl, hC, hI, hS⟩
    exact ⟨C, I, S, hC, hI, hS, rfl⟩
  · rintro ⟨C, I, S, hC, hI, hS, rfl⟩
    exact ⟨_, rfl, C, I, S, rfl, hC, hI, hS⟩

theorem new_eq {C I S : Str} (hC : (C ≠ [] ∧ Dec C)) (hI : (I ≠ [] ∧ Dec I)) (hS : Lang Rx.gs3a3 S) :
    new (py "urn:epc:class:lgtin" ++ ':' :: (C ++ '.' :: (I ++ '.' :: S))) = (do
      verifyGs3a3 S
      guardConvert (decide (6 ≤ C.length ∧ C.length ≤ 12))
      guardConvert (decide ((C ++ I).length = 13))
      guardConvert (decide (1 ≤ (replaceUriEscapes S).length ∧ (replaceUriEscapes S).length ≤ 20))
      return ⟨py "urn:epc:class:lgtin" ++ ':' :: (C ++ '.' :: (I ++ '.' :: S)), C, I, replaceUriEscapes S, padLeft '0' 14 (keyBody C I ++ natStr (uCheck (keyBody C I)))⟩) := by
  have hm : Rx.lgtinClass.fullmatch (py "urn:epc:class:lgtin" ++ ':' :: (C ++ '.' :: (I ++ '.' :: S))) = true :=
    shape.2 ⟨C, I, S, hC, hI, hS, rfl⟩
  unfold new
  rw [guard_true hm, ok_bind, uriBody_eq rfl, split_append_sep hC.2.no_dot, split_append_sep hI.2.no_dot]
  simp only [unpack2s, ok_bind, joinWith_split]
  cases I with
  | nil => exact absurd rfl hI.1
  | cons i I =>
    have hk := dec_keyBody hC.2 hI.2
    have e : i :: C ++ (i :: I).drop 1 = keyBody C (i :: I) := rfl
    have hg : getIdx (i :: I) 0 = .ok i := rfl
    simp only [hg, ok_bind, e, checksum_dec hk]
    rw [zfill_dec (Dec.append.2 ⟨hk, dec_natStr _⟩)]

theorem new_iff {u : Str} {x : LGTIN} : new u = .ok x ↔ ∃ C I S, ((C ≠ [] ∧ Dec C) ∧ (I ≠ [] ∧ Dec I) ∧ Lang Rx.gs3a3 S) ∧
    (C.length + I.length = 13 ∧ (6 ≤ C.length ∧ C.length ≤ 12) ∧ verifyGs3a3 S = .ok () ∧ 1 ≤ (replaceUriEscapes S).length ∧ (replaceUriEscapes S).length ≤ 20) ∧
    u = py "urn:epc:class:lgtin" ++ ':' :: (C ++ '.' :: (I ++ '.' :: S)) ∧
    x = ⟨u, C, I, replaceUriEscapes S, padLeft '0' 14 (keyBody C I ++ natStr (uCheck (keyBody C I)))⟩ := by
  constructor
  · intro h
    cases hm : Rx.lgtinClass.fullmatch u with
    | false => rw [new_nomatch hm] at h; cases h
    | true =>
      obtain ⟨C, I, S, hC, hI, hS, rfl⟩ := shape.1 hm
      rw [new_eq hC hI hS] at h
      simp only [unit_bind_ok, guard_ok_iff, pure_ok, Except.ok.injEq, decide_eq_true_eq, List.length_append, Nat.add_assoc] at h
      refine ⟨C, I, S, ⟨hC, hI, hS⟩, ?_, rfl, ?_⟩
      · simp_all
      · simp_all
  · rintro ⟨C, I, S, ⟨hC, hI, hS⟩, hc, rfl, rfl⟩
    rw [new_eq hC hI hS]
    simp only [unit_bind_ok, guard_ok_iff, pure_ok, Except.ok.injEq, decide_eq_true_eq, List.length_append, Nat.add_assoc]
    simp_all

theorem new_error {u : Str} {e : Err} (h : new u = .error e) : e = .convert ∨ ∃ C I S, ((C ≠ [] ∧ Dec C) ∧ (I ≠ [] ∧ Dec I) ∧ Lang Rx.gs3a3 S) ∧ u = py "urn:epc:class:lgtin" ++ ':' :: (C ++ '.' :: (I ++ '.' :: S)) ∧ verifyGs3a3 S = .error e := by
  cases hm : Rx.lgtinClass.fullmatch u with
  | false => rw [new_nomatch hm] at h; injection h with h; exact .inl h.symm
  | true =>
    obtain ⟨C, I, S, hC, hI, hS, rfl⟩ := shape.1 hm
    rw [new_eq hC hI hS] at h
    cases hver : verifyGs3a3 S with
    | error e' =>
      by_cases hee : e' = e
      · subst hee; exact .inr ⟨C, I, S, ⟨hC, hI, hS⟩, rfl, hver⟩
      · left
        clear hm
        simp only [hver, guard_bind_error, error_bind, ok_bind, pure_ok, reduceCtorEq, and_false, or_false, Except.error.injEq, hee] at h
        try exact h.2
    | ok a =>
      left
      clear hm
      simp only [hver, guard_bind_error, error_bind, ok_bind, pure_ok, reduceCtorEq, and_false, or_false] at h
      grind

end LGTIN

/-! ### ITIP -/

namespace ITIP

theorem new_nomatch {u : Str} (h : Rx.itipUri.fullmatch u = false) : new u = .error .convert := by
  unfold new; rw [guard_false h]; rfl

theorem shape {u : Str} : Rx.itipUri.fullmatch u = true ↔ ∃ C I A B S, (C ≠ [] ∧ Dec C) ∧ (I ≠ [] ∧ Dec I) ∧ (A ≠ [] ∧ Dec A) ∧ (B ≠ [] ∧ Dec B) ∧ Lang Rx.gs3a3 S ∧
    u = py "urn:epc:id:itip" ++ ':' :: (C ++ '.' :: (I ++ '.' :: (A ++ '.' :: (B ++ '.' :: S)))) := by
  rw [fullmatch_iff]
  unfold Rx.itipUri
  rw [lang_lit_seq]
  simp only [lang_itip, lang_padded, lang_paddedOrEmpty, lang_numeric]
  constructor
  · rintro ⟨t, rfl, C, I, A, B, S, rfl, hC, hI, hA, hB, hS⟩
    exact ⟨C, I, A, B, S, hC, hI, hA, hB, hS, rfl⟩
  · rintro ⟨C, I, A, B, S, hC, hI, hA, hB, hS, rfl⟩
    exact ⟨_, rfl, C, I, A, B, S, rfl, hC, hI, hA, hB, hS⟩

theorem new_eq {C I A B S : Str} (hC : (C ≠ [] ∧ Dec C)) (hI : (I ≠ [] ∧ Dec I)) (hA : (A ≠ [] ∧ Dec A)) (hB : (B ≠ [] ∧ Dec B)) (hS : Lang Rx.gs3a3 S) :
    new (py "urn:epc:id:itip" ++ ':' :: (C ++ '.' :: (I ++ '.' :: (A ++ '.' :: (B ++ '.' :: S))))) = (do
      verifyGs3a3 S
      guardConvert (decide ((C ++ I ++ A ++ B).length = 17 ∧
        (1 ≤ (replaceUriEscapes S).length ∧ (replaceUriEscapes S).length ≤ 20) ∧ (6 ≤ C.length ∧ C.length ≤ 12)))
      return ⟨py "urn:epc:id:itip" ++ ':' :: (C ++ '.' :: (I ++ '.' :: (A ++ '.' :: (B ++ '.' :: S)))), C, I, A, B, S⟩) := by
  have hm : Rx.itipUri.fullmatch (py "urn:epc:id:itip" ++ ':' :: (C ++ '.' :: (I ++ '.' :: (A ++ '.' :: (B ++ '.' :: S))))) = true :=
    shape.2 ⟨C, I, A, B, S, hC, hI, hA, hB, hS, rfl⟩
  unfold new
  rw [guard_true hm, ok_bind, uriBody_eq rfl, split_append_sep hC.2.no_dot, split_append_sep hI.2.no_dot,
    split_append_sep hA.2.no_dot, split_append_sep hB.2.no_dot]
  simp only [unpack4s, ok_bind, joinWith_split]

theorem new_iff {u : Str} {x : ITIP} : new u = .ok x ↔ ∃ C I A B S, ((C ≠ [] ∧ Dec C) ∧ (I ≠ [] ∧ Dec I) ∧ (A ≠ [] ∧ Dec A) ∧ (B ≠ [] ∧ Dec B) ∧ Lang Rx.gs3a3 S) ∧
    (C.length + (I.length + (A.length + B.length)) = 17 ∧ (6 ≤ C.length ∧ C.length ≤ 12) ∧ verifyGs3a3 S = .ok () ∧ 1 ≤ (replaceUriEscapes S).length ∧ (replaceUriEscapes S).length ≤ 20) ∧
    u = py "urn:epc:id:itip" ++ ':' :: (C ++ '.' :: (I ++ '.' :: (A ++ '.' :: (B ++ '.' :: S)))) ∧
    x = ⟨u, C, I, A, B, S⟩ := by
  constructor
  · intro h
    cases hm : Rx.itipUri.fullmatch u with
    | false => rw [new_nomatch hm] at h; cases h
    | true =>
      obtain ⟨C, I, A, B, S, hC, hI, hA, hB, hS, rfl⟩ := shape.1 hm
      rw [new_eq hC hI hA hB hS] at h
      simp only [unit_bind_ok, guard_ok_iff, pure_ok, Except.ok.injEq, decide_eq_true_eq, List.length_append, Nat.add_assoc] at h
      refine ⟨C, I, A, B, S, ⟨hC, hI, hA, hB, hS⟩, ?_, rfl, ?_⟩
      · simp_all
      · simp_all
  · rintro ⟨C, I, A, B, S, ⟨hC, hI, hA, hB, hS⟩, hc, rfl, rfl⟩
    rw [new_eq hC hI hA hB hS]
    simp only [unit_bind_ok, guard_ok_iff, pure_ok, Except.ok.injEq, decide_eq_true_eq, List.length_append, Nat.add_assoc]
    simp_all

theorem new_error {u : Str} {e : Err} (h : new u = .error e) : e = .convert ∨ ∃ C I A B S, ((C ≠ [] ∧ Dec C) ∧ (I ≠ [] ∧ Dec I) ∧ (A ≠ [] ∧ Dec A) ∧ (B ≠ [] ∧ Dec B) ∧ Lang Rx.gs3a3 S) ∧ u = py "urn:epc:id:itip" ++ ':' :: (C ++ '.' :: (I ++ '.' :: (A ++ '.' :: (B ++ '.' :: S)))) ∧ verifyGs3a3 S = .error e := by
  cases hm : Rx.itipUri.fullmatch u with
  | false => rw [new_nomatch hm] at h; injection h with h; exact .inl h.symm
  | true =>
    obtain ⟨C, I, A, B, S, hC, hI, hA, hB, hS, rfl⟩ := shape.1 hm
    rw [new_eq hC hI hA hB hS] at h
    cases hver : verifyGs3a3 S with
    | error e' =>
      by_cases hee : e' = e
      · subst hee; exact .inr ⟨C, I, A, B, S, ⟨hC, hI, hA, hB, hS⟩, rfl, hver⟩
      · left
        clear hm
        simp only [hver, guard_bind_error, error_bind, ok_bind, pure_ok, reduceCtorEq, and_false, or_false, Except.error.injEq, hee] at h
        try exact h.2
    | ok a =>
      left
      clear hm
      simp only [hver, guard_bind_error, error_bind, ok_bind, pure_ok, reduceCtorEq, and_false, or_false] at h
      grind

end ITIP

end Epc
