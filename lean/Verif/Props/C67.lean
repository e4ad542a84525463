/-
C67: exactly which strings the constructors of the schemes with a free-form serial accept, and exactly which strings make them raise
ValueError and OverflowError — for every string, escapes that are not canonical included.  (All other strings raise ConvertException:
last part of each theorem.)

The percent signs of the serial are read as follows (`Spec/Pieces.lean`).  The serial is cut before and after every `%dd`, two decimal
digits.  A piece that starts with a percent sign is read, as a whole, as a hexadecimal number in Python's notation: the `%dd`, but also
everything from a `%` with a letter to the next `%dd` or the end.  If this is no number, ValueError; if it is too big for a character
code, ValueError or, from 2^31 on, OverflowError; if it is not the code of a character of the GS1 set 82, ConvertException.

C48 says the same for serials in the canonical form, in simpler terms.
-/
import Verif.Lemmas.Pieces
import Verif.Lemmas.NewMore

namespace Epc
open Spec Re

private theorem guard_only {b : Bool} {e : Err} (h : guardConvert b = .error e) : e = .convert := by
  cases b with
  | true => rw [guard_true rfl] at h; cases h
  | false => rw [guard_false rfl] at h; injection h with h; exact h.symm

local macro "only_convert" : tactic => `(tactic| (
  intro e' h'
  repeat (first
    | (cases h'; done)
    | (rw [bind_error_iff] at h'
       rcases h' with h' | ⟨_, _, h'⟩
       · exact guard_only h'))
  done))

private theorem verify_head {s : Str} (h : SerialText s) :
    (verifyGs3a3 (s.takeWhile (· ≠ ':')) = .ok () ↔ s.takeWhile (· ≠ ':') ≠ [] ∧ PercentsOk (s.takeWhile (· ≠ ':'))) ∧
    (verifyGs3a3 (s.takeWhile (· ≠ ':')) = .error .value ↔ PercentsValueError (s.takeWhile (· ≠ ':'))) ∧
    (verifyGs3a3 (s.takeWhile (· ≠ ':')) = .error .overflow ↔ PercentsOverflow (s.takeWhile (· ≠ ':'))) :=
  verify_spec (fun c hc => (h.2.1 c ((List.takeWhile_sublist _).subset hc)).1) (percentHex_takeWhile h.2.2)

private theorem sgtin_error (u : Str) (e : Err) (he : e ≠ .convert) : SGTIN.new u = .error e ↔
    ∃ C I S, u = py "urn:epc:id:sgtin:" ++ joinWith '.' [C, I, S] ∧ UDigits C ∧ UDigits I ∧
      C.length + I.length = 13 ∧ 6 ≤ C.length ∧ C.length ≤ 12 ∧ SerialText S ∧ verifyGs3a3 S = .error e := by
  simp only [uDigits_iff, ← lang_serialText]
  constructor
  · intro h
    cases hm : Rx.sgtinUri.fullmatch u with
    | false => rw [SGTIN.new_nomatch hm] at h; injection h with h; exact absurd h.symm he
    | true =>
      obtain ⟨C, I, S, ⟨hCn, hC⟩, ⟨hIn, hI⟩, hS, rfl⟩ := SGTIN.shape.1 hm
      rw [SGTIN.new_eq ⟨hCn, hC⟩ ⟨hIn, hI⟩ hS] at h
      rw [guard_err_iff he, decide_eq_true_eq, List.length_append] at h
      obtain ⟨hc, h⟩ := h
      rw [ctor_error_iff he (by only_convert)] at h
      exact ⟨C, I, S, rfl, hC, hI, by omega, by omega, by omega, hS, h⟩
  · rintro ⟨C, I, S, rfl, hC, hI, h0, h1, h2, hS, hv⟩
    have hCn : C ≠ [] := by first | assumption | (rintro rfl; simp only [List.length_nil] at *; omega)
    have hIn : I ≠ [] := by first | assumption | (rintro rfl; simp only [List.length_nil] at *; omega)
    show SGTIN.new (py "urn:epc:id:sgtin" ++ ':' :: (C ++ '.' :: (I ++ '.' :: S))) = _
    rw [SGTIN.new_eq ⟨hCn, hC⟩ ⟨hIn, hI⟩ hS]
    rw [guard_err_iff he, decide_eq_true_eq, List.length_append]
    refine ⟨by first | omega | exact ⟨⟨h0, h1⟩, h2⟩, ?_⟩
    rw [ctor_error_iff he (by only_convert)]
    exact hv

/-- SGTIN. -/
theorem C67_sgtin (u : Str) :
    ((∃ x, SGTIN.new u = .ok x) ↔ ∃ C I S, u = py "urn:epc:id:sgtin:" ++ joinWith '.' [C, I, S] ∧ UDigits C ∧ UDigits I ∧
        C.length + I.length = 13 ∧ 6 ≤ C.length ∧ C.length ≤ 12 ∧ SerialText S ∧ PercentsOk S ∧ (unescapeWith uriEscapes S).length ≤ 20) ∧
    (SGTIN.new u = .error .value ↔ ∃ C I S, u = py "urn:epc:id:sgtin:" ++ joinWith '.' [C, I, S] ∧ UDigits C ∧ UDigits I ∧
        C.length + I.length = 13 ∧ 6 ≤ C.length ∧ C.length ≤ 12 ∧ SerialText S ∧ PercentsValueError S) ∧
    (SGTIN.new u = .error .overflow ↔ ∃ C I S, u = py "urn:epc:id:sgtin:" ++ joinWith '.' [C, I, S] ∧ UDigits C ∧ UDigits I ∧
        C.length + I.length = 13 ∧ 6 ≤ C.length ∧ C.length ≤ 12 ∧ SerialText S ∧ PercentsOverflow S) ∧
    (∀ e, SGTIN.new u = .error e → e = .convert ∨ e = .value ∨ e = .overflow) := by
  refine ⟨⟨?_, ?_⟩, ?_, ?_, ?_⟩
  · rintro ⟨x, hx⟩
    obtain ⟨C, I, S, ⟨⟨hCn, hC⟩, ⟨hIn, hI⟩, hS⟩, ⟨h0, ⟨h1, h2⟩, hv, _, hl⟩, hu, _⟩ := SGTIN.new_iff.1 hx
    replace hS := serialText_of_lang hS
    rw [replaceUriEscapes_eq] at hl
    exact ⟨C, I, S, hu, (uDigits_iff _).2 hC, (uDigits_iff _).2 hI, h0, h1, h2, hS, (verify_serialText hS).1.1 hv, hl⟩
  · rintro ⟨C, I, S, hu, hC, hI, h0, h1, h2, hS, hv, hl⟩
    have hCn : C ≠ [] := by first | assumption | (rintro rfl; simp only [List.length_nil] at *; omega)
    have hIn : I ≠ [] := by first | assumption | (rintro rfl; simp only [List.length_nil] at *; omega)
    simp only [uDigits_iff] at hC hI
    rw [← replaceUriEscapes_eq] at hl
    replace hv := (verify_serialText hS).1.2 hv
    exact ⟨_, SGTIN.new_iff.2 ⟨C, I, S, ⟨⟨hCn, hC⟩, ⟨hIn, hI⟩, lang_of_serialText hS⟩, ⟨h0, ⟨h1, h2⟩, hv, unescape_pos hS.1, hl⟩, hu, rfl⟩⟩
  · rw [sgtin_error u _ (by decide)]
    constructor
    · rintro ⟨C, I, S, hu, hC, hI, h0, h1, h2, hS, hv⟩
      exact ⟨C, I, S, hu, hC, hI, h0, h1, h2, hS, (verify_serialText hS).2.1.1 hv⟩
    · rintro ⟨C, I, S, hu, hC, hI, h0, h1, h2, hS, hv⟩
      exact ⟨C, I, S, hu, hC, hI, h0, h1, h2, hS, (verify_serialText hS).2.1.2 hv⟩
  · rw [sgtin_error u _ (by decide)]
    constructor
    · rintro ⟨C, I, S, hu, hC, hI, h0, h1, h2, hS, hv⟩
      exact ⟨C, I, S, hu, hC, hI, h0, h1, h2, hS, (verify_serialText hS).2.2.1 hv⟩
    · rintro ⟨C, I, S, hu, hC, hI, h0, h1, h2, hS, hv⟩
      exact ⟨C, I, S, hu, hC, hI, h0, h1, h2, hS, (verify_serialText hS).2.2.2 hv⟩
  · intro e he
    rcases SGTIN.new_error he with h | h
    · exact .inl h
    · obtain ⟨_, _, _, _, _, h⟩ := h
      exact verify_error h

private theorem lgtin_error (u : Str) (e : Err) (he : e ≠ .convert) : LGTIN.new u = .error e ↔
    ∃ C I S, u = py "urn:epc:class:lgtin:" ++ joinWith '.' [C, I, S] ∧ UDigits C ∧ UDigits I ∧
      C ≠ [] ∧ I ≠ [] ∧ SerialText S ∧ verifyGs3a3 S = .error e := by
  simp only [uDigits_iff, ← lang_serialText]
  constructor
  · intro h
    cases hm : Rx.lgtinClass.fullmatch u with
    | false => rw [LGTIN.new_nomatch hm] at h; injection h with h; exact absurd h.symm he
    | true =>
      obtain ⟨C, I, S, ⟨hCn, hC⟩, ⟨hIn, hI⟩, hS, rfl⟩ := LGTIN.shape.1 hm
      rw [LGTIN.new_eq ⟨hCn, hC⟩ ⟨hIn, hI⟩ hS] at h
      rw [ctor_error_iff he (by only_convert)] at h
      exact ⟨C, I, S, rfl, hC, hI, hCn, hIn, hS, h⟩
  · rintro ⟨C, I, S, rfl, hC, hI, h0, h1, hS, hv⟩
    have hCn : C ≠ [] := by first | assumption | (rintro rfl; simp only [List.length_nil] at *; omega)
    have hIn : I ≠ [] := by first | assumption | (rintro rfl; simp only [List.length_nil] at *; omega)
    show LGTIN.new (py "urn:epc:class:lgtin" ++ ':' :: (C ++ '.' :: (I ++ '.' :: S))) = _
    rw [LGTIN.new_eq ⟨hCn, hC⟩ ⟨hIn, hI⟩ hS]
    rw [ctor_error_iff he (by only_convert)]
    exact hv

/-- LGTIN. -/
theorem C67_lgtin (u : Str) :
    ((∃ x, LGTIN.new u = .ok x) ↔ ∃ C I S, u = py "urn:epc:class:lgtin:" ++ joinWith '.' [C, I, S] ∧ UDigits C ∧ UDigits I ∧
        C.length + I.length = 13 ∧ 6 ≤ C.length ∧ C.length ≤ 12 ∧ SerialText S ∧ PercentsOk S ∧ (unescapeWith uriEscapes S).length ≤ 20) ∧
    (LGTIN.new u = .error .value ↔ ∃ C I S, u = py "urn:epc:class:lgtin:" ++ joinWith '.' [C, I, S] ∧ UDigits C ∧ UDigits I ∧
        C ≠ [] ∧ I ≠ [] ∧ SerialText S ∧ PercentsValueError S) ∧
    (LGTIN.new u = .error .overflow ↔ ∃ C I S, u = py "urn:epc:class:lgtin:" ++ joinWith '.' [C, I, S] ∧ UDigits C ∧ UDigits I ∧
        C ≠ [] ∧ I ≠ [] ∧ SerialText S ∧ PercentsOverflow S) ∧
    (∀ e, LGTIN.new u = .error e → e = .convert ∨ e = .value ∨ e = .overflow) := by
  refine ⟨⟨?_, ?_⟩, ?_, ?_, ?_⟩
  · rintro ⟨x, hx⟩
    obtain ⟨C, I, S, ⟨⟨hCn, hC⟩, ⟨hIn, hI⟩, hS⟩, ⟨h0, ⟨h1, h2⟩, hv, _, hl⟩, hu, _⟩ := LGTIN.new_iff.1 hx
    replace hS := serialText_of_lang hS
    rw [replaceUriEscapes_eq] at hl
    exact ⟨C, I, S, hu, (uDigits_iff _).2 hC, (uDigits_iff _).2 hI, h0, h1, h2, hS, (verify_serialText hS).1.1 hv, hl⟩
  · rintro ⟨C, I, S, hu, hC, hI, h0, h1, h2, hS, hv, hl⟩
    have hCn : C ≠ [] := by first | assumption | (rintro rfl; simp only [List.length_nil] at *; omega)
    have hIn : I ≠ [] := by first | assumption | (rintro rfl; simp only [List.length_nil] at *; omega)
    simp only [uDigits_iff] at hC hI
    rw [← replaceUriEscapes_eq] at hl
    replace hv := (verify_serialText hS).1.2 hv
    exact ⟨_, LGTIN.new_iff.2 ⟨C, I, S, ⟨⟨hCn, hC⟩, ⟨hIn, hI⟩, lang_of_serialText hS⟩, ⟨h0, ⟨h1, h2⟩, hv, unescape_pos hS.1, hl⟩, hu, rfl⟩⟩
  · rw [lgtin_error u _ (by decide)]
    constructor
    · rintro ⟨C, I, S, hu, hC, hI, h0, h1, hS, hv⟩
      exact ⟨C, I, S, hu, hC, hI, h0, h1, hS, (verify_serialText hS).2.1.1 hv⟩
    · rintro ⟨C, I, S, hu, hC, hI, h0, h1, hS, hv⟩
      exact ⟨C, I, S, hu, hC, hI, h0, h1, hS, (verify_serialText hS).2.1.2 hv⟩
  · rw [lgtin_error u _ (by decide)]
    constructor
    · rintro ⟨C, I, S, hu, hC, hI, h0, h1, hS, hv⟩
      exact ⟨C, I, S, hu, hC, hI, h0, h1, hS, (verify_serialText hS).2.2.1 hv⟩
    · rintro ⟨C, I, S, hu, hC, hI, h0, h1, hS, hv⟩
      exact ⟨C, I, S, hu, hC, hI, h0, h1, hS, (verify_serialText hS).2.2.2 hv⟩
  · intro e he
    rcases LGTIN.new_error he with h | h
    · exact .inl h
    · obtain ⟨_, _, _, _, _, h⟩ := h
      exact verify_error h

private theorem sgln_error (u : Str) (e : Err) (he : e ≠ .convert) : SGLN.new u = .error e ↔
    ∃ C I S, u = py "urn:epc:id:sgln:" ++ joinWith '.' [C, I, S] ∧ UDigits C ∧ UDigits I ∧
      C.length + I.length = 12 ∧ 6 ≤ C.length ∧ C.length ≤ 12 ∧ (unescapeWith uriEscapes S).length ≤ 20 ∧ SerialText S ∧ verifyGs3a3 S = .error e := by
  simp only [uDigits_iff, ← lang_serialText, ← replaceUriEscapes_eq]
  constructor
  · intro h
    cases hm : Rx.sglnUri.fullmatch u with
    | false => rw [SGLN.new_nomatch hm] at h; injection h with h; exact absurd h.symm he
    | true =>
      obtain ⟨C, I, S, ⟨hCn, hC⟩, hI, hS, rfl⟩ := SGLN.shape.1 hm
      rw [SGLN.new_eq ⟨hCn, hC⟩ hI hS] at h
      rw [guard_err_iff he, decide_eq_true_eq, List.length_append] at h
      obtain ⟨hc, h⟩ := h
      rw [ctor_error_iff he (by only_convert)] at h
      exact ⟨C, I, S, rfl, hC, hI, by omega, by omega, by omega, by omega, hS, h⟩
  · rintro ⟨C, I, S, rfl, hC, hI, h0, h1, h2, h3, hS, hv⟩
    have hCn : C ≠ [] := by first | assumption | (rintro rfl; simp only [List.length_nil] at *; omega)
    show SGLN.new (py "urn:epc:id:sgln" ++ ':' :: (C ++ '.' :: (I ++ '.' :: S))) = _
    rw [SGLN.new_eq ⟨hCn, hC⟩ hI hS]
    rw [guard_err_iff he, decide_eq_true_eq, List.length_append]
    refine ⟨by first | omega | exact ⟨⟨h0, h1⟩, h2⟩, ?_⟩
    rw [ctor_error_iff he (by only_convert)]
    exact hv

/-- SGLN. -/
theorem C67_sgln (u : Str) :
    ((∃ x, SGLN.new u = .ok x) ↔ ∃ C I S, u = py "urn:epc:id:sgln:" ++ joinWith '.' [C, I, S] ∧ UDigits C ∧ UDigits I ∧
        C.length + I.length = 12 ∧ 6 ≤ C.length ∧ C.length ≤ 12 ∧ SerialText S ∧ PercentsOk S ∧ (unescapeWith uriEscapes S).length ≤ 20) ∧
    (SGLN.new u = .error .value ↔ ∃ C I S, u = py "urn:epc:id:sgln:" ++ joinWith '.' [C, I, S] ∧ UDigits C ∧ UDigits I ∧
        C.length + I.length = 12 ∧ 6 ≤ C.length ∧ C.length ≤ 12 ∧ (unescapeWith uriEscapes S).length ≤ 20 ∧ SerialText S ∧ PercentsValueError S) ∧
    (SGLN.new u = .error .overflow ↔ ∃ C I S, u = py "urn:epc:id:sgln:" ++ joinWith '.' [C, I, S] ∧ UDigits C ∧ UDigits I ∧
        C.length + I.length = 12 ∧ 6 ≤ C.length ∧ C.length ≤ 12 ∧ (unescapeWith uriEscapes S).length ≤ 20 ∧ SerialText S ∧ PercentsOverflow S) ∧
    (∀ e, SGLN.new u = .error e → e = .convert ∨ e = .value ∨ e = .overflow) := by
  refine ⟨⟨?_, ?_⟩, ?_, ?_, ?_⟩
  · rintro ⟨x, hx⟩
    obtain ⟨C, I, S, ⟨⟨hCn, hC⟩, hI, hS⟩, ⟨h0, ⟨h1, h2⟩, hv, hl⟩, hu, _⟩ := SGLN.new_iff.1 hx
    replace hS := serialText_of_lang hS
    rw [replaceUriEscapes_eq] at hl
    exact ⟨C, I, S, hu, (uDigits_iff _).2 hC, (uDigits_iff _).2 hI, h0, h1, h2, hS, (verify_serialText hS).1.1 hv, hl⟩
  · rintro ⟨C, I, S, hu, hC, hI, h0, h1, h2, hS, hv, hl⟩
    have hCn : C ≠ [] := by first | assumption | (rintro rfl; simp only [List.length_nil] at *; omega)
    simp only [uDigits_iff] at hC hI
    rw [← replaceUriEscapes_eq] at hl
    replace hv := (verify_serialText hS).1.2 hv
    exact ⟨_, SGLN.new_iff.2 ⟨C, I, S, ⟨⟨hCn, hC⟩, hI, lang_of_serialText hS⟩, ⟨h0, ⟨h1, h2⟩, hv, hl⟩, hu, rfl⟩⟩
  · rw [sgln_error u _ (by decide)]
    constructor
    · rintro ⟨C, I, S, hu, hC, hI, h0, h1, h2, h3, hS, hv⟩
      exact ⟨C, I, S, hu, hC, hI, h0, h1, h2, h3, hS, (verify_serialText hS).2.1.1 hv⟩
    · rintro ⟨C, I, S, hu, hC, hI, h0, h1, h2, h3, hS, hv⟩
      exact ⟨C, I, S, hu, hC, hI, h0, h1, h2, h3, hS, (verify_serialText hS).2.1.2 hv⟩
  · rw [sgln_error u _ (by decide)]
    constructor
    · rintro ⟨C, I, S, hu, hC, hI, h0, h1, h2, h3, hS, hv⟩
      exact ⟨C, I, S, hu, hC, hI, h0, h1, h2, h3, hS, (verify_serialText hS).2.2.1 hv⟩
    · rintro ⟨C, I, S, hu, hC, hI, h0, h1, h2, h3, hS, hv⟩
      exact ⟨C, I, S, hu, hC, hI, h0, h1, h2, h3, hS, (verify_serialText hS).2.2.2 hv⟩
  · intro e he
    rcases SGLN.new_error he with h | h
    · exact .inl h
    · obtain ⟨_, _, _, _, _, h⟩ := h
      exact verify_error h

private theorem grai_error (u : Str) (e : Err) (he : e ≠ .convert) : GRAI.new u = .error e ↔
    ∃ C I S, u = py "urn:epc:id:grai:" ++ joinWith '.' [C, I, S] ∧ UDigits C ∧ UDigits I ∧
      C ≠ [] ∧ SerialText S ∧ verifyGs3a3 S = .error e := by
  simp only [uDigits_iff, ← lang_serialText]
  constructor
  · intro h
    cases hm : Rx.graiUri.fullmatch u with
    | false => rw [GRAI.new_nomatch hm] at h; injection h with h; exact absurd h.symm he
    | true =>
      obtain ⟨C, I, S, ⟨hCn, hC⟩, hI, hS, rfl⟩ := GRAI.shape.1 hm
      rw [GRAI.new_eq ⟨hCn, hC⟩ hI hS] at h
      rw [ctor_error_iff he (by only_convert)] at h
      exact ⟨C, I, S, rfl, hC, hI, hCn, hS, h⟩
  · rintro ⟨C, I, S, rfl, hC, hI, h0, hS, hv⟩
    have hCn : C ≠ [] := by first | assumption | (rintro rfl; simp only [List.length_nil] at *; omega)
    show GRAI.new (py "urn:epc:id:grai" ++ ':' :: (C ++ '.' :: (I ++ '.' :: S))) = _
    rw [GRAI.new_eq ⟨hCn, hC⟩ hI hS]
    rw [ctor_error_iff he (by only_convert)]
    exact hv

/-- GRAI. -/
theorem C67_grai (u : Str) :
    ((∃ x, GRAI.new u = .ok x) ↔ ∃ C I S, u = py "urn:epc:id:grai:" ++ joinWith '.' [C, I, S] ∧ UDigits C ∧ UDigits I ∧
        C.length + I.length = 12 ∧ 6 ≤ C.length ∧ C.length ≤ 12 ∧ SerialText S ∧ PercentsOk S ∧ S.length ≤ 16) ∧
    (GRAI.new u = .error .value ↔ ∃ C I S, u = py "urn:epc:id:grai:" ++ joinWith '.' [C, I, S] ∧ UDigits C ∧ UDigits I ∧
        C ≠ [] ∧ SerialText S ∧ PercentsValueError S) ∧
    (GRAI.new u = .error .overflow ↔ ∃ C I S, u = py "urn:epc:id:grai:" ++ joinWith '.' [C, I, S] ∧ UDigits C ∧ UDigits I ∧
        C ≠ [] ∧ SerialText S ∧ PercentsOverflow S) ∧
    (∀ e, GRAI.new u = .error e → e = .convert ∨ e = .value ∨ e = .overflow) := by
  refine ⟨⟨?_, ?_⟩, ?_, ?_, ?_⟩
  · rintro ⟨x, hx⟩
    obtain ⟨C, I, S, ⟨⟨hCn, hC⟩, hI, hS⟩, ⟨h0, ⟨h1, h2⟩, hv, hl⟩, hu, _⟩ := GRAI.new_iff.1 hx
    replace hS := serialText_of_lang hS
    exact ⟨C, I, S, hu, (uDigits_iff _).2 hC, (uDigits_iff _).2 hI, h0, h1, h2, hS, (verify_serialText hS).1.1 hv, hl⟩
  · rintro ⟨C, I, S, hu, hC, hI, h0, h1, h2, hS, hv, hl⟩
    have hCn : C ≠ [] := by first | assumption | (rintro rfl; simp only [List.length_nil] at *; omega)
    simp only [uDigits_iff] at hC hI
    replace hv := (verify_serialText hS).1.2 hv
    exact ⟨_, GRAI.new_iff.2 ⟨C, I, S, ⟨⟨hCn, hC⟩, hI, lang_of_serialText hS⟩, ⟨h0, ⟨h1, h2⟩, hv, hl⟩, hu, rfl⟩⟩
  · rw [grai_error u _ (by decide)]
    constructor
    · rintro ⟨C, I, S, hu, hC, hI, h0, hS, hv⟩
      exact ⟨C, I, S, hu, hC, hI, h0, hS, (verify_serialText hS).2.1.1 hv⟩
    · rintro ⟨C, I, S, hu, hC, hI, h0, hS, hv⟩
      exact ⟨C, I, S, hu, hC, hI, h0, hS, (verify_serialText hS).2.1.2 hv⟩
  · rw [grai_error u _ (by decide)]
    constructor
    · rintro ⟨C, I, S, hu, hC, hI, h0, hS, hv⟩
      exact ⟨C, I, S, hu, hC, hI, h0, hS, (verify_serialText hS).2.2.1 hv⟩
    · rintro ⟨C, I, S, hu, hC, hI, h0, hS, hv⟩
      exact ⟨C, I, S, hu, hC, hI, h0, hS, (verify_serialText hS).2.2.2 hv⟩
  · intro e he
    rcases GRAI.new_error he with h | h
    · exact .inl h
    · obtain ⟨_, _, _, _, _, h⟩ := h
      exact verify_error h

private theorem gdti_error (u : Str) (e : Err) (he : e ≠ .convert) : GDTI.new u = .error e ↔
    ∃ C I S, u = py "urn:epc:id:gdti:" ++ joinWith '.' [C, I, S] ∧ UDigits C ∧ UDigits I ∧
      C ≠ [] ∧ SerialText S ∧ verifyGs3a3 S = .error e := by
  simp only [uDigits_iff, ← lang_serialText]
  constructor
  · intro h
    cases hm : Rx.gdtiUri.fullmatch u with
    | false => rw [GDTI.new_nomatch hm] at h; injection h with h; exact absurd h.symm he
    | true =>
      obtain ⟨C, I, S, ⟨hCn, hC⟩, hI, hS, rfl⟩ := GDTI.shape.1 hm
      rw [GDTI.new_eq ⟨hCn, hC⟩ hI hS] at h
      rw [ctor_error_iff he (by only_convert)] at h
      exact ⟨C, I, S, rfl, hC, hI, hCn, hS, h⟩
  · rintro ⟨C, I, S, rfl, hC, hI, h0, hS, hv⟩
    have hCn : C ≠ [] := by first | assumption | (rintro rfl; simp only [List.length_nil] at *; omega)
    show GDTI.new (py "urn:epc:id:gdti" ++ ':' :: (C ++ '.' :: (I ++ '.' :: S))) = _
    rw [GDTI.new_eq ⟨hCn, hC⟩ hI hS]
    rw [ctor_error_iff he (by only_convert)]
    exact hv

/-- GDTI. -/
theorem C67_gdti (u : Str) :
    ((∃ x, GDTI.new u = .ok x) ↔ ∃ C I S, u = py "urn:epc:id:gdti:" ++ joinWith '.' [C, I, S] ∧ UDigits C ∧ UDigits I ∧
        C.length + I.length = 12 ∧ 6 ≤ C.length ∧ C.length ≤ 12 ∧ SerialText S ∧ PercentsOk S ∧ S.length ≤ 17) ∧
    (GDTI.new u = .error .value ↔ ∃ C I S, u = py "urn:epc:id:gdti:" ++ joinWith '.' [C, I, S] ∧ UDigits C ∧ UDigits I ∧
        C ≠ [] ∧ SerialText S ∧ PercentsValueError S) ∧
    (GDTI.new u = .error .overflow ↔ ∃ C I S, u = py "urn:epc:id:gdti:" ++ joinWith '.' [C, I, S] ∧ UDigits C ∧ UDigits I ∧
        C ≠ [] ∧ SerialText S ∧ PercentsOverflow S) ∧
    (∀ e, GDTI.new u = .error e → e = .convert ∨ e = .value ∨ e = .overflow) := by
  refine ⟨⟨?_, ?_⟩, ?_, ?_, ?_⟩
  · rintro ⟨x, hx⟩
    obtain ⟨C, I, S, ⟨⟨hCn, hC⟩, hI, hS⟩, ⟨h0, ⟨h1, h2⟩, hv, hl⟩, hu, _⟩ := GDTI.new_iff.1 hx
    replace hS := serialText_of_lang hS
    exact ⟨C, I, S, hu, (uDigits_iff _).2 hC, (uDigits_iff _).2 hI, h0, h1, h2, hS, (verify_serialText hS).1.1 hv, hl⟩
  · rintro ⟨C, I, S, hu, hC, hI, h0, h1, h2, hS, hv, hl⟩
    have hCn : C ≠ [] := by first | assumption | (rintro rfl; simp only [List.length_nil] at *; omega)
    simp only [uDigits_iff] at hC hI
    replace hv := (verify_serialText hS).1.2 hv
    exact ⟨_, GDTI.new_iff.2 ⟨C, I, S, ⟨⟨hCn, hC⟩, hI, lang_of_serialText hS⟩, ⟨h0, ⟨h1, h2⟩, hv, hl⟩, hu, rfl⟩⟩
  · rw [gdti_error u _ (by decide)]
    constructor
    · rintro ⟨C, I, S, hu, hC, hI, h0, hS, hv⟩
      exact ⟨C, I, S, hu, hC, hI, h0, hS, (verify_serialText hS).2.1.1 hv⟩
    · rintro ⟨C, I, S, hu, hC, hI, h0, hS, hv⟩
      exact ⟨C, I, S, hu, hC, hI, h0, hS, (verify_serialText hS).2.1.2 hv⟩
  · rw [gdti_error u _ (by decide)]
    constructor
    · rintro ⟨C, I, S, hu, hC, hI, h0, hS, hv⟩
      exact ⟨C, I, S, hu, hC, hI, h0, hS, (verify_serialText hS).2.2.1 hv⟩
    · rintro ⟨C, I, S, hu, hC, hI, h0, hS, hv⟩
      exact ⟨C, I, S, hu, hC, hI, h0, hS, (verify_serialText hS).2.2.2 hv⟩
  · intro e he
    rcases GDTI.new_error he with h | h
    · exact .inl h
    · obtain ⟨_, _, _, _, _, h⟩ := h
      exact verify_error h

private theorem ginc_error (u : Str) (e : Err) (he : e ≠ .convert) : GINC.new u = .error e ↔
    ∃ C S, u = py "urn:epc:id:ginc:" ++ joinWith '.' [C, S] ∧ UDigits C ∧
      C ≠ [] ∧ SerialText S ∧ verifyGs3a3 S = .error e := by
  simp only [uDigits_iff, ← lang_serialText]
  constructor
  · intro h
    cases hm : Rx.gincUri.fullmatch u with
    | false => rw [GINC.new_nomatch hm] at h; injection h with h; exact absurd h.symm he
    | true =>
      obtain ⟨C, S, ⟨hCn, hC⟩, hS, rfl⟩ := GINC.shape.1 hm
      rw [GINC.new_eq ⟨hCn, hC⟩ hS] at h
      rw [ctor_error_iff he (by only_convert)] at h
      exact ⟨C, S, rfl, hC, hCn, hS, h⟩
  · rintro ⟨C, S, rfl, hC, h0, hS, hv⟩
    have hCn : C ≠ [] := by first | assumption | (rintro rfl; simp only [List.length_nil] at *; omega)
    show GINC.new (py "urn:epc:id:ginc" ++ ':' :: (C ++ '.' :: S)) = _
    rw [GINC.new_eq ⟨hCn, hC⟩ hS]
    rw [ctor_error_iff he (by only_convert)]
    exact hv

/-- GINC. -/
theorem C67_ginc (u : Str) :
    ((∃ x, GINC.new u = .ok x) ↔ ∃ C S, u = py "urn:epc:id:ginc:" ++ joinWith '.' [C, S] ∧ UDigits C ∧
        6 ≤ C.length ∧ C.length ≤ 12 ∧ SerialText S ∧ PercentsOk S ∧ C.length + (unescapeWith uriEscapes S).length ≤ 30) ∧
    (GINC.new u = .error .value ↔ ∃ C S, u = py "urn:epc:id:ginc:" ++ joinWith '.' [C, S] ∧ UDigits C ∧
        C ≠ [] ∧ SerialText S ∧ PercentsValueError S) ∧
    (GINC.new u = .error .overflow ↔ ∃ C S, u = py "urn:epc:id:ginc:" ++ joinWith '.' [C, S] ∧ UDigits C ∧
        C ≠ [] ∧ SerialText S ∧ PercentsOverflow S) ∧
    (∀ e, GINC.new u = .error e → e = .convert ∨ e = .value ∨ e = .overflow) := by
  refine ⟨⟨?_, ?_⟩, ?_, ?_, ?_⟩
  · rintro ⟨x, hx⟩
    obtain ⟨C, S, ⟨⟨hCn, hC⟩, hS⟩, ⟨⟨h1, h2⟩, hv, _, hl⟩, hu, _⟩ := GINC.new_iff.1 hx
    replace hS := serialText_of_lang hS
    rw [replaceUriEscapes_eq] at hl
    exact ⟨C, S, hu, (uDigits_iff _).2 hC, h1, h2, hS, (verify_serialText hS).1.1 hv, hl⟩
  · rintro ⟨C, S, hu, hC, h1, h2, hS, hv, hl⟩
    have hCn : C ≠ [] := by first | assumption | (rintro rfl; simp only [List.length_nil] at *; omega)
    simp only [uDigits_iff] at hC
    rw [← replaceUriEscapes_eq] at hl
    replace hv := (verify_serialText hS).1.2 hv
    exact ⟨_, GINC.new_iff.2 ⟨C, S, ⟨⟨hCn, hC⟩, lang_of_serialText hS⟩, ⟨⟨h1, h2⟩, hv, Nat.pos_iff_ne_zero.1 (unescape_pos hS.1), hl⟩, hu, rfl⟩⟩
  · rw [ginc_error u _ (by decide)]
    constructor
    · rintro ⟨C, S, hu, hC, h0, hS, hv⟩
      exact ⟨C, S, hu, hC, h0, hS, (verify_serialText hS).2.1.1 hv⟩
    · rintro ⟨C, S, hu, hC, h0, hS, hv⟩
      exact ⟨C, S, hu, hC, h0, hS, (verify_serialText hS).2.1.2 hv⟩
  · rw [ginc_error u _ (by decide)]
    constructor
    · rintro ⟨C, S, hu, hC, h0, hS, hv⟩
      exact ⟨C, S, hu, hC, h0, hS, (verify_serialText hS).2.2.1 hv⟩
    · rintro ⟨C, S, hu, hC, h0, hS, hv⟩
      exact ⟨C, S, hu, hC, h0, hS, (verify_serialText hS).2.2.2 hv⟩
  · intro e he
    rcases GINC.new_error he with h | h
    · exact .inl h
    · obtain ⟨_, _, _, _, h⟩ := h
      exact verify_error h

private theorem giai_error (u : Str) (e : Err) (he : e ≠ .convert) : GIAI.new u = .error e ↔
    ∃ C S, u = py "urn:epc:id:giai:" ++ joinWith '.' [C, S] ∧ UDigits C ∧
      6 ≤ C.length ∧ C.length ≤ 12 ∧ C.length + (S.takeWhile (· ≠ ':')).length ≤ 30 ∧ SerialText S ∧ verifyGs3a3 (S.takeWhile (· ≠ ':')) = .error e := by
  simp only [uDigits_iff, ← lang_serialText]
  constructor
  · intro h
    cases hm : Rx.giaiUri.fullmatch u with
    | false => rw [GIAI.new_nomatch hm] at h; injection h with h; exact absurd h.symm he
    | true =>
      obtain ⟨C, S, ⟨hCn, hC⟩, hS, rfl⟩ := GIAI.shape.1 hm
      rw [GIAI.new_eq ⟨hCn, hC⟩ hS, head_takeWhile] at h
      rw [guard_err_iff he, decide_eq_true_eq, List.length_append] at h
      obtain ⟨hc, h⟩ := h
      rw [ctor_error_iff he (by only_convert)] at h
      exact ⟨C, S, rfl, hC, hc.1.1, hc.1.2, hc.2, hS, h⟩
  · rintro ⟨C, S, rfl, hC, h0, h1, h2, hS, hv⟩
    have hCn : C ≠ [] := by first | assumption | (rintro rfl; simp only [List.length_nil] at *; omega)
    show GIAI.new (py "urn:epc:id:giai" ++ ':' :: (C ++ '.' :: S)) = _
    rw [GIAI.new_eq ⟨hCn, hC⟩ hS, head_takeWhile]
    rw [guard_err_iff he, decide_eq_true_eq, List.length_append]
    refine ⟨by first | omega | exact ⟨⟨h0, h1⟩, h2⟩, ?_⟩
    rw [ctor_error_iff he (by only_convert)]
    exact hv

/-- GIAI. Of the asset reference only what is before the first colon counts. -/
theorem C67_giai (u : Str) :
    ((∃ x, GIAI.new u = .ok x) ↔ ∃ C S, u = py "urn:epc:id:giai:" ++ joinWith '.' [C, S] ∧ UDigits C ∧
        6 ≤ C.length ∧ C.length ≤ 12 ∧ SerialText S ∧ (S.takeWhile (· ≠ ':')) ≠ [] ∧ PercentsOk (S.takeWhile (· ≠ ':')) ∧ C.length + (S.takeWhile (· ≠ ':')).length ≤ 30) ∧
    (GIAI.new u = .error .value ↔ ∃ C S, u = py "urn:epc:id:giai:" ++ joinWith '.' [C, S] ∧ UDigits C ∧
        6 ≤ C.length ∧ C.length ≤ 12 ∧ C.length + (S.takeWhile (· ≠ ':')).length ≤ 30 ∧ SerialText S ∧ PercentsValueError (S.takeWhile (· ≠ ':'))) ∧
    (GIAI.new u = .error .overflow ↔ ∃ C S, u = py "urn:epc:id:giai:" ++ joinWith '.' [C, S] ∧ UDigits C ∧
        6 ≤ C.length ∧ C.length ≤ 12 ∧ C.length + (S.takeWhile (· ≠ ':')).length ≤ 30 ∧ SerialText S ∧ PercentsOverflow (S.takeWhile (· ≠ ':'))) ∧
    (∀ e, GIAI.new u = .error e → e = .convert ∨ e = .value ∨ e = .overflow) := by
  refine ⟨⟨?_, ?_⟩, ?_, ?_, ?_⟩
  · rintro ⟨x, hx⟩
    obtain ⟨C, S, ⟨⟨hCn, hC⟩, hS⟩, ⟨⟨h1, h2⟩, hv, hl⟩, hu, _⟩ := GIAI.new_iff.1 hx
    replace hS := serialText_of_lang hS
    rw [head_takeWhile] at hv hl
    exact ⟨C, S, hu, (uDigits_iff _).2 hC, h1, h2, hS, ((verify_head hS).1.1 hv).1, ((verify_head hS).1.1 hv).2, hl⟩
  · rintro ⟨C, S, hu, hC, h1, h2, hS, hv0, hv, hl⟩
    have hCn : C ≠ [] := by first | assumption | (rintro rfl; simp only [List.length_nil] at *; omega)
    simp only [uDigits_iff] at hC
    replace hv := (verify_head hS).1.2 ⟨hv0, hv⟩
    rw [← head_takeWhile] at hv hl
    exact ⟨_, GIAI.new_iff.2 ⟨C, S, ⟨⟨hCn, hC⟩, lang_of_serialText hS⟩, ⟨⟨h1, h2⟩, hv, hl⟩, hu, rfl⟩⟩
  · rw [giai_error u _ (by decide)]
    constructor
    · rintro ⟨C, S, hu, hC, h0, h1, h2, hS, hv⟩
      exact ⟨C, S, hu, hC, h0, h1, h2, hS, (verify_head hS).2.1.1 hv⟩
    · rintro ⟨C, S, hu, hC, h0, h1, h2, hS, hv⟩
      exact ⟨C, S, hu, hC, h0, h1, h2, hS, (verify_head hS).2.1.2 hv⟩
  · rw [giai_error u _ (by decide)]
    constructor
    · rintro ⟨C, S, hu, hC, h0, h1, h2, hS, hv⟩
      exact ⟨C, S, hu, hC, h0, h1, h2, hS, (verify_head hS).2.2.1 hv⟩
    · rintro ⟨C, S, hu, hC, h0, h1, h2, hS, hv⟩
      exact ⟨C, S, hu, hC, h0, h1, h2, hS, (verify_head hS).2.2.2 hv⟩
  · intro e he
    rcases GIAI.new_error he with h | h
    · exact .inl h
    · obtain ⟨_, _, _, _, h⟩ := h
      exact verify_error h

private theorem upui_error (u : Str) (e : Err) (he : e ≠ .convert) : UPUI.new u = .error e ↔
    ∃ C I S, u = py "urn:epc:id:upui:" ++ joinWith '.' [C, I, S] ∧ UDigits C ∧ UDigits I ∧
      C ≠ [] ∧ SerialText S ∧ verifyGs3a3 S = .error e := by
  simp only [uDigits_iff, ← lang_serialText]
  constructor
  · intro h
    cases hm : Rx.upuiUri.fullmatch u with
    | false => rw [UPUI.new_nomatch hm] at h; injection h with h; exact absurd h.symm he
    | true =>
      obtain ⟨C, I, S, ⟨hCn, hC⟩, hI, hS, rfl⟩ := UPUI.shape.1 hm
      rw [UPUI.new_eq ⟨hCn, hC⟩ hI hS] at h
      rw [ctor_error_iff he (by only_convert)] at h
      exact ⟨C, I, S, rfl, hC, hI, hCn, hS, h⟩
  · rintro ⟨C, I, S, rfl, hC, hI, h0, hS, hv⟩
    have hCn : C ≠ [] := by first | assumption | (rintro rfl; simp only [List.length_nil] at *; omega)
    show UPUI.new (py "urn:epc:id:upui" ++ ':' :: (C ++ '.' :: (I ++ '.' :: S))) = _
    rw [UPUI.new_eq ⟨hCn, hC⟩ hI hS]
    rw [ctor_error_iff he (by only_convert)]
    exact hv

/-- UPUI. -/
theorem C67_upui (u : Str) :
    ((∃ x, UPUI.new u = .ok x) ↔ ∃ C I S, u = py "urn:epc:id:upui:" ++ joinWith '.' [C, I, S] ∧ UDigits C ∧ UDigits I ∧
        C ≠ [] ∧ C.length + I.length = 13 ∧ SerialText S ∧ PercentsOk S ∧ (unescapeWith uriEscapes S).length ≤ 28) ∧
    (UPUI.new u = .error .value ↔ ∃ C I S, u = py "urn:epc:id:upui:" ++ joinWith '.' [C, I, S] ∧ UDigits C ∧ UDigits I ∧
        C ≠ [] ∧ SerialText S ∧ PercentsValueError S) ∧
    (UPUI.new u = .error .overflow ↔ ∃ C I S, u = py "urn:epc:id:upui:" ++ joinWith '.' [C, I, S] ∧ UDigits C ∧ UDigits I ∧
        C ≠ [] ∧ SerialText S ∧ PercentsOverflow S) ∧
    (∀ e, UPUI.new u = .error e → e = .convert ∨ e = .value ∨ e = .overflow) := by
  refine ⟨⟨?_, ?_⟩, ?_, ?_, ?_⟩
  · rintro ⟨x, hx⟩
    obtain ⟨C, I, S, ⟨⟨hCn, hC⟩, hI, hS⟩, ⟨h0, hv, _, hl⟩, hu, _⟩ := UPUI.new_iff.1 hx
    replace hS := serialText_of_lang hS
    rw [replaceUriEscapes_eq] at hl
    exact ⟨C, I, S, hu, (uDigits_iff _).2 hC, (uDigits_iff _).2 hI, hCn, h0, hS, (verify_serialText hS).1.1 hv, hl⟩
  · rintro ⟨C, I, S, hu, hC, hI, hCn, h0, hS, hv, hl⟩
    have hCn : C ≠ [] := by first | assumption | (rintro rfl; simp only [List.length_nil] at *; omega)
    simp only [uDigits_iff] at hC hI
    rw [← replaceUriEscapes_eq] at hl
    replace hv := (verify_serialText hS).1.2 hv
    exact ⟨_, UPUI.new_iff.2 ⟨C, I, S, ⟨⟨hCn, hC⟩, hI, lang_of_serialText hS⟩, ⟨h0, hv, unescape_pos hS.1, hl⟩, hu, rfl⟩⟩
  · rw [upui_error u _ (by decide)]
    constructor
    · rintro ⟨C, I, S, hu, hC, hI, h0, hS, hv⟩
      exact ⟨C, I, S, hu, hC, hI, h0, hS, (verify_serialText hS).2.1.1 hv⟩
    · rintro ⟨C, I, S, hu, hC, hI, h0, hS, hv⟩
      exact ⟨C, I, S, hu, hC, hI, h0, hS, (verify_serialText hS).2.1.2 hv⟩
  · rw [upui_error u _ (by decide)]
    constructor
    · rintro ⟨C, I, S, hu, hC, hI, h0, hS, hv⟩
      exact ⟨C, I, S, hu, hC, hI, h0, hS, (verify_serialText hS).2.2.1 hv⟩
    · rintro ⟨C, I, S, hu, hC, hI, h0, hS, hv⟩
      exact ⟨C, I, S, hu, hC, hI, h0, hS, (verify_serialText hS).2.2.2 hv⟩
  · intro e he
    rcases UPUI.new_error he with h | h
    · exact .inl h
    · obtain ⟨_, _, _, _, _, h⟩ := h
      exact verify_error h

private theorem itip_error (u : Str) (e : Err) (he : e ≠ .convert) : ITIP.new u = .error e ↔
    ∃ C I A B S, u = py "urn:epc:id:itip:" ++ joinWith '.' [C, I, A, B, S] ∧ UDigits C ∧ UDigits I ∧ UDigits A ∧ UDigits B ∧
      C ≠ [] ∧ I ≠ [] ∧ A ≠ [] ∧ B ≠ [] ∧ SerialText S ∧ verifyGs3a3 S = .error e := by
  simp only [uDigits_iff, ← lang_serialText]
  constructor
  · intro h
    cases hm : Rx.itipUri.fullmatch u with
    | false => rw [ITIP.new_nomatch hm] at h; injection h with h; exact absurd h.symm he
    | true =>
      obtain ⟨C, I, A, B, S, ⟨hCn, hC⟩, ⟨hIn, hI⟩, ⟨hAn, hA⟩, ⟨hBn, hB⟩, hS, rfl⟩ := ITIP.shape.1 hm
      rw [ITIP.new_eq ⟨hCn, hC⟩ ⟨hIn, hI⟩ ⟨hAn, hA⟩ ⟨hBn, hB⟩ hS] at h
      rw [ctor_error_iff he (by only_convert)] at h
      exact ⟨C, I, A, B, S, rfl, hC, hI, hA, hB, hCn, hIn, hAn, hBn, hS, h⟩
  · rintro ⟨C, I, A, B, S, rfl, hC, hI, hA, hB, h0, h1, h2, h3, hS, hv⟩
    have hCn : C ≠ [] := by first | assumption | (rintro rfl; simp only [List.length_nil] at *; omega)
    have hIn : I ≠ [] := by first | assumption | (rintro rfl; simp only [List.length_nil] at *; omega)
    have hAn : A ≠ [] := by first | assumption | (rintro rfl; simp only [List.length_nil] at *; omega)
    have hBn : B ≠ [] := by first | assumption | (rintro rfl; simp only [List.length_nil] at *; omega)
    show ITIP.new (py "urn:epc:id:itip" ++ ':' :: (C ++ '.' :: (I ++ '.' :: (A ++ '.' :: (B ++ '.' :: S))))) = _
    rw [ITIP.new_eq ⟨hCn, hC⟩ ⟨hIn, hI⟩ ⟨hAn, hA⟩ ⟨hBn, hB⟩ hS]
    rw [ctor_error_iff he (by only_convert)]
    exact hv

/-- ITIP. -/
theorem C67_itip (u : Str) :
    ((∃ x, ITIP.new u = .ok x) ↔ ∃ C I A B S, u = py "urn:epc:id:itip:" ++ joinWith '.' [C, I, A, B, S] ∧ UDigits C ∧ UDigits I ∧ UDigits A ∧ UDigits B ∧
        I ≠ [] ∧ A ≠ [] ∧ B ≠ [] ∧ C.length + (I.length + (A.length + B.length)) = 17 ∧ 6 ≤ C.length ∧ C.length ≤ 12 ∧ SerialText S ∧ PercentsOk S ∧ (unescapeWith uriEscapes S).length ≤ 20) ∧
    (ITIP.new u = .error .value ↔ ∃ C I A B S, u = py "urn:epc:id:itip:" ++ joinWith '.' [C, I, A, B, S] ∧ UDigits C ∧ UDigits I ∧ UDigits A ∧ UDigits B ∧
        C ≠ [] ∧ I ≠ [] ∧ A ≠ [] ∧ B ≠ [] ∧ SerialText S ∧ PercentsValueError S) ∧
    (ITIP.new u = .error .overflow ↔ ∃ C I A B S, u = py "urn:epc:id:itip:" ++ joinWith '.' [C, I, A, B, S] ∧ UDigits C ∧ UDigits I ∧ UDigits A ∧ UDigits B ∧
        C ≠ [] ∧ I ≠ [] ∧ A ≠ [] ∧ B ≠ [] ∧ SerialText S ∧ PercentsOverflow S) ∧
    (∀ e, ITIP.new u = .error e → e = .convert ∨ e = .value ∨ e = .overflow) := by
  refine ⟨⟨?_, ?_⟩, ?_, ?_, ?_⟩
  · rintro ⟨x, hx⟩
    obtain ⟨C, I, A, B, S, ⟨⟨hCn, hC⟩, ⟨hIn, hI⟩, ⟨hAn, hA⟩, ⟨hBn, hB⟩, hS⟩, ⟨h0, ⟨h1, h2⟩, hv, _, hl⟩, hu, _⟩ := ITIP.new_iff.1 hx
    replace hS := serialText_of_lang hS
    rw [replaceUriEscapes_eq] at hl
    exact ⟨C, I, A, B, S, hu, (uDigits_iff _).2 hC, (uDigits_iff _).2 hI, (uDigits_iff _).2 hA, (uDigits_iff _).2 hB, hIn, hAn, hBn, h0, h1, h2, hS, (verify_serialText hS).1.1 hv, hl⟩
  · rintro ⟨C, I, A, B, S, hu, hC, hI, hA, hB, hIn, hAn, hBn, h0, h1, h2, hS, hv, hl⟩
    have hCn : C ≠ [] := by first | assumption | (rintro rfl; simp only [List.length_nil] at *; omega)
    have hIn : I ≠ [] := by first | assumption | (rintro rfl; simp only [List.length_nil] at *; omega)
    have hAn : A ≠ [] := by first | assumption | (rintro rfl; simp only [List.length_nil] at *; omega)
    have hBn : B ≠ [] := by first | assumption | (rintro rfl; simp only [List.length_nil] at *; omega)
    simp only [uDigits_iff] at hC hI hA hB
    rw [← replaceUriEscapes_eq] at hl
    replace hv := (verify_serialText hS).1.2 hv
    exact ⟨_, ITIP.new_iff.2 ⟨C, I, A, B, S, ⟨⟨hCn, hC⟩, ⟨hIn, hI⟩, ⟨hAn, hA⟩, ⟨hBn, hB⟩, lang_of_serialText hS⟩, ⟨h0, ⟨h1, h2⟩, hv, unescape_pos hS.1, hl⟩, hu, rfl⟩⟩
  · rw [itip_error u _ (by decide)]
    constructor
    · rintro ⟨C, I, A, B, S, hu, hC, hI, hA, hB, h0, h1, h2, h3, hS, hv⟩
      exact ⟨C, I, A, B, S, hu, hC, hI, hA, hB, h0, h1, h2, h3, hS, (verify_serialText hS).2.1.1 hv⟩
    · rintro ⟨C, I, A, B, S, hu, hC, hI, hA, hB, h0, h1, h2, h3, hS, hv⟩
      exact ⟨C, I, A, B, S, hu, hC, hI, hA, hB, h0, h1, h2, h3, hS, (verify_serialText hS).2.1.2 hv⟩
  · rw [itip_error u _ (by decide)]
    constructor
    · rintro ⟨C, I, A, B, S, hu, hC, hI, hA, hB, h0, h1, h2, h3, hS, hv⟩
      exact ⟨C, I, A, B, S, hu, hC, hI, hA, hB, h0, h1, h2, h3, hS, (verify_serialText hS).2.2.1 hv⟩
    · rintro ⟨C, I, A, B, S, hu, hC, hI, hA, hB, h0, h1, h2, h3, hS, hv⟩
      exact ⟨C, I, A, B, S, hu, hC, hI, hA, hB, h0, h1, h2, h3, hS, (verify_serialText hS).2.2.2 hv⟩
  · intro e he
    rcases ITIP.new_error he with h | h
    · exact .inl h
    · obtain ⟨_, _, _, _, _, _, _, h⟩ := h
      exact verify_error h

/-! Examples: how serials are cut, and each of the four outcomes. -/

example : pieces (py "AB%2FC%25%26D") = [py "AB%2FC", py "%25", [], py "%26", py "D"] := by decide +kernel
example : pieces (py "%2F%25%3c") = [py "%2F", py "%25", py "%3c"] := by decide +kernel

example : HexText (py "0x4_1") 65 :=
  ⟨py "0x", py "4_1", rfl, by decide, by decide, by decide, by decide, by decide, by decide, by decide⟩

/-- Accepted: `%4_1` and `%0x41` stand for A, `%2F` for the slash; the last is not even cut. -/
example : (SGTIN.new (py "urn:epc:id:sgtin:9521141.012345.%4_1")).map (·.serial) = .ok (py "%4_1") ∧
    (SGTIN.new (py "urn:epc:id:sgtin:9521141.012345.%0x41")).map (·.serial) = .ok (py "%0x41") ∧
    (SGTIN.new (py "urn:epc:id:sgtin:9521141.012345.%2F%25AB%2fz")).map (·.serial) = .ok (py "%2F%25AB%2fz") := by decide +kernel

example : SGTIN.new (py "urn:epc:id:sgtin:9521141.012345.%2FX") = .error .value ∧
    SGTIN.new (py "urn:epc:id:sgtin:9521141.012345.%3F00000") = .error .value ∧
    SGTIN.new (py "urn:epc:id:sgtin:9521141.012345.%3F000000%ax") = .error .value ∧
    SGTIN.new (py "urn:epc:id:sgtin:9521141.012345.%3F0000000") = .error .overflow ∧
    SGTIN.new (py "urn:epc:id:sgtin:9521141.012345.%3F0000000%20%ax") = .error .overflow ∧
    SGTIN.new (py "urn:epc:id:sgtin:9521141.012345.%2F0") = .error .convert ∧
    SGTIN.new (py "urn:epc:id:sgtin:9521141.012345.%20%ax") = .error .value := by decide +kernel

/-- Which pieces count: an instance of each hypothesis. -/
example : PercentsOverflow (py "%3F0000000%20%ax") ∧ PercentsValueError (py "A%20%ax") ∧ PercentsOk (py "A%4_1") := by
  have h1 : SerialText (py "%3F0000000%20%ax") := serialText_of_lang ((Re.fullmatch_iff _ _).1 (by decide +kernel))
  have h2 : SerialText (py "A%20%ax") := serialText_of_lang ((Re.fullmatch_iff _ _).1 (by decide +kernel))
  have h3 : SerialText (py "A%4_1") := serialText_of_lang ((Re.fullmatch_iff _ _).1 (by decide +kernel))
  exact ⟨(verify_serialText h1).2.2.1 (by decide +kernel), (verify_serialText h2).2.1.1 (by decide +kernel),
    (verify_serialText h3).1.1 (by decide +kernel)⟩

end Epc
