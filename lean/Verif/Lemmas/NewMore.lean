/-
Constructors whose pattern contains no GS1 company prefix (BIC, IMOVN), and unescaping of ADI components.
-/
import Verif.Lemmas.New
import Verif.Lemmas.Six

namespace Epc
open Spec Re

/-- `s.replace("%2F", "/")` on an escaped text keeps the escaped `#`. -/
def escHash (c : Char) : Str := if c = '#' then py "%23" else [c]

theorem replace_2F {raw : Str} (h : ∀ c ∈ raw, c ∈ gs39) :
    replaceAll (py "%2F") (py "/") (escape39 raw) = raw.flatMap escHash := by
  unfold escape39
  refine replaceAll_escape (p := '2') (q := 'F') (rep := py "/") (e' := escHash) ?_
  intro c hc
  rcases (mem_gs39 c).1 (h c hc) with h1 | rfl | rfl
  · have hp := cprefPlain_esc h1
    refine .inr (.inl ⟨?_, c, ?_, hp.1⟩)
    · rw [hp.1]; unfold escHash; rw [if_neg hp.2.1]
    · rintro rfl; revert h1; decide
  · exact .inr (.inr ⟨rfl, '2', '3', rfl, by decide, by decide, by decide⟩)
  · exact .inl ⟨rfl, rfl⟩

theorem replace_23 {raw : Str} (h : ∀ c ∈ raw, c ∈ gs39) :
    replaceAll (py "%23") (py "#") (raw.flatMap escHash) = raw := by
  have e : raw = raw.flatMap (fun c => [c]) := by simp
  conv => rhs; rw [e]
  refine replaceAll_escape (p := '2') (q := '3') (rep := py "#") (e' := fun c => [c]) ?_
  intro c hc
  by_cases h1 : c = '#'
  · subst h1; exact .inl ⟨rfl, rfl⟩
  · refine .inr (.inl ⟨?_, c, ?_, ?_⟩)
    · unfold escHash; rw [if_neg h1]
    · rintro rfl; exact absurd (h _ hc) (by decide)
    · unfold escHash; rw [if_neg h1]

theorem flatMap_escHash_of_no_hash {raw : Str} (h : '#' ∉ raw) : raw.flatMap escHash = raw := by
  induction raw with
  | nil => rfl
  | cons c t ih =>
    simp only [List.mem_cons, not_or] at h
    rw [List.flatMap_cons, ih h.2]
    unfold escHash
    rw [if_neg (Ne.symm h.1)]; rfl

/-! ### BIC -/

namespace BIC

theorem lang_body (s : Str) : Lang Rx.bicBody s ↔ ∃ o c d, s = o ++ c :: d ∧ (o.length = 3 ∧ ∀ x ∈ o, Rx.isBicOwner x = true) ∧
    (c = 'J' ∨ c = 'U' ∨ c = 'Z') ∧ d.length = 7 ∧ ∀ x ∈ d, isDigitA x = true := by
  show (∃ x y, s = x ++ y ∧ Lang (rep (.cls Rx.isBicOwner) 3) x ∧ ∃ x' y', y = x' ++ y' ∧
    Lang (.cls (fun c => c == 'J' || c == 'U' || c == 'Z')) x' ∧ Lang (rep (.cls isDigitA) 7) y') ↔ _
  simp only [lang_rep_cls]
  constructor
  · rintro ⟨o, _, rfl, ho, _, _, rfl, ⟨c, hc, rfl⟩, hd⟩
    refine ⟨o, c, _, rfl, ho, ?_, hd⟩
    simpa [or_assoc] using hc
  · rintro ⟨o, c, d, rfl, ho, hc, hd⟩
    exact ⟨o, c :: d, rfl, ho, [c], d, rfl, ⟨c, by simpa [or_assoc] using hc, rfl⟩, hd⟩

theorem shape {u : Str} : Rx.bicUri.fullmatch u = true ↔ ∃ o c d, ((o.length = 3 ∧ ∀ x ∈ o, Rx.isBicOwner x = true) ∧
    (c = 'J' ∨ c = 'U' ∨ c = 'Z') ∧ d.length = 7 ∧ ∀ x ∈ d, isDigitA x = true) ∧ u = py "urn:epc:id:bic" ++ ':' :: (o ++ c :: d) := by
  rw [fullmatch_iff]
  unfold Rx.bicUri
  rw [lang_lit_seq]
  simp only [lang_body]
  constructor
  · rintro ⟨t, rfl, o, c, d, rfl, h⟩
    exact ⟨o, c, d, h, rfl⟩
  · rintro ⟨o, c, d, h, rfl⟩
    exact ⟨_, rfl, o, c, d, rfl, h⟩

theorem isBicOwner_ne_colon {c : Char} (h : Rx.isBicOwner c = true) : c ≠ ':' := by
  rintro rfl; revert h; decide

theorem isDigitA_ne_colon {c : Char} (h : isDigitA c = true) : c ≠ ':' := by
  rintro rfl; revert h; decide

theorem new_nomatch {u : Str} (h : Rx.bicUri.fullmatch u = false) : new u = .error .convert := by
  unfold new; rw [guard_false h]; rfl

theorem new_eq {o d : Str} {c : Char} (ho : o.length = 3 ∧ ∀ x ∈ o, Rx.isBicOwner x = true) (hc : c = 'J' ∨ c = 'U' ∨ c = 'Z')
    (hd : d.length = 7 ∧ ∀ x ∈ d, isDigitA x = true) :
    new (py "urn:epc:id:bic" ++ ':' :: (o ++ c :: d)) =
      .ok ⟨py "urn:epc:id:bic" ++ ':' :: (o ++ c :: d), o ++ c :: d, o, [c], d.take 6, d.drop 6⟩ := by
  have hm : Rx.bicUri.fullmatch (py "urn:epc:id:bic" ++ ':' :: (o ++ c :: d)) = true :=
    shape.2 ⟨o, c, d, ⟨ho, hc, hd⟩, rfl⟩
  have hcol : ':' ∉ o ++ c :: d := by
    simp only [List.mem_append, List.mem_cons, not_or]
    refine ⟨fun h => isBicOwner_ne_colon (ho.2 _ h) rfl, ?_, fun h => isDigitA_ne_colon (hd.2 _ h) rfl⟩
    rcases hc with rfl | rfl | rfl <;> decide
  unfold new
  rw [guard_true hm, ok_bind, getPart4_noColon rfl hcol, ok_bind]
  obtain ⟨hol, -⟩ := ho
  obtain ⟨hdl, -⟩ := hd
  match o, hol with
  | [a, b, e], _ =>
    match d, hdl with
    | [d1, d2, d3, d4, d5, d6, d7], _ => rfl

theorem new_iff {u : Str} {x : BIC} : new u = .ok x ↔ ∃ o c d, ((o.length = 3 ∧ ∀ x ∈ o, Rx.isBicOwner x = true) ∧
    (c = 'J' ∨ c = 'U' ∨ c = 'Z') ∧ d.length = 7 ∧ ∀ x ∈ d, isDigitA x = true) ∧ u = py "urn:epc:id:bic" ++ ':' :: (o ++ c :: d) ∧
    x = ⟨u, o ++ c :: d, o, [c], d.take 6, d.drop 6⟩ := by
  constructor
  · intro h
    cases hm : Rx.bicUri.fullmatch u with
    | false => rw [new_nomatch hm] at h; cases h
    | true =>
      obtain ⟨o, c, d, hh, rfl⟩ := shape.1 hm
      rw [new_eq hh.1 hh.2.1 hh.2.2] at h
      injection h with h
      exact ⟨o, c, d, hh, rfl, h.symm⟩
  · rintro ⟨o, c, d, hh, rfl, rfl⟩
    exact new_eq hh.1 hh.2.1 hh.2.2

theorem new_error {u : Str} {e : Err} (h : new u = .error e) : e = .convert := by
  cases hm : Rx.bicUri.fullmatch u with
  | false => rw [new_nomatch hm] at h; injection h with h; exact h.symm
  | true =>
    obtain ⟨o, c, d, hh, rfl⟩ := shape.1 hm
    rw [new_eq hh.1 hh.2.1 hh.2.2] at h
    cases h

end BIC

/-! ### IMOVN -/

namespace IMOVN

theorem shape {u : Str} : Rx.imovnUri.fullmatch u = true ↔ ∃ d, (d.length = 7 ∧ ∀ x ∈ d, isDigitA x = true) ∧
    u = py "urn:epc:id:imovn" ++ ':' :: d := by
  rw [fullmatch_iff]
  unfold Rx.imovnUri Rx.imovnBody
  rw [lang_lit_seq]
  simp only [lang_rep_cls]
  constructor
  · rintro ⟨t, rfl, h⟩
    exact ⟨t, h, rfl⟩
  · rintro ⟨d, h, rfl⟩
    exact ⟨_, rfl, h⟩

theorem new_nomatch {u : Str} (h : Rx.imovnUri.fullmatch u = false) : new u = .error .convert := by
  unfold new; rw [guard_false h]; rfl

theorem new_eq {d : Str} (hd : d.length = 7 ∧ ∀ x ∈ d, isDigitA x = true) :
    new (py "urn:epc:id:imovn" ++ ':' :: d) = .ok ⟨py "urn:epc:id:imovn" ++ ':' :: d, d⟩ := by
  unfold new
  rw [guard_true (shape.2 ⟨d, hd, rfl⟩), ok_bind,
    getPart4_noColon rfl (fun h => BIC.isDigitA_ne_colon (hd.2 _ h) rfl), ok_bind]
  rfl

theorem new_iff {u : Str} {x : IMOVN} : new u = .ok x ↔ ∃ d, (d.length = 7 ∧ ∀ x ∈ d, isDigitA x = true) ∧
    u = py "urn:epc:id:imovn" ++ ':' :: d ∧ x = ⟨u, d⟩ := by
  constructor
  · intro h
    cases hm : Rx.imovnUri.fullmatch u with
    | false => rw [new_nomatch hm] at h; cases h
    | true =>
      obtain ⟨d, hh, rfl⟩ := shape.1 hm
      rw [new_eq hh] at h
      injection h with h
      exact ⟨d, hh, rfl, h.symm⟩
  · rintro ⟨d, hh, rfl, rfl⟩
    exact new_eq hh

theorem new_error {u : Str} {e : Err} (h : new u = .error e) : e = .convert := by
  cases hm : Rx.imovnUri.fullmatch u with
  | false => rw [new_nomatch hm] at h; injection h with h; exact h.symm
  | true =>
    obtain ⟨d, hh, rfl⟩ := shape.1 hm
    rw [new_eq hh] at h
    cases h

end IMOVN

end Epc
