/-
C01: URI escaping is reversible.
-/
import Verif.Lemmas.Escape

namespace Epc
open Spec

/-- The escaped form described piecewise: every piece is one of the seven escapes or one character that is not
one of `" % & / < > ?`. -/
def EscapedForm (s : Str) : Prop :=
  ∃ pieces : List Str, s = pieces.flatten ∧ ∀ p ∈ pieces,
    p ∈ [py "%22", py "%25", py "%26", py "%2F", py "%3C", py "%3E", py "%3F"] ∨
      ∃ c : Char, p = [c] ∧ c ∉ py "\"%&/<>?"

/-- Unescaping an escaped text gives the text back, for every text. -/
theorem C01_unescape_escape (s : Str) : replaceUriEscapes (revertUriEscapes s) = s := by
  rw [revertUriEscapes_eq, replaceUriEscapes_escape]

/-- Escaping an unescaped component gives it back exactly when it is in the canonical escaped form. -/
theorem C01_escape_unescape_iff (s : Str) : revertUriEscapes (replaceUriEscapes s) = s ↔ EscapedForm s := by
  constructor
  · intro h
    rw [revertUriEscapes_eq] at h
    refine ⟨(replaceUriEscapes s).map escChar, ?_, ?_⟩
    · rw [← h, replaceUriEscapes_escape]; simp [escape, List.flatMap]
    · intro p hp
      obtain ⟨c, _, rfl⟩ := List.mem_map.1 hp
      rcases escChar_cases c with h1 | ⟨h1, h2⟩
      · left; rcases h1 with h | h | h | h | h | h | h <;> subst h <;> decide
      · by_cases hc : c ∈ py "\"%&/<>?"
        · left; simp at hc; rcases hc with h | h | h | h | h | h | h <;> subst h <;> decide
        · right; exact ⟨c, h1, hc⟩
  · rintro ⟨ps, rfl, hp⟩
    have : ∃ raw, ps.flatten = escape raw := by
      induction ps with
      | nil => exact ⟨[], rfl⟩
      | cons p ps ih =>
        obtain ⟨raw, hr⟩ := ih (fun q hq => hp q (List.mem_cons_of_mem _ hq))
        have : ∃ c, p = escChar c := by
          rcases hp p (by simp) with h | ⟨c, h, hc⟩
          · simp only [List.mem_cons, List.not_mem_nil, or_false] at h
            rcases h with h | h | h | h | h | h | h
            · exact ⟨'"', h⟩
            · exact ⟨'%', h⟩
            · exact ⟨'&', h⟩
            · exact ⟨'/', h⟩
            · exact ⟨'<', h⟩
            · exact ⟨'>', h⟩
            · exact ⟨'?', h⟩
          · refine ⟨c, ?_⟩
            simp only [List.mem_cons, List.not_mem_nil, or_false, not_or] at hc
            simp [escChar, h, hc]
        obtain ⟨c, hc⟩ := this
        exact ⟨c :: raw, by simp [hr, hc, escape]⟩
    obtain ⟨raw, hr⟩ := this
    rw [hr, revertUriEscapes_eq, replaceUriEscapes_escape]

/-- The escaped form contains none of the six characters that may not appear in a URI, and distinct texts have
distinct escaped forms. -/
theorem C01_escape_injective (s t : Str) (h : revertUriEscapes s = revertUriEscapes t) : s = t := by
  rw [← C01_unescape_escape s, h, C01_unescape_escape]

theorem C01_escape_clean (s : Str) : ∀ c ∈ revertUriEscapes s, c ∉ py "\"&/<>?" := by
  rw [revertUriEscapes_eq]
  intro c hc
  obtain ⟨x, _, hx⟩ := List.mem_flatMap.1 hc
  clear hc
  intro hm
  rcases escChar_cases x with h1 | ⟨h1, h2⟩
  · revert hm; revert hx
    rcases h1 with h | h | h | h | h | h | h <;> subst h <;> revert c <;> decide
  · by_cases hs : x ∈ py "\"%&/<>?"
    · revert hm; revert hx
      simp only [List.mem_cons, List.not_mem_nil, or_false] at hs
      rcases hs with h | h | h | h | h | h | h <;> subst h <;> revert c <;> decide
    · rw [h1, List.mem_singleton] at hx
      subst hx
      simp at hs hm
      rcases hm with h | h | h | h | h | h <;> simp [h] at hs

/-- A text with escapes, ambiguous percent signs and non-ASCII characters. -/
example : revertUriEscapes (py "a%2F/b\"é") = py "a%252F%2Fb%22é" ∧
    replaceUriEscapes (py "a%252F%2Fb%22é") = py "a%2F/b\"é" := by decide +kernel
/-- The right-hand side of the equivalence is not always true. -/
example : revertUriEscapes (replaceUriEscapes (py "a/b")) ≠ py "a/b" := by decide +kernel
example : revertUriEscapes (replaceUriEscapes (py "%41")) ≠ py "%41" := by decide +kernel

end Epc
