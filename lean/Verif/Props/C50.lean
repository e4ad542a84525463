/-
C50: escaping and unescaping of serial numbers, for every string whatsoever.

The library unescapes with seven successive replacements and escapes with seven successive replacements.  Whatever the text, the result is
the same as reading the text once from left to right: nothing is unescaped or escaped twice.
-/
import Verif.Lemmas.Unescape

namespace Epc
open Spec

/-- `replace_uri_escapes`: one left-to-right pass that replaces exactly the seven escapes (upper-case hexadecimal digits only). -/
theorem C50_unescape (s : Str) : replaceUriEscapes s = unescapeWith uriEscapes s := replaceUriEscapes_eq s

/-- `revert_uri_escapes`: every one of the seven characters is replaced by its escape, every other character is kept. -/
theorem C50_escape (s : Str) :
    revertUriEscapes s = s.flatMap fun c =>
      match uriEscapes.find? (fun e => e.2 == c) with
      | some e => ['%', e.1.1, e.1.2]
      | none => [c] := by
  rw [revertUriEscapes_eq]
  unfold escape
  congr 1
  funext c
  by_cases h : c ∈ uriEscapes.map Prod.snd
  · revert c
    decide
  · have hn : uriEscapes.find? (fun e => e.2 == c) = none := by
      rw [List.find?_eq_none]
      intro e he hec
      have hec : e.2 = c := by simpa using hec
      exact h (hec ▸ List.mem_map_of_mem he)
    rw [hn]
    simp only [uriEscapes, List.map_cons, List.map_nil, List.mem_cons, List.not_mem_nil, or_false, not_or] at h
    unfold escChar
    simp [h]

/-- A text without percent signs is not changed by unescaping; a text without the seven characters is not changed by escaping. -/
theorem C50_untouched (s : Str) : ('%' ∉ s → replaceUriEscapes s = s) ∧
    ((∀ c ∈ s, c ∉ py "%?><&/\"") → revertUriEscapes s = s) := by
  constructor
  · intro h
    rw [replaceUriEscapes_eq]
    fun_induction unescapeWith uriEscapes s <;> simp_all
  · intro h
    rw [C50_escape]
    induction s with
    | nil => rfl
    | cons c t ih =>
      rw [List.flatMap_cons, ih fun d hd => h d (List.mem_cons_of_mem _ hd)]
      have hc := h c (List.mem_cons_self ..)
      have : uriEscapes.find? (fun e => e.2 == c) = none := by
        rw [List.find?_eq_none]
        intro e he hec
        have hec : e.2 = c := by simpa using hec
        have hall : ∀ e ∈ uriEscapes, e.2 ∈ py "%?><&/\"" := by decide
        exact hc (hec ▸ hall e he)
      simp [this]

example : replaceUriEscapes (py "a%253F%2f%2Fb") = py "a%3F%2f/b" := by decide
example : revertUriEscapes (py "a%3F/b") = py "a%253F%2Fb" := by decide

end Epc
