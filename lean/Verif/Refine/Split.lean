/-
The patterns that the source gives to `re.split` and `re.match`, and the match lengths of the model.
-/
import Verif.Refine.Patterns
import Verif.Model.Base

namespace Epc

/-- The text is that of the plain pattern `q`, in one group or without a group. -/
def Pat.splitsAs (text : Str) (cap : Bool) (q : Pat) : Bool :=
  match Pat.lex .text text with
  | some l =>
    match Pat.parseToks l .empty [] with
    | some p => Pat.same p q && p.plain && p.nonEmpty && (if cap then Pat.groups l == 1 && Pat.wrapped l else Pat.groups l == 0)
    | .none => false
  | .none => false

theorem splitBy_eq {text : Str} {cap : Bool} {q : Pat} (h : Pat.splitsAs text cap q = true) (s : Str) :
    splitBy text s = some (if cap then splitCap q.firstLen s else splitNoCap q.firstLen s) := by
  unfold Pat.splitsAs at h
  unfold splitBy
  cases hl : Pat.lex .text text with
  | none => rw [hl] at h; cases h
  | some l =>
    cases hp : Pat.parseToks l .empty [] with
    | none => simp only [hl, hp] at h; cases h
    | some p =>
      simp only [hl, hp, Bool.and_eq_true] at h ⊢
      obtain ⟨⟨⟨h1, h2⟩, h3⟩, h4⟩ := h
      cases Pat.same_eq h1
      rw [if_pos ⟨h2, h3⟩]
      cases cap with
      | true =>
        simp only [if_true, Bool.and_eq_true, beq_iff_eq] at h4
        simp [h4.1, h4.2]
      | false =>
        simp only [Bool.false_eq_true, if_false, beq_iff_eq] at h4
        simp [h4]

theorem findAllBy_eq {text : Str} {q : Pat} (h : Pat.splitsAs text false q = true) (s : Str) : findAllBy text s = some (findAll q.firstLen s) := by
  unfold Pat.splitsAs at h
  unfold findAllBy
  cases hl : Pat.lex .text text with
  | none => rw [hl] at h; cases h
  | some l =>
    cases hp : Pat.parseToks l .empty [] with
    | none => simp only [hl, hp] at h; cases h
    | some p =>
      simp only [hl, hp, Bool.and_eq_true, Bool.false_eq_true, if_false, beq_iff_eq] at h ⊢
      obtain ⟨⟨⟨h1, h2⟩, h3⟩, h4⟩ := h
      cases Pat.same_eq h1
      rw [h2, h3, h4]
      rfl

/-- The text is that of the plain pattern `q` without `|`, followed by `$`. -/
def Pat.endsAs (text : Str) (q : Pat) : Bool :=
  match text.reverse with
  | '$' :: t =>
    match Pat.lex .text t.reverse with
    | some l =>
      match Pat.parseToks l .empty [] with
      | some p => Pat.same p q && p.plain && p.nonEmpty && !Pat.choice l
      | .none => false
    | .none => false
  | _ => false

theorem subBy_eq {text r : Str} {q : Pat} (h : Pat.endsAs text q = true) (hr : r.contains '\\' = false) (s : Str) :
    subBy text r s = some (subOnce q.lastLen r s) := by
  unfold Pat.endsAs at h
  unfold subBy
  split at h
  · next t e =>
    cases hl : Pat.lex .text t.reverse with
    | none => rw [hl] at h; cases h
    | some l =>
      cases hp : Pat.parseToks l .empty [] with
      | none => simp only [hl, hp] at h; cases h
      | some p =>
        simp only [hl, hp, Bool.and_eq_true] at h
        obtain ⟨⟨⟨h1, h2⟩, h3⟩, h4⟩ := h
        cases Pat.same_eq h1
        rw [e]
        simp only [hl, hp, h2, h3, h4, hr, Bool.not_false, Bool.and_true, if_true]
  · cases h

namespace Pat

theorem chars_of {k : List Item} {p : Char → Bool} (h : (Pat.cls k).toRe = .cls p) : chars k = p := by
  unfold toRe at h
  exact Re.cls.inj h

theorem chars_one (c : Char) : chars [.one c] = fun x => x == c := chars_of (toRe_chr c)
theorem chars_hex : chars hexItems = isHexA := chars_of set_hex
theorem chars_decimal : chars [.digit] = isDecimal := chars_of set_decimal
theorem chars_any : chars [.any] = anyChar := chars_of set_dot
theorem chars_bit : chars [.range '0' '1'] = isBit := chars_of (by sets)

end Pat

namespace Src

/-- A set `n` times. -/
def times (k : List Item) (n : Nat) : Pat := .range (.cls k) n n

/-- The match length of a row of sets. -/
macro "row" : tactic => `(tactic| (
  refine funext fun s => (Pat.firstLen_row rfl s).trans ?_
  simp only [List.cons_append, List.nil_append, List.map_cons, List.map_nil, Pat.chars_one, Pat.chars_hex, Pat.chars_decimal, Pat.chars_any,
    Pat.chars_bit]
  all_goals rfl))

theorem len_escape : Pat.firstLen (.seq (Pat.chr '%') (times Pat.hexItems 2)) = escapeLen := by row
theorem len_dash : Pat.firstLen (Pat.chr '-') = fixedLen [(· == '-')] := by row
theorem len_percent : Pat.firstLen (Pat.seqs [Pat.chr '%', .cls [.digit], .cls [.digit]]) = percentDigitsLen := by row
theorem len_six : Pat.firstLen (times [.range '0' '1'] 6) = bitsLen 6 := by row
theorem len_eight : Pat.firstLen (times [.range '0' '1'] 8) = bitsLen 8 := by row
theorem len_zeros : Pat.firstLen (times [.one '0'] 6) = Epc.ADI.zerosLen := by row
theorem len_paren2 : Pat.firstLen (Pat.seqs [Pat.chr '(', times [.any] 2, Pat.chr ')']) = parenLen 2 := by row
theorem len_paren3 : Pat.firstLen (Pat.seqs [Pat.chr '(', times [.any] 3, Pat.chr ')']) = parenLen 3 := by row
theorem len_paren4 : Pat.firstLen (Pat.seqs [Pat.chr '(', times [.any] 4, Pat.chr ')']) = parenLen 4 := by row
theorem len_seven : Pat.firstLen (Pat.seqs (List.replicate 7 (.cls [.any]))) = fixedLen (List.replicate 7 anyChar) := by row
theorem len_escapeOrDash : Pat.firstLen (.alt (.seq (Pat.chr '%') (times Pat.hexItems 2)) (Pat.chr '-')) = escapeOrDashLen :=
  funext fun s => by rw [Pat.firstLen_alt, len_escape, len_dash]; rfl

theorem reSplit_escape (s : Str) : splitBy (py "(%[0-9a-fA-F]{2})") s = some (splitCap escapeLen s) :=
  len_escape ▸ splitBy_eq (cap := true) (by decide +kernel) s
theorem reSplit_escapeOrDash (s : Str) : splitBy (py "(%[0-9a-fA-F]{2}|-)") s = some (splitCap escapeOrDashLen s) :=
  len_escapeOrDash ▸ splitBy_eq (cap := true) (by decide +kernel) s
theorem reSplit_percent (s : Str) : splitBy (py "(%\\d\\d)") s = some (splitCap percentDigitsLen s) :=
  len_percent ▸ splitBy_eq (cap := true) (by decide +kernel) s
theorem reSplit_six (s : Str) : splitBy (py "([0-1]{6})") s = some (splitCap (bitsLen 6) s) :=
  len_six ▸ splitBy_eq (cap := true) (by decide +kernel) s
theorem reSplit_eight (s : Str) : splitBy (py "([0-1]{8})") s = some (splitCap (bitsLen 8) s) :=
  len_eight ▸ splitBy_eq (cap := true) (by decide +kernel) s
theorem reSplit_zeros (s : Str) : splitBy (py "([0]{6})") s = some (splitCap Epc.ADI.zerosLen s) :=
  len_zeros ▸ splitBy_eq (cap := true) (by decide +kernel) s
theorem reSplit_paren2 (s : Str) : splitBy (py "\\(.{2}\\)") s = some (splitNoCap (parenLen 2) s) :=
  len_paren2 ▸ splitBy_eq (cap := false) (by decide +kernel) s
theorem reSplit_paren3 (s : Str) : splitBy (py "\\(.{3}\\)") s = some (splitNoCap (parenLen 3) s) :=
  len_paren3 ▸ splitBy_eq (cap := false) (by decide +kernel) s
theorem reSplit_paren4 (s : Str) : splitBy (py "\\(.{4}\\)") s = some (splitNoCap (parenLen 4) s) :=
  len_paren4 ▸ splitBy_eq (cap := false) (by decide +kernel) s

theorem reFind_seven (s : Str) : findAllBy (py ".......") s = some (findAll (fixedLen (List.replicate 7 anyChar)) s) :=
  len_seven ▸ findAllBy_eq (by decide +kernel) s

/-! ### The final wildcard -/

/-- `.*` at the end replaced by `.0`; the end is also before a final newline. -/
def subFinal (s : Str) : Str :=
  match s.reverse with
  | '*' :: '.' :: t => t.reverse ++ ['.', '0']
  | '\n' :: '*' :: '.' :: t => t.reverse ++ ['.', '0', '\n']
  | _ => s

theorem last_star (s : Str) : (Pat.seq (Pat.chr '.') (Pat.chr '*')).lastLen s =
    if s = ['.', '*'] ∨ s = ['.', '*', '\n'] then some 2 else .none := by
  rw [Pat.lastLen, Pat.lens_row (l := [[.one '.'], [.one '*']]) rfl]
  simp only [List.map_cons, List.map_nil, Pat.chars_one]
  match s with
  | [] => rfl
  | [a] => simp [fixedMatch]
  | [a, b] => by_cases h : a = '.' ∧ b = '*' <;> simp [fixedMatch, atEnd, h]
  | [a, b, c] => by_cases h : a = '.' ∧ b = '*' <;> by_cases hc : c = '\n' <;> simp [fixedMatch, atEnd, h, hc]
  | a :: b :: c :: d :: t => by_cases h : a = '.' ∧ b = '*' <;> simp [fixedMatch, atEnd, h]

theorem subOnce_end {m : Str → Option Nat} {r e : Str} (h : ∀ c v, m (c :: (v ++ e)) = .none) (v : Str) : subOnce m r (v ++ e) = v ++ subOnce m r e := by
  induction v with
  | nil => rfl
  | cons c v ih => rw [List.cons_append, subOnce, h, ih]; rfl

theorem subOnce_none {m : Str → Option Nat} {r : Str} : ∀ s : Str, (∀ p t, s = p ++ t → m t = .none) → subOnce m r s = s
  | [], _ => rfl
  | c :: s, h => by
    rw [subOnce, h [] _ rfl, subOnce_none s (fun p t e => h (c :: p) t (by rw [e]; rfl))]

theorem subOnce_star (s : Str) : subOnce (Pat.lastLen (.seq (Pat.chr '.') (Pat.chr '*'))) ['.', '0'] s = subFinal s := by
  have hm : Pat.lastLen (.seq (Pat.chr '.') (Pat.chr '*')) = fun s => if s = ['.', '*'] ∨ s = ['.', '*', '\n'] then some 2 else .none :=
    funext last_star
  rw [hm]
  unfold subFinal
  split
  · next t e =>
    have e' : s = t.reverse ++ ['.', '*'] := by
      rw [← List.reverse_reverse s, e]; simp
    rw [e', subOnce_end]
    · simp [subOnce]
    · intro c v
      rw [if_neg]
      rintro (h | h)
      · have := congrArg List.length h; simp at this
      · have := congrArg List.reverse h; simp at this
  · next t e =>
    have e' : s = t.reverse ++ ['.', '*', '\n'] := by
      rw [← List.reverse_reverse s, e]; simp
    rw [e', subOnce_end]
    · simp [subOnce]
    · intro c v
      rw [if_neg]
      rintro (h | h)
      · have := congrArg List.length h; simp at this
      · have := congrArg List.length h; simp at this
  · next h1 h2 =>
    apply subOnce_none
    intro p t e
    rw [if_neg]
    rintro (rfl | rfl)
    · exact h1 p.reverse (by rw [e]; simp)
    · exact h2 p.reverse (by rw [e]; simp)

theorem reSub_star (s : Str) : subBy (py "\\.\\*$") (py ".0") s = some (subFinal s) :=
  subOnce_star s ▸ subBy_eq (by decide +kernel) (by decide) s

theorem compile_terminator : ∃ r, compile (py ".*([0]{6})+.*") = some r ∧ ∀ s, r.matchPrefix s = Epc.ADI.hasTerminator s := by
  obtain ⟨r, h1, h2⟩ := Pat.compile_of_reads (text := py ".*([0]{6})+.*")
    (q := Pat.seqs [.star (.cls [.any]), Pat.plus (Pat.rep (Pat.chr '0') 6), .star (.cls [.any])]) (by decide +kernel)
  refine ⟨r, h1, fun s => ?_⟩
  rw [h2.matchPrefix s]
  simp only [pats]
  rfl

theorem m_adi_match (s : Str) : methodCall (.module .re) .«match» [.str (py ".*([0]{6})+.*"), .str s] =
    .ok (.bool (Epc.ADI.hasTerminator s)) := by
  obtain ⟨r, h1, h2⟩ := compile_terminator
  simp only [methodCall, h1, h2]

end Src
end Epc
