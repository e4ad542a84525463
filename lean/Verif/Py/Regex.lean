/-
Python runtime layer, part 3: regular expressions.

`Re` is the syntax of the patterns used in /repo/epcpy (no back-references, no look-around, no
anchors; groups only matter for grouping).  `Re.Lang` is the denotational semantics;
`Re.fullmatch` (`re.fullmatch`) and `Re.matchPrefix` (`re.match`) are executable Brzozowski-derivative
matchers.  `Re.fullmatch_iff` and `Re.matchPrefix_iff` show that they decide the language; whether
CPython's backtracking finds a match is the same question because none of the patterns has
constructs for which backtracking order affects the existence of a match.
-/
import Verif.Py.Int

namespace Epc

inductive Re where
  | none
  | eps
  | cls (p : Char → Bool)
  | seq (a b : Re)
  | alt (a b : Re)
  | star (a : Re)

namespace Re

/-- Concatenation of strings that each satisfy `L`. -/
inductive Star (L : Str → Prop) : Str → Prop where
  | nil : Star L []
  | cons {a b : Str} : L a → Star L b → Star L (a ++ b)

/-- The set of strings a pattern matches completely. -/
def Lang : Re → Str → Prop
  | .none, _ => False
  | .eps, s => s = []
  | .cls p, s => ∃ c, p c = true ∧ s = [c]
  | .seq a b, s => ∃ x y, s = x ++ y ∧ Lang a x ∧ Lang b y
  | .alt a b, s => Lang a s ∨ Lang b s
  | .star a, s => Star (Lang a) s

/-- A literal character. -/
def chr (c : Char) : Re := .cls (fun x => x == c)

/-- A literal string. -/
def lit : Str → Re
  | [] => .eps
  | [c] => chr c
  | c :: cs => .seq (chr c) (lit cs)

/-- `r+`. -/
def plus (r : Re) : Re := .seq r (.star r)

/-- `r?`. -/
def opt (r : Re) : Re := .alt .eps r

/-- `r{n}`. -/
def rep (r : Re) : Nat → Re
  | 0 => .eps
  | n + 1 => .seq r (rep r n)

/-- `r{0,n}`. -/
def upto (r : Re) : Nat → Re
  | 0 => .eps
  | n + 1 => opt (.seq r (upto r n))

/-- `r{m,n}`. -/
def range (r : Re) (m n : Nat) : Re := .seq (rep r m) (upto r (n - m))

/-- Alternation of a list. -/
def alts : List Re → Re
  | [] => .none
  | [r] => r
  | r :: rs => .alt r (alts rs)

/-- Sequence of a list. -/
def seqs : List Re → Re
  | [] => .eps
  | [r] => r
  | r :: rs => .seq r (seqs rs)

/-! ### Executable matchers -/

def nullable : Re → Bool
  | .none => false
  | .eps => true
  | .cls _ => false
  | .seq a b => nullable a && nullable b
  | .alt a b => nullable a || nullable b
  | .star _ => true

/-- `seq` that simplifies `none` and `eps`. -/
def seq' : Re → Re → Re
  | .none, _ => .none
  | .eps, b => b
  | a, b => match b with
    | .none => .none
    | b => .seq a b

/-- `alt` that simplifies `none`. -/
def alt' : Re → Re → Re
  | .none, b => b
  | a, b => match b with
    | .none => a
    | b => .alt a b

def deriv (c : Char) : Re → Re
  | .none => .none
  | .eps => .none
  | .cls p => if p c then .eps else .none
  | .seq a b =>
    if nullable a then alt' (seq' (deriv c a) b) (deriv c b) else seq' (deriv c a) b
  | .alt a b => alt' (deriv c a) (deriv c b)
  | .star a => seq' (deriv c a) (.star a)

/-- `re.compile(r).fullmatch(s) is not None`. -/
def fullmatch : Re → Str → Bool
  | r, [] => nullable r
  | r, c :: cs => match deriv c r with
    | .none => false
    | r' => fullmatch r' cs

/-- `re.compile(r).match(s) is not None`: some prefix of `s` matches. -/
def matchPrefix : Re → Str → Bool
  | r, [] => nullable r
  | r, c :: cs => nullable r || match deriv c r with
    | .none => false
    | r' => matchPrefix r' cs

/-! ### Correctness of the matchers -/

theorem nullable_iff (r : Re) : nullable r = true ↔ Lang r [] := by
  induction r with
  | none => simp [nullable, Lang]
  | eps => simp [nullable, Lang]
  | cls p => simp [nullable, Lang]
  | seq a b iha ihb =>
    simp only [nullable, Bool.and_eq_true, iha, ihb, Lang]
    constructor
    · rintro ⟨h1, h2⟩; exact ⟨[], [], rfl, h1, h2⟩
    · rintro ⟨x, y, h, h1, h2⟩
      have := List.append_eq_nil_iff.1 h.symm
      rw [this.1] at h1; rw [this.2] at h2; exact ⟨h1, h2⟩
  | alt a b iha ihb => simp [nullable, Lang, iha, ihb]
  | star a => simp [nullable, Lang]; exact Star.nil

theorem lang_seq' (a b : Re) (s : Str) : Lang (seq' a b) s ↔ Lang (.seq a b) s := by
  unfold seq'
  split
  · simp [Lang]
  · simp only [Lang]
    constructor
    · intro h; exact ⟨[], s, rfl, rfl, h⟩
    · rintro ⟨x, y, rfl, rfl, h⟩; exact h
  · split
    · simp [Lang]
    · rfl

theorem lang_alt' (a b : Re) (s : Str) : Lang (alt' a b) s ↔ Lang (.alt a b) s := by
  unfold alt'
  split
  · simp [Lang]
  · split
    · simp [Lang]
    · rfl

theorem Star.cons_iff {L : Str → Prop} {c : Char} {s : Str} :
    Star L (c :: s) ↔ ∃ x y, s = x ++ y ∧ L (c :: x) ∧ Star L y := by
  constructor
  · intro h
    generalize hs : c :: s = t at h
    induction h with
    | nil => cases hs
    | @cons a b ha hb ih =>
      cases a with
      | nil => exact ih (by simpa using hs)
      | cons d a =>
        simp only [List.cons_append, List.cons.injEq] at hs
        obtain ⟨rfl, rfl⟩ := hs
        exact ⟨a, b, rfl, ha, hb⟩
  · rintro ⟨x, y, rfl, h1, h2⟩
    exact Star.cons (a := c :: x) h1 h2

theorem deriv_iff (c : Char) (r : Re) (s : Str) : Lang (deriv c r) s ↔ Lang r (c :: s) := by
  induction r generalizing s with
  | none => simp [deriv, Lang]
  | eps => simp [deriv, Lang]
  | cls p =>
    simp only [deriv, Lang]
    by_cases h : p c = true
    · simp only [h, if_true, Lang]
      constructor
      · rintro rfl; exact ⟨c, h, rfl⟩
      · rintro ⟨d, _, hd⟩
        simp only [List.cons.injEq] at hd; exact hd.2
    · simp only [h]
      constructor
      · intro h; cases h
      · rintro ⟨d, h1, hd⟩
        simp only [List.cons.injEq] at hd; rw [hd.1] at h; exact h h1
  | seq a b iha ihb =>
    have key : Lang (.seq a b) (c :: s) ↔
        (Lang (.seq (deriv c a) b) s ∨ (Lang a [] ∧ Lang b (c :: s))) := by
      simp only [Lang]
      constructor
      · rintro ⟨x, y, h, h1, h2⟩
        cases x with
        | nil => right; simp only [List.nil_append] at h; rw [h]; exact ⟨h1, h2⟩
        | cons d x =>
          simp only [List.cons_append, List.cons.injEq] at h
          obtain ⟨rfl, rfl⟩ := h
          left; exact ⟨x, y, rfl, (iha x).2 h1, h2⟩
      · rintro (⟨x, y, rfl, h1, h2⟩ | ⟨h1, h2⟩)
        · exact ⟨c :: x, y, rfl, (iha x).1 h1, h2⟩
        · exact ⟨[], c :: s, rfl, h1, h2⟩
    rw [key]
    simp only [deriv]
    split
    · next hn =>
      rw [lang_alt']
      simp only [Lang, lang_seq', ihb]
      rw [nullable_iff] at hn
      simp [hn]
    · next hn =>
      rw [lang_seq']
      rw [nullable_iff] at hn
      simp [hn]
  | alt a b iha ihb =>
    simp only [deriv, lang_alt', Lang, iha, ihb]
  | star a iha =>
    simp only [deriv, lang_seq', Lang, Star.cons_iff, iha]

theorem fullmatch_iff (r : Re) (s : Str) : fullmatch r s = true ↔ Lang r s := by
  induction s generalizing r with
  | nil => simp [fullmatch, nullable_iff]
  | cons c s ih =>
    rw [← deriv_iff]
    unfold fullmatch
    split
    · next h => simp [h, Lang]
    · next h => rw [ih]

theorem matchPrefix_iff (r : Re) (s : Str) :
    matchPrefix r s = true ↔ ∃ x y, s = x ++ y ∧ Lang r x := by
  induction s generalizing r with
  | nil =>
    simp only [matchPrefix, nullable_iff]
    constructor
    · intro h; exact ⟨[], [], rfl, h⟩
    · rintro ⟨x, y, h, h1⟩
      rw [(List.append_eq_nil_iff.1 h.symm).1] at h1; exact h1
  | cons c s ih =>
    have hrest : (match deriv c r with
        | .none => false
        | r' => matchPrefix r' s) = true ↔ ∃ x y, s = x ++ y ∧ Lang r (c :: x) := by
      split
      · next h =>
        simp only [Bool.false_eq_true, false_iff]
        rintro ⟨x, y, _, h1⟩
        rw [← deriv_iff, h] at h1; exact h1
      · next h =>
        rw [ih]
        simp only [deriv_iff]
    unfold matchPrefix
    rw [Bool.or_eq_true, nullable_iff, hrest]
    constructor
    · rintro (h | ⟨x, y, rfl, h⟩)
      · exact ⟨[], _, rfl, h⟩
      · exact ⟨c :: x, y, rfl, h⟩
    · rintro ⟨x, y, h, h1⟩
      cases x with
      | nil => left; exact h1
      | cons d x =>
        simp only [List.cons_append, List.cons.injEq] at h
        obtain ⟨rfl, rfl⟩ := h
        right; exact ⟨x, y, rfl, h1⟩

/-- A full match is in particular a prefix match. -/
theorem matchPrefix_of_fullmatch {r : Re} {s : Str} (h : fullmatch r s = true) :
    matchPrefix r s = true :=
  (matchPrefix_iff r s).2 ⟨s, [], by simp, (fullmatch_iff r s).1 h⟩

end Re

end Epc
