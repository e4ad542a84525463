/-
Lemmas about the texts of regular expressions: patterns that differ only in how sequences and alternatives are nested match the same texts,
and patterns that are a row of sets have matches of one length.
-/
import Verif.Py.Pattern

namespace Epc
namespace Pat

/-! ### Equal up to nesting -/

/-- `p` followed by `q`, nested to the right. -/
def app : Pat → Pat → Pat
  | .eps, q => q
  | .seq a b, q => .seq a (app b q)
  | p, .eps => p
  | p, q => .seq p q

/-- `p` or `q`, nested to the right. -/
def join : Pat → Pat → Pat
  | .alt a b, q => .alt a (join b q)
  | p, q => .alt p q

/-- The pattern with sequences and alternatives nested to the right. -/
def norm : Pat → Pat
  | .seq a b => app a.norm b.norm
  | .alt a b => join a.norm b.norm
  | .star a => .star a.norm
  | p => p

/-- Two patterns are written in the same way. -/
def same : Pat → Pat → Bool
  | .none, .none => true
  | .eps, .eps => true
  | .cls k, .cls l => decide (k = l)
  | .seq a b, .seq c d => same a c && same b d
  | .alt a b, .alt c d => same a c && same b d
  | .star a, .star c => same a c
  | _, _ => false

theorem same_eq : ∀ {p q : Pat}, same p q = true → p = q
  | .none, .none, _ => rfl
  | .eps, .eps, _ => rfl
  | .cls k, .cls l, h => by rw [same, decide_eq_true_iff] at h; rw [h]
  | .seq a b, .seq c d, h => by
    rw [same, Bool.and_eq_true] at h; rw [same_eq h.1, same_eq h.2]
  | .alt a b, .alt c d, h => by
    rw [same, Bool.and_eq_true] at h; rw [same_eq h.1, same_eq h.2]
  | .star a, .star c, h => by rw [same] at h; rw [same_eq h]

/-- Two regular expressions have the same language. -/
def Equiv (r t : Re) : Prop := ∀ s, Re.Lang r s ↔ Re.Lang t s

theorem Equiv.fullmatch {r t : Re} (h : Equiv r t) (s : Str) : r.fullmatch s = t.fullmatch s := by
  rw [Bool.eq_iff_iff, Re.fullmatch_iff, Re.fullmatch_iff]; exact h s

theorem Equiv.matchPrefix {r t : Re} (h : Equiv r t) (s : Str) : r.matchPrefix s = t.matchPrefix s := by
  rw [Bool.eq_iff_iff, Re.matchPrefix_iff, Re.matchPrefix_iff]
  simp only [h _]

theorem app_equiv : ∀ (p q : Pat), Equiv (app p q).toRe (Re.seq p.toRe q.toRe)
  | .eps, q => fun s => by
    simp only [app, toRe, Re.Lang]
    constructor
    · intro h; exact ⟨[], s, rfl, rfl, h⟩
    · rintro ⟨a, b, rfl, rfl, h⟩; exact h
  | .seq a b, q => fun s => by
    have ih := app_equiv b q
    simp only [app, toRe, Re.Lang]
    constructor
    · rintro ⟨x, y, rfl, hx, hy⟩
      obtain ⟨u, v, rfl, hu, hv⟩ := (ih y).1 hy
      exact ⟨x ++ u, v, by simp, ⟨x, u, rfl, hx, hu⟩, hv⟩
    · rintro ⟨x, y, rfl, ⟨u, v, rfl, hu, hv⟩, hy⟩
      exact ⟨u, v ++ y, by simp, hu, (ih _).2 ⟨v, y, rfl, hv, hy⟩⟩
  | .none, q => app_atom .none q (by cases q <;> rfl)
  | .cls k, q => app_atom (.cls k) q (by cases q <;> rfl)
  | .alt a b, q => app_atom (.alt a b) q (by cases q <;> rfl)
  | .star a, q => app_atom (.star a) q (by cases q <;> rfl)
where
  app_atom (p q : Pat) (h : app p q = match q with | .eps => p | q => .seq p q) : Equiv (app p q).toRe (Re.seq p.toRe q.toRe) := fun s => by
    rw [h]
    cases q with
    | eps =>
      simp only [toRe, Re.Lang]
      constructor
      · intro h; exact ⟨s, [], by simp, h, rfl⟩
      · rintro ⟨a, b, rfl, h, rfl⟩; simpa using h
    | _ => exact Iff.rfl

theorem join_equiv : ∀ (p q : Pat), Equiv (join p q).toRe (Re.alt p.toRe q.toRe)
  | .alt a b, q => fun s => by
    have ih := join_equiv b q s
    simp only [join, toRe, Re.Lang] at ih ⊢
    rw [ih, or_assoc]
  | .none, _ => fun _ => Iff.rfl
  | .eps, _ => fun _ => Iff.rfl
  | .cls _, _ => fun _ => Iff.rfl
  | .seq _ _, _ => fun _ => Iff.rfl
  | .star _, _ => fun _ => Iff.rfl

theorem seq_equiv {a b c d : Re} (h : Equiv a c) (k : Equiv b d) : Equiv (.seq a b) (.seq c d) := fun s => by
  simp only [Re.Lang, h _, k _]

theorem star_equiv {a b : Re} (h : Equiv a b) : Equiv (.star a) (.star b) := fun s => by
  have e : Re.Lang a = Re.Lang b := funext fun s => propext (h s)
  simp only [Re.Lang, e]

theorem norm_equiv : ∀ p : Pat, Equiv p.norm.toRe p.toRe
  | .seq a b => fun s => (app_equiv _ _ s).trans (seq_equiv (norm_equiv a) (norm_equiv b) s)
  | .alt a b => fun s => (join_equiv _ _ s).trans (by
      simp only [toRe, Re.Lang]
      rw [norm_equiv a s, norm_equiv b s])
  | .star a => star_equiv (norm_equiv a)
  | .none => fun _ => Iff.rfl
  | .eps => fun _ => Iff.rfl
  | .cls _ => fun _ => Iff.rfl

/-- The text is the text of a pattern that differs from `q` in nesting only. -/
def reads (text : Str) (q : Pat) : Bool :=
  match parse text with
  | some p => same p.norm q.norm
  | .none => false

theorem compile_of_reads {text : Str} {q : Pat} (h : reads text q = true) :
    ∃ r, compile text = some r ∧ Equiv r q.toRe := by
  unfold reads at h
  unfold compile
  cases hp : parse text with
  | none => rw [hp] at h; cases h
  | some p =>
    rw [hp] at h
    refine ⟨p.toRe, rfl, fun s => ?_⟩
    rw [← norm_equiv p s, same_eq h, norm_equiv q s]

/-! ### The meaning of the combinators -/

theorem toRe_rep (p : Pat) : ∀ n, (rep p n).toRe = Re.rep p.toRe n
  | 0 => rfl
  | n + 1 => by rw [rep, toRe, toRe_rep p n]; rfl
theorem toRe_upto (p : Pat) : ∀ n, (upto p n).toRe = Re.upto p.toRe n
  | 0 => rfl
  | n + 1 => by rw [upto, opt, toRe, toRe, toRe, toRe_upto p n]; rfl
theorem toRe_range (p : Pat) (m n : Nat) : (range p m n).toRe = Re.range p.toRe m n := by
  rw [range, toRe, toRe_rep, toRe_upto]; rfl
theorem toRe_plus (p : Pat) : (plus p).toRe = Re.plus p.toRe := rfl
theorem toRe_opt (p : Pat) : (opt p).toRe = Re.opt p.toRe := rfl
theorem toRe_seqs : ∀ l : List Pat, (seqs l).toRe = Re.seqs (l.map toRe)
  | [] => rfl
  | [_] => rfl
  | a :: b :: l => by rw [seqs, toRe, toRe_seqs (b :: l)]; rfl; exact fun h => by cases h
theorem toRe_alts : ∀ l : List Pat, (alts l).toRe = Re.alts (l.map toRe)
  | [] => rfl
  | [_] => rfl
  | a :: b :: l => by rw [alts, toRe, toRe_alts (b :: l)]; rfl; exact fun h => by cases h

/-- The pattern of a character. -/
def chr (c : Char) : Pat := .cls [.one c]
/-- The pattern of a text. -/
def lit : Str → Pat
  | [] => .eps
  | [c] => chr c
  | c :: s => .seq (chr c) (lit s)

theorem toRe_chr (c : Char) : (chr c).toRe = Re.chr c := by
  simp only [chr, toRe, Re.chr, List.any_cons, List.any_nil, Bool.or_false, Item.has]

/-! ### Rows of sets -/

/-- The sets of a pattern that is a row of sets. -/
def row : Pat → Option (List (List Item))
  | .eps => some []
  | .cls k => some [k]
  | .seq a b =>
    match a.row, b.row with
    | some l, some m => some (l ++ m)
    | _, _ => .none
  | _ => .none

/-- The characters of a set. -/
def chars (k : List Item) (c : Char) : Bool := k.any (Item.has c)

theorem fixedMatch_append : ∀ (l m : List (Char → Bool)) (s : Str),
    fixedMatch (l ++ m) s = (fixedMatch l s && fixedMatch m (s.drop l.length))
  | [], m, s => by cases s <;> simp [fixedMatch]
  | p :: l, m, [] => by simp [fixedMatch]
  | p :: l, m, c :: s => by
    simp only [List.cons_append, fixedMatch, fixedMatch_append l m s, List.length_cons, List.drop_succ_cons, Bool.and_assoc]

theorem lens_row : ∀ {p : Pat} {l : List (List Item)}, p.row = some l → ∀ s,
    p.lens s = if fixedMatch (l.map chars) s then [l.length] else []
  | .eps, l, h, s => by cases h; cases s <;> rfl
  | .cls k, l, h, s => by
    cases h
    cases s with
    | nil => rfl
    | cons c s =>
      simp only [lens, List.map_cons, List.map_nil, fixedMatch, chars, Bool.and_true, List.length_singleton]
  | .seq a b, l, h, s => by
    rw [row] at h
    split at h
    · rename_i x y hx hy
      cases h
      rw [lens, lens_row hx s, List.map_append, fixedMatch_append]
      cases h1 : fixedMatch (x.map chars) s with
      | false => simp
      | true =>
        simp only [if_true, List.flatMap_cons, List.flatMap_nil, List.append_nil, Bool.true_and, List.length_map, List.length_append]
        rw [lens_row hy]
        split <;> simp
    · cases h

theorem firstLen_row {p : Pat} {l : List (List Item)} (h : p.row = some l) (s : Str) : p.firstLen s = fixedLen (l.map chars) s := by
  rw [firstLen, lens_row h, fixedLen, List.length_map]
  split <;> rfl

theorem firstLen_alt (a b : Pat) (s : Str) : (Pat.alt a b).firstLen s =
    match a.firstLen s with
    | some n => some n
    | .none => b.firstLen s := by
  unfold firstLen
  rw [lens]
  cases a.lens s <;> rfl

end Pat
end Epc
