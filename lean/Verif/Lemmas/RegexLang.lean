/-
The languages of the regular expressions of `Verif/Model/Regexes.lean`.
-/
import Verif.Lemmas.Bridge
import Verif.Lemmas.Six

namespace Epc
open Spec Re

/-- A string of decimal digits of any script (what `\d*` matches). -/
def Dec (s : Str) : Prop := ∀ c ∈ s, isDecimal c = true

theorem Dec.nil : Dec [] := by intro c hc; cases hc
theorem Dec.cons {c : Char} {s : Str} : Dec (c :: s) ↔ isDecimal c = true ∧ Dec s := by simp [Dec]
theorem Dec.append {s t : Str} : Dec (s ++ t) ↔ Dec s ∧ Dec t := by
  simp only [Dec, List.mem_append]
  exact ⟨fun h => ⟨fun c hc => h c (.inl hc), fun c hc => h c (.inr hc)⟩,
    fun h c hc => hc.elim (h.1 c) (h.2 c)⟩
theorem dec_of_digits {s : Str} (h : Digits s) : Dec s := isDecimal_of_Digits h
theorem Dec.no_dot {s : Str} (h : Dec s) : '.' ∉ s := fun hm => isDecimal_ne_dot (h _ hm) rfl
theorem Dec.no_colon {s : Str} (h : Dec s) : ':' ∉ s := fun hm => isDecimal_ne_colon (h _ hm) rfl
theorem Dec.take {s : Str} (h : Dec s) (n : Nat) : Dec (s.take n) := fun c hc => h c (List.mem_of_mem_take hc)
theorem Dec.drop {s : Str} (h : Dec s) (n : Nat) : Dec (s.drop n) := fun c hc => h c (List.mem_of_mem_drop hc)

theorem lang_chr (c : Char) (s : Str) : Lang (Re.chr c) s ↔ s = [c] := by
  simp only [Re.chr, Lang, beq_iff_eq]
  constructor
  · rintro ⟨d, rfl, rfl⟩; rfl
  · rintro rfl; exact ⟨c, rfl, rfl⟩

theorem lang_lit (p s : Str) : Lang (lit p) s ↔ s = p := by
  induction p generalizing s with
  | nil => simp [lit, Lang]
  | cons c p ih =>
    cases p with
    | nil => simp only [lit]; exact lang_chr c s
    | cons d p =>
      simp only [lit, Lang]
      constructor
      · rintro ⟨x, y, rfl, hx, hy⟩
        rw [lang_chr] at hx
        have := (ih y).1 hy
        rw [hx, this]; rfl
      · rintro rfl
        exact ⟨[c], d :: p, rfl, (lang_chr _ _).2 rfl, (ih _).2 rfl⟩

theorem lang_lit_seq (p : Str) (r : Re) (s : Str) : Lang (.seq (lit p) r) s ↔ ∃ t, s = p ++ t ∧ Lang r t := by
  simp only [Lang, lang_lit]
  constructor
  · rintro ⟨x, y, rfl, rfl, h⟩; exact ⟨y, rfl, h⟩
  · rintro ⟨t, rfl, h⟩; exact ⟨p, t, rfl, rfl, h⟩

theorem lang_cls_star (p : Char → Bool) (s : Str) : Lang (.star (.cls p)) s ↔ ∀ c ∈ s, p c = true := by
  induction s with
  | nil => simp [Lang]; exact Star.nil
  | cons c s ih =>
    show Star _ _ ↔ _
    rw [Star.cons_iff]
    constructor
    · rintro ⟨x, y, rfl, ⟨d, hd, he⟩, h2⟩
      simp only [List.cons.injEq] at he
      obtain ⟨rfl, rfl⟩ := he
      intro e he
      rcases List.mem_cons.1 he with rfl | he
      · exact hd
      · exact ih.1 h2 e he
    · intro h
      exact ⟨[], s, rfl, ⟨c, h c (by simp), rfl⟩, ih.2 (fun d hd => h d (by simp [hd]))⟩

theorem lang_cls_plus (p : Char → Bool) (s : Str) : Lang (plus (.cls p)) s ↔ s ≠ [] ∧ ∀ c ∈ s, p c = true := by
  show (∃ x y, s = x ++ y ∧ Lang (.cls p) x ∧ Lang (.star (.cls p)) y) ↔ _
  simp only [lang_cls_star]
  constructor
  · rintro ⟨x, y, rfl, ⟨c, hc, rfl⟩, h⟩
    refine ⟨by simp, ?_⟩
    intro d hd
    simp only [List.cons_append, List.nil_append, List.mem_cons] at hd
    rcases hd with rfl | hd
    · exact hc
    · exact h d hd
  · rintro ⟨hne, h⟩
    cases s with
    | nil => exact absurd rfl hne
    | cons c s => exact ⟨[c], s, rfl, ⟨c, h c (by simp), rfl⟩, fun d hd => h d (by simp [hd])⟩

theorem lang_plus (r : Re) (s : Str) : Lang (plus r) s ↔ ∃ x y, s = x ++ y ∧ Lang r x ∧ Star (Lang r) y := Iff.rfl

theorem lang_padded (s : Str) : Lang Rx.padded s ↔ s ≠ [] ∧ Dec s := lang_cls_plus _ s
theorem lang_paddedOrEmpty (s : Str) : Lang Rx.paddedOrEmpty s ↔ Dec s := lang_cls_star _ s

theorem lang_dotted2 (a b : Re) (s : Str) :
    Lang (Rx.dotted2 a b) s ↔ ∃ x y, s = x ++ '.' :: y ∧ Lang a x ∧ Lang b y := by
  show (∃ x y, s = x ++ y ∧ Lang a x ∧ ∃ u v, y = u ++ v ∧ Lang Rx.dot u ∧ Lang b v) ↔ _
  constructor
  · rintro ⟨x, y, rfl, hx, u, v, rfl, hu, hv⟩
    rw [(lang_chr _ _).1 hu]; exact ⟨x, v, rfl, hx, hv⟩
  · rintro ⟨x, y, rfl, hx, hy⟩
    exact ⟨x, '.' :: y, rfl, hx, ['.'], y, rfl, (lang_chr _ _).2 rfl, hy⟩

theorem lang_dotted3 (a b c : Re) (s : Str) :
    Lang (Rx.dotted3 a b c) s ↔ ∃ x y z, s = x ++ '.' :: (y ++ '.' :: z) ∧ Lang a x ∧ Lang b y ∧ Lang c z := by
  have : Lang (Rx.dotted3 a b c) s ↔ Lang (Rx.dotted2 a (Rx.dotted2 b c)) s := Iff.rfl
  rw [this, lang_dotted2]
  simp only [lang_dotted2]
  constructor
  · rintro ⟨x, y, rfl, hx, u, v, rfl, hu, hv⟩; exact ⟨x, u, v, rfl, hx, hu, hv⟩
  · rintro ⟨x, y, z, rfl, hx, hy, hz⟩; exact ⟨x, _, rfl, hx, y, z, rfl, hy, hz⟩

theorem lang_rep_cls (p : Char → Bool) (n : Nat) (s : Str) :
    Lang (rep (.cls p) n) s ↔ s.length = n ∧ ∀ c ∈ s, p c = true := by
  induction n generalizing s with
  | zero => simp [rep, Lang]; rintro rfl; simp
  | succ n ih =>
    show (∃ x y, s = x ++ y ∧ Lang (.cls p) x ∧ Lang (rep (.cls p) n) y) ↔ _
    simp only [ih]
    constructor
    · rintro ⟨x, y, rfl, ⟨c, hc, rfl⟩, hl, h⟩
      refine ⟨by simp [hl], ?_⟩
      intro d hd
      simp only [List.cons_append, List.nil_append, List.mem_cons] at hd
      rcases hd with rfl | hd
      · exact hc
      · exact h d hd
    · rintro ⟨hl, h⟩
      cases s with
      | nil => simp at hl
      | cons c s => exact ⟨[c], s, rfl, ⟨c, h c (by simp), rfl⟩, by simpa using hl, fun d hd => h d (by simp [hd])⟩

theorem lang_upto_cls (p : Char → Bool) (n : Nat) (s : Str) :
    Lang (upto (.cls p) n) s ↔ s.length ≤ n ∧ ∀ c ∈ s, p c = true := by
  induction n generalizing s with
  | zero => simp [upto, Lang]; rintro rfl; simp
  | succ n ih =>
    show (s = [] ∨ ∃ x y, s = x ++ y ∧ Lang (.cls p) x ∧ Lang (upto (.cls p) n) y) ↔ _
    simp only [ih]
    constructor
    · rintro (rfl | ⟨x, y, rfl, ⟨c, hc, rfl⟩, hl, h⟩)
      · simp
      refine ⟨by simpa using hl, ?_⟩
      intro d hd
      simp only [List.cons_append, List.nil_append, List.mem_cons] at hd
      rcases hd with rfl | hd
      · exact hc
      · exact h d hd
    · rintro ⟨hl, h⟩
      cases s with
      | nil => exact .inl rfl
      | cons c s =>
        exact .inr ⟨[c], s, rfl, ⟨c, h c (by simp), rfl⟩, by simpa using hl, fun d hd => h d (by simp [hd])⟩

theorem lang_range_cls (p : Char → Bool) {m n : Nat} (hmn : m ≤ n) (s : Str) :
    Lang (Re.range (.cls p) m n) s ↔ (m ≤ s.length ∧ s.length ≤ n) ∧ ∀ c ∈ s, p c = true := by
  show (∃ x y, s = x ++ y ∧ Lang (rep (.cls p) m) x ∧ Lang (upto (.cls p) (n - m)) y) ↔ _
  simp only [lang_rep_cls, lang_upto_cls]
  constructor
  · rintro ⟨x, y, rfl, ⟨hx, h1⟩, hy, h2⟩
    refine ⟨by simp; omega, ?_⟩
    intro c hc
    rcases List.mem_append.1 hc with hc | hc
    · exact h1 c hc
    · exact h2 c hc
  · rintro ⟨⟨h1, h2⟩, h⟩
    refine ⟨s.take m, s.drop m, (List.take_append_drop m s).symm, ⟨by simp; omega, fun c hc => h c (List.mem_of_mem_take hc)⟩,
      by simp; omega, fun c hc => h c (List.mem_of_mem_drop hc)⟩

/-- `NUMERIC_COMPONENT`: zero, or digits (of any script after the first) without leading zero. -/
def Num (s : Str) : Prop := s = ['0'] ∨ ∃ c t, s = c :: t ∧ isDigitA c = true ∧ c ≠ '0' ∧ Dec t

theorem lang_numeric (s : Str) : Lang Rx.numeric s ↔ Num s := by
  show (Lang (lit (py "0")) s ∨ ∃ x y, s = x ++ y ∧ Lang (.cls _) x ∧ Lang (.star (.cls isDecimal)) y) ↔ _
  rw [lang_lit]
  simp only [lang_cls_star, Num]
  constructor
  · rintro (h | ⟨x, y, rfl, ⟨c, hc, rfl⟩, h⟩)
    · exact .inl h
    · simp only [Bool.and_eq_true, bne_iff_ne] at hc
      exact .inr ⟨c, y, rfl, hc.1, hc.2, h⟩
  · rintro (h | ⟨c, t, rfl, h1, h2, h3⟩)
    · exact .inl h
    · exact .inr ⟨[c], t, rfl, ⟨c, by simp [h1, h2], rfl⟩, h3⟩

theorem Num.dec {s : Str} (h : Num s) : Dec s := by
  rcases h with rfl | ⟨c, t, rfl, h1, _, h3⟩
  · intro c hc; rw [List.mem_singleton.1 hc]; decide
  · exact Dec.cons.2 ⟨isDecimal_of_isDigitA h1, h3⟩

theorem Num.ne_nil {s : Str} (h : Num s) : s ≠ [] := by
  rcases h with rfl | ⟨c, t, rfl, _⟩ <;> simp

theorem Num.no_zero {s : Str} (h : Num s) : ¬ (s.length > 1 ∧ s.head? = some '0') := by
  rcases h with rfl | ⟨c, t, rfl, _, h, _⟩
  · simp
  · simp [h]

theorem num_of_digits {s : Str} (h : Digits s) (hne : s ≠ []) (hz : ¬ (s.length > 1 ∧ s.head? = some '0')) : Num s := by
  cases s with
  | nil => exact absurd rfl hne
  | cons c t =>
    rw [Digits_cons] at h
    by_cases hc : c = '0'
    · subst hc
      cases t with
      | nil => exact .inl rfl
      | cons d t => exact absurd ⟨by simp, rfl⟩ hz
    · exact .inr ⟨c, t, rfl, (mem_digits c).1 h.1, hc, dec_of_digits h.2⟩

theorem num_natStr (n : Nat) : Num (natStr n) := by
  have h := Digits_natStr n
  by_cases hz : (natStr n).length > 1 ∧ (natStr n).head? = some '0'
  · exfalso
    cases hs : natStr n with
    | nil => exact natStr_ne_nil n hs
    | cons c t =>
      rw [hs] at hz h
      simp only [List.length_cons, List.head?_cons, Option.some.injEq] at hz
      obtain ⟨h1, rfl⟩ := hz
      have hv := number_natStr n
      rw [hs] at hv
      rw [Digits_cons] at h
      have h2 : number ('0' :: t) = number t := by simp [number]
      have h3 := number_lt h.2
      have h4 : n < 10 ^ t.length := by omega
      have h5 := length_toDigits_le (b := 10) (n := n) (w := t.length) (by decide) (by omega) h4
      have h6 : (natStr n).length = t.length + 1 := by rw [hs]; simp
      unfold natStr at h6
      omega
  · exact num_of_digits h (natStr_ne_nil n) hz


/-! ### Serial numbers -/

theorem star_flatMap {L : Str → Prop} {p : Char → Prop} {e : Char → Str} (hL : ∀ s, L s ↔ ∃ c, p c ∧ s = e c) (s : Str) :
    Star L s ↔ ∃ raw : Str, (∀ c ∈ raw, p c) ∧ s = raw.flatMap e := by
  constructor
  · intro h
    induction h with
    | nil => exact ⟨[], by simp, rfl⟩
    | @cons a b ha hb ih =>
      obtain ⟨c, hc, rfl⟩ := (hL a).1 ha
      obtain ⟨raw, hr, rfl⟩ := ih
      refine ⟨c :: raw, ?_, by simp⟩
      intro d hd
      rcases List.mem_cons.1 hd with rfl | hd
      · exact hc
      · exact hr d hd
  · rintro ⟨raw, hr, rfl⟩
    induction raw with
    | nil => exact Star.nil
    | cons c raw ih =>
      rw [List.flatMap_cons]
      exact Star.cons ((hL _).2 ⟨c, hr c (by simp), rfl⟩) (ih (fun d hd => hr d (by simp [hd])))

theorem lang_gs3a3Char (s : Str) :
    Lang Rx.gs3a3Char s ↔ (∃ h, isHexA h = true ∧ s = ['%', h]) ∨ ∃ c, isGs3a3Plain c = true ∧ s = [c] := by
  show ((∃ x y, s = x ++ y ∧ Lang (Re.chr '%') x ∧ Lang (.cls isHexA) y) ∨ Lang (.cls isGs3a3Plain) s) ↔ _
  simp only [lang_chr]
  constructor
  · rintro (⟨x, y, rfl, rfl, h, hh, rfl⟩ | h)
    · exact .inl ⟨h, hh, rfl⟩
    · exact .inr h
  · rintro (⟨h, hh, rfl⟩ | h)
    · exact .inl ⟨_, [h], rfl, rfl, h, hh, rfl⟩
    · exact .inr h

theorem isHexA_lt {c : Char} (h : isHexA c = true) : c.toNat < 128 := by
  simp only [isHexA, Bool.or_eq_true, Bool.and_eq_true, decide_eq_true_eq, isDigitA_iff, char_le_iff] at h
  have h1 : 'f'.toNat = 102 := rfl
  have h2 : 'F'.toNat = 70 := rfl
  omega

theorem isGs3a3Plain_of_hex {c : Char} (h : isHexA c = true) : isGs3a3Plain c = true := by
  have := ascii_forall (P := fun c => isHexA c = true → isGs3a3Plain c = true) (by decide +kernel) c (isHexA_lt h)
  exact this h

theorem star_gs3a3_mem {s : Str} (h : Star (Lang Rx.gs3a3Char) s) : ∀ c ∈ s, c = '%' ∨ isGs3a3Plain c = true := by
  induction h with
  | nil => simp
  | @cons a b ha hb ih =>
    intro c hc
    rcases List.mem_append.1 hc with hc | hc
    · rcases (lang_gs3a3Char a).1 ha with ⟨d, hd, rfl⟩ | ⟨d, hd, rfl⟩
      · simp only [List.mem_cons, List.not_mem_nil, or_false] at hc
        rcases hc with rfl | rfl
        · exact .inl rfl
        · exact .inr (isGs3a3Plain_of_hex hd)
      · rw [List.mem_singleton.1 hc]; exact .inr hd
    · exact ih c hc

theorem gs3a3_star {s : Str} (h : Lang Rx.gs3a3 s) : Star (Lang Rx.gs3a3Char) s := by
  obtain ⟨x, y, rfl, h1, h2⟩ := h
  exact Star.cons h1 h2

theorem gs3a3_mem {s : Str} (h : Lang Rx.gs3a3 s) : ∀ c ∈ s, c = '%' ∨ isGs3a3Plain c = true :=
  star_gs3a3_mem (gs3a3_star h)

theorem gs3a3_ascii {s : Str} (h : Lang Rx.gs3a3 s) : Ascii s := by
  intro c hc
  rcases gs3a3_mem h c hc with rfl | h
  · decide
  · exact isGs3a3Plain_lt h

theorem gs3a3_ne_nil {s : Str} (h : Lang Rx.gs3a3 s) : s ≠ [] := by
  obtain ⟨x, y, rfl, h1, h2⟩ := h
  rcases (lang_gs3a3Char x).1 h1 with ⟨d, hd, rfl⟩ | ⟨d, hd, rfl⟩ <;> simp

theorem gs3a3_of_star {s : Str} (h : Star (Lang Rx.gs3a3Char) s) (hne : s ≠ []) : Lang Rx.gs3a3 s := by
  cases s with
  | nil => exact absurd rfl hne
  | cons c s =>
    obtain ⟨x, y, rfl, h1, h2⟩ := Star.cons_iff.1 h
    exact ⟨c :: x, y, rfl, h1, h2⟩

theorem escChar_star {c : Char} (h : c ∈ gs82) : Star (Lang Rx.gs3a3Char) (escChar c) := by
  have hex2 : ∀ a b, isHexA a = true → isHexA b = true → Star (Lang Rx.gs3a3Char) ['%', a, b] := by
    intro a b ha hb
    exact Star.cons (a := ['%', a]) ((lang_gs3a3Char _).2 (.inl ⟨a, ha, rfl⟩))
      (Star.cons (a := [b]) (b := []) ((lang_gs3a3Char _).2 (.inr ⟨b, isGs3a3Plain_of_hex hb, rfl⟩)) Star.nil)
  rcases escChar_cases c with hc | ⟨hc, _⟩
  · rcases hc with rfl | rfl | rfl | rfl | rfl | rfl | rfl <;> exact hex2 _ _ (by decide) (by decide)
  · rw [hc]
    have h1 := (mem_gs82 c).1 h
    have h2 : isGs3a3Plain c = true := by
      simp only [isGs3a3Any, Bool.or_eq_true] at h1
      rcases h1 with h1 | h1
      · exact h1
      · exfalso
        have := ascii_forall (P := fun c => isEscaped c = true → escChar c = [c] → False) (by decide +kernel) c
          (isEscaped_lt h1)
        exact this h1 hc
    exact Star.cons (a := [c]) (b := []) ((lang_gs3a3Char _).2 (.inr ⟨c, h2, rfl⟩)) Star.nil

theorem star_append {L : Str → Prop} {a b : Str} (ha : Star L a) (hb : Star L b) : Star L (a ++ b) := by
  induction ha with
  | nil => exact hb
  | @cons x y hx hy ih => rw [List.append_assoc]; exact Star.cons hx ih

theorem escape_cons (c : Char) (raw : Str) : escape (c :: raw) = escChar c ++ escape raw := by
  simp [escape]

theorem escape_append (a b : Str) : escape (a ++ b) = escape a ++ escape b := by
  simp [escape]

theorem escChar_ne_nil (c : Char) : escChar c ≠ [] := by
  rcases escChar_cases c with hc | ⟨hc, _⟩
  · rcases hc with rfl | rfl | rfl | rfl | rfl | rfl | rfl <;> decide
  · rw [hc]; simp

theorem escape_ne_nil {raw : Str} (h : raw ≠ []) : escape raw ≠ [] := by
  cases raw with
  | nil => exact absurd rfl h
  | cons c raw =>
    rw [escape_cons]
    intro e
    exact escChar_ne_nil c (List.append_eq_nil_iff.1 e).1

theorem escape_star {raw : Str} (h : ∀ c ∈ raw, c ∈ gs82) : Star (Lang Rx.gs3a3Char) (escape raw) := by
  induction raw with
  | nil => exact Star.nil
  | cons c raw ih =>
    rw [escape_cons]
    exact star_append (escChar_star (h c (by simp))) (ih (fun d hd => h d (by simp [hd])))

/-- Canonical serials match the component pattern. -/
theorem gs3a3_escape {raw : Str} (h : ∀ c ∈ raw, c ∈ gs82) (hne : raw ≠ []) : Lang Rx.gs3a3 (escape raw) :=
  gs3a3_of_star (escape_star h) (escape_ne_nil hne)

theorem gs3a3_canonical {s : Str} (h : Canonical s) : Lang Rx.gs3a3 s := by
  obtain ⟨raw, hne, hr, rfl⟩ := h
  exact gs3a3_escape hr hne

theorem isGs3a3Plain_of_digit {c : Char} (h : isDigitA c = true) : isGs3a3Plain c = true := by
  simp [isGs3a3Plain, h]

theorem escape_digits {s : Str} (h : Digits s) : escape s = s := by
  induction s with
  | nil => rfl
  | cons c s ih =>
    rw [Digits_cons] at h
    rw [escape_cons, ih h.2]
    have := ascii_forall (P := fun c => isDigitA c = true → escChar c = [c]) (by decide +kernel) c
      (isDigitA_lt ((mem_digits c).1 h.1)) ((mem_digits c).1 h.1)
    rw [this]; rfl

theorem gs82_of_digits {s : Str} (h : Digits s) : ∀ c ∈ s, c ∈ gs82 := by
  intro c hc
  have := (mem_digits c).1 (h c hc)
  rw [mem_gs82]; simp [isGs3a3Any, isGs3a3Plain_of_digit this]

theorem canonical_digits {s : Str} (h : Digits s) (hne : s ≠ []) : Canonical s :=
  ⟨s, hne, gs82_of_digits h, (escape_digits h).symm⟩

/-! ### Component/part references and CAGE codes -/

theorem isUpperA_lt {c : Char} (h : Rx.isUpperA c = true) : c.toNat < 128 := by
  simp only [Rx.isUpperA, Bool.and_eq_true, decide_eq_true_eq, char_le_iff] at h
  have h1 : 'Z'.toNat = 90 := rfl
  omega

theorem isCprefPlain_lt {c : Char} (h : Rx.isCprefPlain c = true) : c.toNat < 128 := by
  simp only [Rx.isCprefPlain, Bool.or_eq_true, beq_iff_eq] at h
  rcases h with (h | h) | rfl
  · exact isDigitA_lt h
  · exact isUpperA_lt h
  · decide

theorem gs39_lt {c : Char} (h : c ∈ gs39) : c.toNat < 128 := by
  have : ∀ c ∈ gs39, c.toNat < 128 := by decide +kernel
  exact this c h

theorem mem_gs39 (c : Char) : c ∈ gs39 ↔ Rx.isCprefPlain c = true ∨ c = '#' ∨ c = '/' := by
  by_cases hc : c.toNat < 128
  · exact ascii_forall (P := fun c => c ∈ gs39 ↔ Rx.isCprefPlain c = true ∨ c = '#' ∨ c = '/') (by decide +kernel) c hc
  · constructor
    · intro h; exact absurd (gs39_lt h) hc
    · rintro (h | rfl | rfl)
      · exact absurd (isCprefPlain_lt h) hc
      · exact absurd (by decide) hc
      · exact absurd (by decide) hc

theorem cprefPlain_esc {c : Char} (h : Rx.isCprefPlain c = true) : escChar39 c = [c] ∧ c ≠ '#' ∧ c ≠ '/' ∧ c ≠ '.' ∧ c ≠ ':' :=
  ascii_forall (P := fun c => Rx.isCprefPlain c = true → escChar39 c = [c] ∧ c ≠ '#' ∧ c ≠ '/' ∧ c ≠ '.' ∧ c ≠ ':')
    (by decide +kernel) c (isCprefPlain_lt h) h

theorem lang_cprefChar (s : Str) :
    Lang (alts [.cls Rx.isCprefPlain, lit (py "%2F"), lit (py "%23")]) s ↔ ∃ c, c ∈ gs39 ∧ s = escChar39 c := by
  show (Lang (.cls Rx.isCprefPlain) s ∨ Lang (lit (py "%2F")) s ∨ Lang (lit (py "%23")) s) ↔ _
  simp only [lang_lit]
  constructor
  · rintro (⟨c, hc, rfl⟩ | rfl | rfl)
    · exact ⟨c, (mem_gs39 c).2 (.inl hc), (cprefPlain_esc hc).1.symm⟩
    · exact ⟨'/', by decide, by decide⟩
    · exact ⟨'#', by decide, by decide⟩
  · rintro ⟨c, hc, rfl⟩
    rcases (mem_gs39 c).1 hc with h | rfl | rfl
    · exact .inl ⟨c, h, (cprefPlain_esc h).1⟩
    · exact .inr (.inr (by decide))
    · exact .inr (.inl (by decide))

theorem escChar39_ne_nil (c : Char) : escChar39 c ≠ [] := by
  unfold escChar39; split
  · simp
  · split <;> simp

theorem escape39_cons (c : Char) (raw : Str) : escape39 (c :: raw) = escChar39 c ++ escape39 raw := by
  simp [escape39]

theorem escape39_append (a b : Str) : escape39 (a ++ b) = escape39 a ++ escape39 b := by
  simp [escape39]

theorem escape39_eq_nil {raw : Str} : escape39 raw = [] ↔ raw = [] := by
  cases raw with
  | nil => simp [escape39]
  | cons c raw =>
    rw [escape39_cons]
    simp [escChar39_ne_nil]

theorem lang_cpref (s : Str) : Lang Rx.cpref s ↔ ∃ raw, raw ≠ [] ∧ (∀ c ∈ raw, c ∈ gs39) ∧ s = escape39 raw := by
  constructor
  · rintro ⟨x, y, rfl, hx, hy⟩
    obtain ⟨raw, h1, h2⟩ := (star_flatMap (p := fun c => c ∈ gs39) (e := escChar39) lang_cprefChar y).1 hy
    obtain ⟨c, hc, rfl⟩ := (lang_cprefChar x).1 hx
    refine ⟨c :: raw, by simp, ?_, by rw [h2]; simp [escape39]⟩
    intro d hd
    rcases List.mem_cons.1 hd with rfl | hd
    · exact hc
    · exact h1 d hd
  · rintro ⟨raw, hne, hr, rfl⟩
    cases raw with
    | nil => exact absurd rfl hne
    | cons c raw =>
      exact ⟨escChar39 c, escape39 raw, escape39_cons c raw, (lang_cprefChar _).2 ⟨c, hr c (by simp), rfl⟩,
        (star_flatMap (p := fun c => c ∈ gs39) (e := escChar39) lang_cprefChar _).2
          ⟨raw, fun d hd => hr d (by simp [hd]), rfl⟩⟩

theorem escape39_mem {raw : Str} (h : ∀ c ∈ raw, c ∈ gs39) : ∀ c ∈ escape39 raw, c.toNat < 128 ∧ c ≠ '.' ∧ c ≠ ':' := by
  intro c hc
  obtain ⟨d, hd, hcd⟩ := List.mem_flatMap.1 hc
  have : ∀ d ∈ gs39, ∀ c ∈ escChar39 d, c.toNat < 128 ∧ c ≠ '.' ∧ c ≠ ':' := by decide +kernel
  exact this d (h d hd) c hcd

theorem escape39_no_dot {raw : Str} (h : ∀ c ∈ raw, c ∈ gs39) : '.' ∉ escape39 raw :=
  fun hm => (escape39_mem h _ hm).2.1 rfl
theorem escape39_no_colon {raw : Str} (h : ∀ c ∈ raw, c ∈ gs39) : ':' ∉ escape39 raw :=
  fun hm => (escape39_mem h _ hm).2.2 rfl

theorem lang_adiChar (s : Str) : Lang Rx.adiChar s ↔ ∃ c, (c ∈ gs39 ∧ c ≠ '#') ∧ s = escChar39 c := by
  show (Lang (.cls Rx.isCprefPlain) s ∨ Lang (lit (py "%2F")) s) ↔ _
  simp only [lang_lit]
  constructor
  · rintro (⟨c, hc, rfl⟩ | rfl)
    · exact ⟨c, ⟨(mem_gs39 c).2 (.inl hc), (cprefPlain_esc hc).2.1⟩, (cprefPlain_esc hc).1.symm⟩
    · exact ⟨'/', by decide, by decide⟩
  · rintro ⟨c, ⟨hc, hne⟩, rfl⟩
    rcases (mem_gs39 c).1 hc with h | rfl | rfl
    · exact .inl ⟨c, h, (cprefPlain_esc h).1⟩
    · exact absurd rfl hne
    · exact .inr (by decide)

/-- ADI part numbers. -/
theorem lang_adiPart (s : Str) :
    Lang (.star Rx.adiChar) s ↔ ∃ raw, (∀ c ∈ raw, c ∈ gs39 ∧ c ≠ '#') ∧ s = escape39 raw :=
  star_flatMap (p := fun c => c ∈ gs39 ∧ c ≠ '#') (e := escChar39) lang_adiChar s

/-- ADI serial numbers: an optional `#` and a non-empty text without `#`. -/
theorem lang_adiSerial (s : Str) :
    Lang (.seq (opt (lit (py "%23"))) (plus Rx.adiChar)) s ↔
      ∃ raw, ((∃ c t, raw = c :: t ∧ c ≠ '#') ∨ (∃ c t, raw = '#' :: c :: t ∧ c ≠ '#')) ∧ (∀ c ∈ raw, c ∈ gs39) ∧
        '#' ∉ raw.tail ∧ s = escape39 raw := by
  show (∃ x y, s = x ++ y ∧ (x = [] ∨ Lang (lit (py "%23")) x) ∧ Lang (plus Rx.adiChar) y) ↔ _
  simp only [lang_lit, lang_plus]
  have hs := fun t => star_flatMap (p := fun c => c ∈ gs39 ∧ c ≠ '#') (e := escChar39) lang_adiChar t
  constructor
  · rintro ⟨x, y, rfl, hx, u, v, rfl, hu, hv⟩
    obtain ⟨c, ⟨hc1, hc2⟩, rfl⟩ := (lang_adiChar u).1 hu
    obtain ⟨raw, hr, rfl⟩ := (hs v).1 hv
    rcases hx with rfl | rfl
    · refine ⟨c :: raw, .inl ⟨c, raw, rfl, hc2⟩, ?_, fun hm => (hr _ hm).2 rfl, by simp [escape39]⟩
      intro d hd
      rcases List.mem_cons.1 hd with rfl | hd
      · exact hc1
      · exact (hr d hd).1
    · refine ⟨'#' :: c :: raw, .inr ⟨c, raw, rfl, hc2⟩, ?_, ?_, ?_⟩
      · intro d hd
        rcases List.mem_cons.1 hd with rfl | hd
        · decide
        rcases List.mem_cons.1 hd with rfl | hd
        · exact hc1
        · exact (hr d hd).1
      · intro hm
        rcases List.mem_cons.1 hm with hd | hd
        · exact hc2 hd.symm
        · exact (hr _ hd).2 rfl
      · simp [escape39, escChar39]
  · rintro ⟨raw, hraw, hg, ht, rfl⟩
    rcases hraw with ⟨c, t, rfl, hc⟩ | ⟨c, t, rfl, hc⟩
    · refine ⟨[], _, rfl, .inl rfl, escChar39 c, escape39 t, escape39_cons c t,
        (lang_adiChar _).2 ⟨c, ⟨hg c (by simp), hc⟩, rfl⟩, (hs _).2 ⟨t, ?_, rfl⟩⟩
      intro d hd
      exact ⟨hg d (by simp [hd]), fun e => ht (by rw [← e]; exact hd)⟩
    · refine ⟨py "%23", escape39 (c :: t), by rw [escape39_cons]; rfl, .inr rfl, escChar39 c, escape39 t, escape39_cons c t,
        (lang_adiChar _).2 ⟨c, ⟨hg c (by simp), hc⟩, rfl⟩, (hs _).2 ⟨t, ?_, rfl⟩⟩
      intro d hd
      exact ⟨hg d (by simp [hd]), fun e => ht (by rw [← e]; simp [hd])⟩

theorem isCage_facts {c : Char} (h : Rx.isCage c = true) : c ∈ gs39 ∧ c ≠ '#' ∧ c ≠ '/' ∧ c ≠ '-' ∧ c.toNat < 128 := by
  have hl : c.toNat < 128 := by
    simp only [Rx.isCage, Bool.or_eq_true, Bool.and_eq_true] at h
    rcases h with h | h
    · exact isDigitA_lt h
    · exact isUpperA_lt h.1.1
  exact ascii_forall (P := fun c => Rx.isCage c = true → c ∈ gs39 ∧ c ≠ '#' ∧ c ≠ '/' ∧ c ≠ '-' ∧ c.toNat < 128)
    (by decide +kernel) c hl h

theorem lang_cage (s : Str) : Lang Rx.cage s ↔ (5 ≤ s.length ∧ s.length ≤ 6) ∧ ∀ c ∈ s, Rx.isCage c = true :=
  lang_range_cls _ (by decide) s

theorem escape39_cage {s : Str} (h : ∀ c ∈ s, Rx.isCage c = true) : escape39 s = s := by
  induction s with
  | nil => rfl
  | cons c s ih =>
    rw [escape39_cons, ih (fun d hd => h d (by simp [hd]))]
    have := isCage_facts (h c (by simp))
    simp [escChar39, this.2.1, this.2.2.1]

end Epc
