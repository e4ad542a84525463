/-
What `int(text, 16)` and `verify_gs3a3_component` do, exactly.
-/
import Verif.Lemmas.SerialText
import Verif.Lemmas.Unescape
import Verif.Spec.Pieces

namespace Epc
open Spec

/-- Well-formed rest of a number after a digit. -/
def HexRest (s : Str) : Prop := (∀ c ∈ s, c ∈ py "0123456789abcdefABCDEF_") ∧ s.getLast? ≠ some '_' ∧ ¬ py "__" <:+: s

theorem digitIn16 (c : Char) : (c ∈ py "0123456789abcdefABCDEF" ∧ digitIn 16 c = some (hexVal c) ∧ c ≠ '_') ∨
    (c ∉ py "0123456789abcdefABCDEF" ∧ digitIn 16 c = none) := by
  by_cases h : c.toNat < 128
  · have key : ∀ n : Fin 128, (Char.ofNat n ∈ py "0123456789abcdefABCDEF" ∧ digitIn 16 (Char.ofNat n) = some (hexVal (Char.ofNat n)) ∧ Char.ofNat n ≠ '_') ∨
      (Char.ofNat n ∉ py "0123456789abcdefABCDEF" ∧ digitIn 16 (Char.ofNat n) = none) := by decide +kernel
    have := key ⟨c.toNat, h⟩
    dsimp only at this
    rwa [Char.ofNat_toNat] at this
  · right
    have hm : ∀ x ∈ py "0123456789abcdefABCDEF", x.toNat < 128 := by decide
    refine ⟨fun hc => h (hm c hc), ?_⟩
    unfold digitIn digitVal
    simp only
    rw [if_neg (by omega), if_neg (by omega), if_neg (by omega)]

theorem infix2_cons {c : Char} {s : Str} : py "__" <:+: c :: s ↔ (c = '_' ∧ s.head? = some '_') ∨ py "__" <:+: s := by
  rw [List.infix_cons_iff]
  refine or_congr ?_ Iff.rfl
  rw [show py "__" = ['_', '_'] from rfl, List.cons_prefix_cons]
  cases s with
  | nil => simp
  | cons d t => simp [List.cons_prefix_cons, eq_comm]

theorem hexRest_digit {c : Char} {s : Str} (h : c ∈ py "0123456789abcdefABCDEF") (h' : c ≠ '_') : HexRest (c :: s) ↔ HexRest s := by
  unfold HexRest
  rw [infix2_cons]
  have hm : c ∈ py "0123456789abcdefABCDEF_" := by
    rw [show py "0123456789abcdefABCDEF_" = py "0123456789abcdefABCDEF" ++ ['_'] from rfl]; exact List.mem_append_left _ h
  have hl : (c :: s).getLast? ≠ some '_' ↔ s.getLast? ≠ some '_' := by
    cases s with
    | nil => simp [h']
    | cons d t => rw [List.getLast?_cons_cons]
  rw [hl, List.forall_mem_cons]
  constructor
  · rintro ⟨⟨_, a⟩, b, d⟩; exact ⟨a, b, fun e => d (.inr e)⟩
  · rintro ⟨a, b, d⟩
    refine ⟨⟨hm, a⟩, b, ?_⟩
    rintro (e | e)
    · exact h' e.1
    · exact d e

theorem hexRest_nil : HexRest [] := ⟨fun _ h => (by cases h), (by simp), fun h => (by have := List.IsInfix.length_le h; simp at this)⟩

theorem digitsGo_digit {b acc d : Nat} {c : Char} {cs : Str} (h : digitIn b c = some d) : digitsGo b acc (c :: cs) = digitsGo b (acc * b + d) cs := by
  rw [digitsGo.eq_def]; simp only [h]

theorem digitsGo_under {b acc d : Nat} {c : Char} {cs : Str} (hu : digitIn b '_' = none) (h : digitIn b c = some d) :
    digitsGo b acc ('_' :: c :: cs) = digitsGo b (acc * b + d) cs := by
  rw [digitsGo.eq_def]; simp only [h, hu, if_pos]

theorem digitsGo_bad {b acc : Nat} {c : Char} {cs : Str} (h : digitIn b c = none) (hu : c ≠ '_' ∨ cs = [] ∨ ∃ d t, cs = d :: t ∧ digitIn b d = none) :
    digitsGo b acc (c :: cs) = none := by
  rw [digitsGo.eq_def]
  simp only [h]
  by_cases hc : c = '_'
  · rw [if_pos hc]
    rcases hu with hu | rfl | ⟨d, t, rfl, hd⟩
    · exact absurd hc hu
    · rfl
    · simp only [hd]
  · rw [if_neg hc]

theorem digitsGo16_iff : ∀ (k : Nat) (s : Str), s.length ≤ k → ∀ acc n, digitsGo 16 acc s = some n ↔
    HexRest s ∧ n = (s.filter (· ≠ '_')).foldl (fun n c => 16 * n + hexVal c) acc := by
  intro k
  induction k with
  | zero =>
    intro s hs acc n
    have : s = [] := List.length_eq_zero_iff.1 (by omega)
    subst this
    simp [digitsGo, hexRest_nil, eq_comm]
  | succ k ih =>
    intro s hs acc n
    cases s with
    | nil => simp [digitsGo, hexRest_nil, eq_comm]
    | cons c cs =>
      simp only [List.length_cons] at hs
      rcases digitIn16 c with ⟨hc, hd, hu⟩ | ⟨hc, hd⟩
      · rw [digitsGo_digit hd, hexRest_digit hc hu, List.filter_cons, if_pos (by simpa using hu), List.foldl_cons, ih cs (by omega),
          Nat.mul_comm]
      · by_cases hu : c = '_'
        · subst hu
          cases cs with
          | nil =>
            rw [digitsGo_bad hd (.inr (.inl rfl))]
            constructor
            · intro h; cases h
            · rintro ⟨⟨_, h, _⟩, _⟩; exact absurd rfl h
          | cons c' cs' =>
            simp only [List.length_cons] at hs
            rcases digitIn16 c' with ⟨hc', hd', hu'⟩ | ⟨hc', hd'⟩
            · rw [digitsGo_under hd hd', List.filter_cons, if_neg (by simp), List.filter_cons, if_pos (by simpa using hu'), List.foldl_cons]
              rw [ih cs' (by omega), Nat.mul_comm]
              have hr : HexRest ('_' :: c' :: cs') ↔ HexRest cs' := by
                rw [← hexRest_digit (s := cs') hc' hu']
                unfold HexRest
                rw [infix2_cons (c := '_'), List.getLast?_cons_cons]
                have : ¬ ((c' :: cs').head? = some '_') := by simpa using hu'
                rw [List.forall_mem_cons]
                constructor
                · rintro ⟨⟨_, a⟩, b, d⟩; exact ⟨a, b, fun e => d (.inr e)⟩
                · rintro ⟨a, b, d⟩
                  refine ⟨⟨by decide, a⟩, b, ?_⟩
                  rintro (e | e)
                  · exact this e.2
                  · exact d e
              rw [hr]
            · rw [digitsGo_bad hd (.inr (.inr ⟨_, _, rfl, hd'⟩))]
              constructor
              · intro h; cases h
              · rintro ⟨⟨h1, h2, h3⟩, _⟩
                exfalso
                have := h1 c' (by simp)
                rw [show py "0123456789abcdefABCDEF_" = py "0123456789abcdefABCDEF" ++ ['_'] from rfl, List.mem_append] at this
                rcases this with h | h
                · exact hc' h
                · have := List.mem_singleton.1 h
                  subst this
                  exact h3 (infix2_cons.2 (.inl ⟨rfl, rfl⟩))
        · rw [digitsGo_bad hd (.inl hu)]
          constructor
          · intro h; cases h
          · rintro ⟨⟨h1, _⟩, _⟩
            exfalso
            have := h1 c (.head _)
            rw [show py "0123456789abcdefABCDEF_" = py "0123456789abcdefABCDEF" ++ ['_'] from rfl, List.mem_append] at this
            rcases this with h | h
            · exact hc h
            · exact hu (List.mem_singleton.1 h)

/-- Digits with single underscores between them. -/
def HexPlain (d : Str) (n : Nat) : Prop :=
  d ≠ [] ∧ (∀ c ∈ d, c ∈ py "0123456789abcdefABCDEF_") ∧ d.head? ≠ some '_' ∧ d.getLast? ≠ some '_' ∧ ¬ py "__" <:+: d ∧
    n = hexNumber (d.filter (· ≠ '_'))

theorem digitsVal16_iff {s : Str} {n : Nat} : digitsVal 16 s = some n ↔ HexPlain s n := by
  unfold HexPlain
  cases s with
  | nil => simp [digitsVal]
  | cons c cs =>
    rcases digitIn16 c with ⟨hc, hd, hu⟩ | ⟨hc, hd⟩
    · rw [digitsVal, hd]
      dsimp only
      have hr := hexRest_digit (s := cs) hc hu
      rw [digitsGo16_iff cs.length cs (Nat.le_refl _), ← hr]
      unfold HexRest hexNumber
      rw [List.filter_cons, if_pos (by simpa using hu), List.foldl_cons, Nat.mul_zero, Nat.zero_add]
      have h1 : (c :: cs).head? ≠ some '_' := by simpa using hu
      constructor
      · rintro ⟨⟨a, b, d⟩, e⟩; exact ⟨by simp, a, h1, b, d, e⟩
      · rintro ⟨_, a, _, b, d, e⟩; exact ⟨⟨a, b, d⟩, e⟩
    · rw [digitsVal, hd]
      dsimp only
      constructor
      · intro h; cases h
      · rintro ⟨_, a, h1, _⟩
        exfalso
        have := a c (.head _)
        rw [show py "0123456789abcdefABCDEF_" = py "0123456789abcdefABCDEF" ++ ['_'] from rfl, List.mem_append] at this
        rcases this with h | h
        · exact hc h
        · exact h1 (by rw [List.mem_singleton.1 h]; rfl)

theorem hexText_iff {g : Str} {n : Nat} : HexText g n ↔ digitsVal 16 (dropBasePrefix 16 g) = some n := by
  rw [digitsVal16_iff]
  constructor
  · rintro ⟨p, d, rfl, hp, h⟩
    have hd : HexPlain d n := h
    simp only [List.mem_cons, List.not_mem_nil, or_false] at hp
    have hx : ∀ x ∈ py "0123456789abcdefABCDEF_", x ≠ 'x' ∧ x ≠ 'X' := by decide
    rcases hp with rfl | rfl | rfl | rfl | rfl
    · suffices h : dropBasePrefix 16 d = d by rw [List.nil_append, h]; exact hd
      unfold dropBasePrefix
      split
      · rename_i x t
        rw [if_neg]
        rintro (⟨_, h⟩ | ⟨h, _⟩)
        · have := hx x (hd.2.1 x (by simp))
          rcases h with h | h
          · exact this.1 h
          · exact this.2 h
        · cases h
      · rfl
    all_goals
      suffices h : ∀ t, t.head? ≠ some '_' → dropBasePrefix 16 (_ ++ t) = t by rw [h d hd.2.2.1]; exact hd
      intro t ht
      cases t with
      | nil => rfl
      | cons a t =>
        have ha : a ≠ '_' := by simpa using ht
        unfold dropBasePrefix
        simp only [List.cons_append, List.nil_append, true_and, true_or, or_true, if_true]
        try
          split
          · rename_i e; injection e with e _; exact absurd e ha
          · rfl
  · intro h
    unfold dropBasePrefix at h
    split at h
    · rename_i x t
      split at h
      · rename_i hx
        have hx' : x = 'x' ∨ x = 'X' := by
          rcases hx with ⟨_, h⟩ | ⟨h, _⟩
          · exact h
          · cases h
        split at h
        · rename_i t'
          rcases hx' with rfl | rfl
          · exact ⟨py "0x_", t', rfl, by decide, h⟩
          · exact ⟨py "0X_", t', rfl, by decide, h⟩
        · rcases hx' with rfl | rfl
          · exact ⟨py "0x", t, rfl, by decide, h⟩
          · exact ⟨py "0X", t, rfl, by decide, h⟩
      · exact ⟨[], _, rfl, by decide, h⟩
    · exact ⟨[], _, rfl, by decide, h⟩

theorem hexText_unique {g : Str} {n m : Nat} (h : HexText g n) (h' : HexText g m) : n = m := by
  rw [hexText_iff] at h h'
  rw [h] at h'
  injection h'

/-- Every percent sign is followed by a hexadecimal digit. -/
def PercentHex (s : Str) : Prop := ∀ a b, s = a ++ '%' :: b → ∃ h t, b = h :: t ∧ h ∈ py "0123456789abcdefABCDEF"

theorem PercentHex.tail {c : Char} {s : Str} (h : PercentHex (c :: s)) : PercentHex s :=
  fun a b e => h (c :: a) b (by rw [e]; rfl)

theorem percentHex_prefix {a b : Str} {c : Char} (h : PercentHex (a ++ c :: b)) (hc : c ∉ py "0123456789abcdefABCDEF") : PercentHex a := by
  intro x y e
  obtain ⟨d, t, e', hd⟩ := h x (y ++ c :: b) (by rw [e]; simp)
  cases y with
  | nil => simp only [List.nil_append, List.cons.injEq] at e'; rw [← e'.1] at hd; exact absurd hd hc
  | cons k y => simp only [List.cons_append, List.cons.injEq] at e'; exact ⟨k, y, rfl, e'.1 ▸ hd⟩

theorem pieces_glue {c d e : Char} {t : Str} (h : ¬ (c = '%' ∧ d ∈ py "0123456789" ∧ e ∈ py "0123456789")) :
    pieces (c :: d :: e :: t) = glue c (pieces (d :: e :: t)) := by
  rw [pieces, if_neg h]

theorem pieces_ne (c : Char) (t : Str) (h : c ≠ '%') : ∃ p ps, pieces (c :: t) = (c :: p) :: ps := by
  match t with
  | [] => exact ⟨[], [], rfl⟩
  | [d] => exact ⟨[d], [], rfl⟩
  | d :: e :: t =>
    rw [pieces_glue (fun e => h e.1)]
    cases pieces (d :: e :: t) with
    | nil => exact ⟨_, _, rfl⟩
    | cons p ps => exact ⟨_, _, rfl⟩

theorem decimal_digit {c : Char} (h : c.toNat < 128) : isDecimal c = true ↔ c ∈ py "0123456789" := by
  have key : ∀ n : Fin 128, isDecimal (Char.ofNat n) = true ↔ Char.ofNat n ∈ py "0123456789" := by decide +kernel
  have := key ⟨c.toNat, h⟩
  dsimp only at this
  rwa [Char.ofNat_toNat] at this

theorem splitCap_pieces : ∀ (n : Nat) (s : Str), s.length ≤ n → (∀ c ∈ s, c.toNat < 128) → splitCap percentDigitsLen s = pieces s := by
  intro n
  induction n with
  | zero =>
    intro s hs _
    have : s = [] := List.length_eq_zero_iff.1 (by omega)
    subst this; rfl
  | succ n ih =>
    intro s hs hc
    match s, hs, hc with
    | [], _, _ => rfl
    | [c], _, _ => rw [splitCap_none (h := []) (t := []) (by simp [percentDigitsLen, fixedLen, fixedMatch]) rfl]; rfl
    | [c, d], _, _ =>
      rw [splitCap_none (h := [d]) (t := []) (by simp [percentDigitsLen, fixedLen, fixedMatch])]
      · rfl
      · rw [splitCap_none (h := []) (t := []) (by simp [percentDigitsLen, fixedLen, fixedMatch]) rfl]
    | c :: d :: e :: t, hs, hc =>
      simp only [List.length_cons] at hs
      have hd := decimal_digit (hc d (by simp))
      have he := decimal_digit (hc e (by simp))
      by_cases hm : c = '%' ∧ d ∈ py "0123456789" ∧ e ∈ py "0123456789"
      · rw [pieces, if_pos hm, splitCap_three (percentDigits_match hm.1 (hd.2 hm.2.1) (he.2 hm.2.2)), ih t (by omega) fun x hx => hc x (by simp [hx])]
      · rw [pieces_glue hm]
        have hn : percentDigitsLen (c :: d :: e :: t) = none := by
          cases hk : percentDigitsLen (c :: d :: e :: t) with
          | none => rfl
          | some k =>
            exfalso
            obtain ⟨_, y, z, t', e', hy, hz⟩ := percentDigits_inv hk
            simp only [List.cons.injEq] at e'
            obtain ⟨rfl, rfl, rfl, _⟩ := e'
            exact hm ⟨rfl, hd.1 hy, he.1 hz⟩
        obtain ⟨h, ts, ht⟩ := splitCap_ne_nil percentDigitsLen (d :: e :: t)
        rw [splitCap_none hn ht, ← ih (d :: e :: t) (by simp; omega) (fun x hx => hc x (.tail _ hx)), ht]
        rfl

/-- All characters of the pieces come from the text, and the text is empty only if all pieces are. -/
theorem flatten_pieces : ∀ (n : Nat) (s : Str), s.length ≤ n → (pieces s).flatten = s := by
  intro n
  induction n with
  | zero =>
    intro s hs
    have : s = [] := List.length_eq_zero_iff.1 (by omega)
    subst this; rfl
  | succ n ih =>
    intro s hs
    match s, hs with
    | [], _ => rfl
    | [c], _ => rfl
    | [c, d], _ => rfl
    | c :: d :: e :: t, hs =>
      simp only [List.length_cons] at hs
      rw [pieces]
      split
      · rw [List.flatten_cons, List.flatten_cons, ih t (by omega)]; rfl
      · have := ih (d :: e :: t) (by simp; omega)
        cases hp : pieces (d :: e :: t) with
        | nil => rw [hp] at this; cases this
        | cons p ps => rw [hp] at this; rw [glue, List.flatten_cons, List.cons_append, ← List.flatten_cons, this]

theorem pieces_percent : ∀ (n : Nat) (s : Str), s.length ≤ n → PercentHex s → ∀ g, '%' :: g ∈ pieces s →
    ∃ h t, g = h :: t ∧ h ∈ py "0123456789abcdefABCDEF" := by
  intro n
  have hsub : ∀ c ∈ py "0123456789", c ∈ py "0123456789abcdefABCDEF" := by decide
  have hnp : ∀ c ∈ py "0123456789abcdefABCDEF", c ≠ '%' := by decide
  induction n with
  | zero =>
    intro s hs _ g hg
    have : s = [] := List.length_eq_zero_iff.1 (by omega)
    subst this
    simp [pieces] at hg
  | succ n ih =>
    intro s hs hp g hg
    match s, hs, hp, hg with
    | [], _, _, hg => simp [pieces] at hg
    | [c], _, hp, hg =>
      rw [pieces, List.mem_singleton] at hg
      injection hg with h1 h2
      subst h1 h2
      exact hp [] [] rfl
    | [c, d], _, hp, hg =>
      rw [pieces, List.mem_singleton] at hg
      injection hg with h1 h2
      subst h1 h2
      exact hp [] [d] rfl
    | c :: d :: e :: t, hs, hp, hg =>
      simp only [List.length_cons] at hs
      by_cases hm : c = '%' ∧ d ∈ py "0123456789" ∧ e ∈ py "0123456789"
      · rw [pieces, if_pos hm] at hg
        rcases List.mem_cons.1 hg with h | hg
        · cases h
        rcases List.mem_cons.1 hg with h | hg
        · injection h with _ h
          exact ⟨d, [e], h, hsub d hm.2.1⟩
        · exact ih t (by omega) hp.tail.tail.tail g hg
      · rw [pieces_glue hm] at hg
        cases hq : pieces (d :: e :: t) with
        | nil =>
          have := flatten_pieces _ (d :: e :: t) (Nat.le_refl _)
          rw [hq] at this; cases this
        | cons p ps =>
          rw [hq, glue] at hg
          rcases List.mem_cons.1 hg with h | hg
          · injection h with h1 h2
            obtain ⟨k, r, e1, hk⟩ := hp [] (d :: e :: t) (by rw [← h1]; rfl)
            injection e1 with e1 _
            subst e1
            obtain ⟨p', ps', e2⟩ := pieces_ne d (e :: t) (hnp d hk)
            rw [hq] at e2
            injection e2 with e2 _
            exact ⟨d, p', by rw [h2, e2], hk⟩
          · exact ih (d :: e :: t) (by simp; omega) hp.tail g (by rw [hq]; exact .tail _ hg)

/-- `int(g, 16)` for a text without blanks and sign. -/
theorem pyInt16_text {x : Char} {r : Str} (hx : x ∈ py "0123456789abcdefABCDEF") (hr : ∀ c ∈ x :: r, c ∈ gs82) :
    (∀ n, HexText (x :: r) n → pyInt 16 (x :: r) = .ok (n : Int)) ∧ ((¬ ∃ n, HexText (x :: r) n) → pyInt 16 (x :: r) = .error .value) := by
  have hs : x ≠ '-' ∧ x ≠ '+' := by
    have : ∀ c ∈ py "0123456789abcdefABCDEF", c ≠ '-' ∧ c ≠ '+' := by decide
    exact this x hx
  have h' : pyInt 16 (x :: r) = match digitsVal 16 (dropBasePrefix 16 (x :: r)) with
      | some n => Except.ok (n : Int)
      | Option.none => Except.error Err.value := by
    unfold pyInt
    rw [map_intNormChar_of_lt (fun c hc => (gs82_noSpace (hr c hc)).1), noSpace_strip (fun c hc => (gs82_noSpace (hr c hc)).2.1)]
    dsimp only
    split
    · next t e => injection e with e _; exact absurd e hs.1
    · next t e => injection e with e _; exact absurd e hs.2
    · rfl
  constructor
  · intro n hn
    rw [h', hexText_iff.1 hn]
  · intro hn
    rw [h']
    cases hd : digitsVal 16 (dropBasePrefix 16 (x :: r)) with
    | none => rfl
    | some n => exact absurd ⟨n, hexText_iff.2 hd⟩ hn

theorem chr_nat (n : Nat) : (n < 1114112 → ∃ c, chr (n : Int) = .ok c ∧ (c ∈ gs82 ↔ ∃ d ∈ gs82, d.toNat = n)) ∧
    (1114112 ≤ n → n < 2 ^ 31 → chr (n : Int) = .error .value) ∧ (2 ^ 31 ≤ n → chr (n : Int) = .error .overflow) := by
  refine ⟨fun h => ?_, fun h1 h2 => ?_, fun h => ?_⟩
  · unfold chr
    rw [if_neg (by omega), if_neg (by omega)]
    have hn : (n : Int).toNat = n := rfl
    split
    · rename_i hv
      refine ⟨_, rfl, ?_⟩
      have ht : (Char.ofNatAux (n : Int).toNat hv).toNat = n := by
        show (Char.ofNatAux n hv).toNat = n
        rw [Char.toNat, Char.ofNatAux]
        rfl
      constructor
      · intro hc; exact ⟨_, hc, ht⟩
      · rintro ⟨d, hd, e⟩
        have : d = Char.ofNatAux (n : Int).toNat hv := by
          rw [← Char.ofNat_toNat d, ← Char.ofNat_toNat (Char.ofNatAux (n : Int).toNat hv), ht, e]
        exact this ▸ hd
    · rename_i hv
      refine ⟨_, rfl, ?_⟩
      constructor
      · intro hc; exact absurd hc (by decide)
      · rintro ⟨d, hd, e⟩
        exfalso
        apply hv
        show n.isValidChar
        rw [← e]
        exact d.valid
  · unfold chr
    rw [if_neg (by omega), if_pos (by omega)]
  · unfold chr
    rw [if_pos (by omega)]

theorem mapM_error_iff {α β : Type} {f : α → Except Err β} {l : List α} {e : Err} : l.mapM f = .error e ↔
    ∃ l₁ a r, l = l₁ ++ a :: r ∧ (∀ q ∈ l₁, ∃ b, f q = .ok b) ∧ f a = .error e := by
  induction l with
  | nil =>
    constructor
    · intro h; cases h
    · rintro ⟨l₁, a, r, h, _⟩; simp at h
  | cons x xs ih =>
    rw [List.mapM_cons, bind_error_iff]
    constructor
    · rintro (h | ⟨b, hb, h⟩)
      · exact ⟨[], x, xs, rfl, by simp, h⟩
      · rw [bind_error_iff] at h
        rcases h with h | ⟨bs, hbs, h⟩
        · obtain ⟨l₁, a, r, e1, e2, e3⟩ := ih.1 h
          refine ⟨x :: l₁, a, r, by rw [e1]; rfl, ?_, e3⟩
          intro q hq
          rcases List.mem_cons.1 hq with rfl | hq
          · exact ⟨b, hb⟩
          · exact e2 q hq
        · cases h
    · rintro ⟨l₁, a, r, e1, e2, e3⟩
      cases l₁ with
      | nil => injection e1 with e1 _; subst e1; exact .inl e3
      | cons y l₁ =>
        injection e1 with e0 e1
        subst e0
        obtain ⟨b, hb⟩ := e2 x (.head _)
        refine .inr ⟨b, hb, ?_⟩
        rw [ih.2 ⟨l₁, a, r, e1, fun q hq => e2 q (.tail _ hq), e3⟩]
        rfl

/-- One piece: the text it stands for. -/
theorem verifyPiece_spec {p : Str} (hp : ∀ c ∈ p, c ∈ gs82) (hh : ∀ g, p = '%' :: g → ∃ h t, g = h :: t ∧ h ∈ py "0123456789abcdefABCDEF") :
    ((∀ g, p = '%' :: g → ∃ n < 1114112, HexText g n) → ∃ r, verifyPiece p = .ok r ∧ (p ≠ [] → r ≠ []) ∧
      ((∀ c ∈ r, c ∈ gs82) ↔ ∀ g, p = '%' :: g → ∃ c ∈ gs82, HexText g c.toNat)) ∧
    (∀ g, p = '%' :: g → (¬ ∃ n < 1114112, HexText g n) →
      ((∀ n, HexText g n → n < 2 ^ 31) → verifyPiece p = .error .value) ∧ (∀ n, HexText g n → 2 ^ 31 ≤ n → verifyPiece p = .error .overflow)) := by
  cases p with
  | nil => exact ⟨fun _ => ⟨[], rfl, by simp, by simp⟩, fun g e => by cases e⟩
  | cons c t =>
    by_cases hc : c = '%'
    · subst hc
      obtain ⟨x, r, rfl, hx⟩ := hh t rfl
      have hv : verifyPiece ('%' :: x :: r) = (do
        let i ← pyInt 16 (x :: r)
        let c ← chr i
        return [c]) := rfl
      obtain ⟨i1, i2⟩ := pyInt16_text hx fun c hc => hp c (.tail _ hc)
      refine ⟨fun h => ?_, fun g e hn => ?_⟩
      · obtain ⟨n, hlt, hn⟩ := h _ rfl
        obtain ⟨k, hk, hk'⟩ := (chr_nat n).1 hlt
        refine ⟨[k], by rw [hv, i1 n hn, ok_bind, hk, ok_bind, pure_ok], by simp, ?_⟩
        constructor
        · intro hg g e
          injection e with _ e
          subst e
          obtain ⟨d, hd, e⟩ := hk'.1 (hg k (by simp))
          exact ⟨d, hd, e ▸ hn⟩
        · intro hg y hy
          rw [List.mem_singleton.1 hy]
          obtain ⟨d, hd, hd'⟩ := hg _ rfl
          exact hk'.2 ⟨d, hd, hexText_unique hd' hn⟩
      · injection e with _ e
        subst e
        constructor
        · intro hb
          by_cases hex : ∃ n, HexText (x :: r) n
          · obtain ⟨n, hn'⟩ := hex
            rw [hv, i1 n hn', ok_bind, (chr_nat n).2.1 (Nat.le_of_not_lt fun hl => hn ⟨n, hl, hn'⟩) (hb n hn')]; rfl
          · rw [hv, i2 hex]; rfl
        · intro n hn' hb
          rw [hv, i1 n hn', ok_bind, (chr_nat n).2.2 hb]; rfl
    · have hv : verifyPiece (c :: t) = .ok (c :: t) := by simp [verifyPiece, hc]
      refine ⟨fun _ => ⟨_, hv, by simp, ⟨fun _ g e => ?_, fun _ => hp⟩⟩, fun g e => ?_⟩
      · injection e with e _; exact absurd e hc
      · injection e with e _; exact absurd e hc

/-- `verify_gs3a3_component`, exactly. -/
theorem verify_spec {s : Str} (hg : ∀ c ∈ s, c ∈ gs82) (hp : PercentHex s) :
    (verifyGs3a3 s = .ok () ↔ s ≠ [] ∧ PercentsOk s) ∧ (verifyGs3a3 s = .error .value ↔ PercentsValueError s) ∧
    (verifyGs3a3 s = .error .overflow ↔ PercentsOverflow s) := by
  have hlt : ∀ c ∈ s, c.toNat < 128 := fun c hc => gs82_lt (hg c hc)
  have hmem : ∀ p ∈ pieces s, ∀ c ∈ p, c ∈ gs82 := fun p hp c hc => hg c (by
    rw [← flatten_pieces _ s (Nat.le_refl _)]; exact List.mem_flatten.2 ⟨p, hp, hc⟩)
  have hhead : ∀ p ∈ pieces s, ∀ g, p = '%' :: g → ∃ h t, g = h :: t ∧ h ∈ py "0123456789abcdefABCDEF" :=
    fun p hm g e => pieces_percent _ s (Nat.le_refl _) hp g (e ▸ hm)
  have hspec := fun p hm => verifyPiece_spec (hmem p hm) (hhead p hm)
  have hgood : ∀ p ∈ pieces s, (∃ r, verifyPiece p = .ok r) → ∀ g, p = '%' :: g → ∃ n < 1114112, HexText g n := by
    rintro p hm ⟨r, hr⟩ g e
    apply Classical.byContradiction
    intro hn
    obtain ⟨h1, h2⟩ := (hspec p hm).2 g e hn
    by_cases hb : ∀ n, HexText g n → n < 2 ^ 31
    · rw [h1 hb] at hr; cases hr
    · rw [Classical.not_forall] at hb
      obtain ⟨n, hb⟩ := hb
      rw [Classical.not_imp] at hb
      rw [h2 n hb.1 (by omega)] at hr; cases hr
  have herr : ∀ e, e ≠ .convert → (verifyGs3a3 s = .error e ↔ ∃ l₁ a r, pieces s = l₁ ++ a :: r ∧ (∀ q ∈ l₁, ∃ b, verifyPiece q = .ok b) ∧ verifyPiece a = .error e) := by
    intro e he
    unfold verifyGs3a3
    rw [splitCap_pieces _ s (Nat.le_refl _) hlt, bind_error_iff, ← mapM_error_iff]
    constructor
    · rintro (h | ⟨ps, _, h⟩)
      · exact h
      · split at h
        · cases h
        · injection h with h; exact absurd h.symm he
    · exact .inl
  have hbad : ∀ a ∈ pieces s, ∀ e, verifyPiece a = .error e → ∃ g, a = '%' :: g ∧ ¬ ∃ n < 1114112, HexText g n := by
    intro a ha e he
    apply Classical.byContradiction
    intro hn
    have hn' : ∀ g, a = '%' :: g → ∃ n < 1114112, HexText g n := fun g eg => Classical.byContradiction fun hx => hn ⟨g, eg, hx⟩
    obtain ⟨r, hr, _⟩ := (hspec a ha).1 hn'
    rw [hr] at he; cases he
  have hfirst : ∀ {l₁ a r}, pieces s = l₁ ++ a :: r → (∀ q ∈ l₁, q ∈ pieces s) ∧ a ∈ pieces s := by
    intro l₁ a r e
    rw [e]
    exact ⟨fun q hq => by simp [hq], by simp⟩
  refine ⟨?_, ?_, ?_⟩
  · unfold verifyGs3a3
    rw [splitCap_pieces _ s (Nat.le_refl _) hlt]
    constructor
    · intro h
      rw [bind_ok_iff] at h
      obtain ⟨ps, hps, h⟩ := h
      have hf : verifyGs3a3Re.fullmatch ps.flatten = true := by
        cases hf : verifyGs3a3Re.fullmatch ps.flatten with
        | true => rfl
        | false => rw [hf] at h; cases h
      rw [Re.fullmatch_iff] at hf
      unfold verifyGs3a3Re at hf
      rw [lang_cls_plus] at hf
      constructor
      · rintro rfl
        have : ps = [[]] := by
          have e : (pieces []).mapM verifyPiece = .ok [[]] := rfl
          rw [e] at hps; injection hps with hps; exact hps.symm
        rw [this] at hf
        exact hf.1 rfl
      · intro g hgm
        obtain ⟨b, hb, hvb⟩ := mapM_ok_forall hps _ hgm
        have h1 := hgood _ hgm ⟨b, hvb⟩
        obtain ⟨r, hr, _, hiff⟩ := (hspec _ hgm).1 h1
        rw [hvb] at hr
        injection hr with hr
        subst hr
        exact hiff.1 (fun c hc => any_gs82 (hf.2 c (List.mem_flatten.2 ⟨b, hb, hc⟩))) g rfl
    · rintro ⟨hne, hok⟩
      have hall : ∀ p ∈ pieces s, ∃ r, verifyPiece p = .ok r ∧ (p ≠ [] → r ≠ []) ∧ ∀ c ∈ r, c ∈ gs82 := by
        intro p hm
        obtain ⟨r, h1, h2, h3⟩ := (hspec p hm).1 fun g e => by
          obtain ⟨c, hc, hx⟩ := hok g (e ▸ hm)
          exact ⟨_, Nat.lt_trans (gs82_lt hc) (by decide), hx⟩
        exact ⟨r, h1, h2, h3.2 fun g e => hok g (e ▸ hm)⟩
      cases hps : (pieces s).mapM verifyPiece with
      | error e =>
        obtain ⟨a, ha, he⟩ := mapM_error hps
        obtain ⟨r, hr, _⟩ := hall a ha
        rw [hr] at he; cases he
      | ok ps =>
        rw [ok_bind]
        have hmem' : ∀ b ∈ ps, ∃ a ∈ pieces s, verifyPiece a = .ok b := by
          intro b hb
          clear hall hok hgood herr hbad hfirst hspec hhead hmem
          revert b
          generalize pieces s = l at hps
          induction l generalizing ps with
          | nil => injection hps with hps; subst hps; intro b hb; cases hb
          | cons x xs ih =>
            rw [List.mapM_cons, bind_ok_iff] at hps
            obtain ⟨y, hy, hps⟩ := hps
            rw [bind_ok_iff] at hps
            obtain ⟨ys, hys, hps⟩ := hps
            injection hps with hps
            subst hps
            intro b hb
            rcases List.mem_cons.1 hb with rfl | hb
            · exact ⟨x, .head _, hy⟩
            · obtain ⟨a, ha, he⟩ := ih ys hys b hb
              exact ⟨a, .tail _ ha, he⟩
        have hm : verifyGs3a3Re.fullmatch ps.flatten = true := by
          rw [Re.fullmatch_iff]
          unfold verifyGs3a3Re
          rw [lang_cls_plus]
          constructor
          · intro he
            have hex : ∃ p ∈ pieces s, p ≠ [] := by
              apply Classical.byContradiction
              intro hn
              apply hne
              rw [← flatten_pieces _ s (Nat.le_refl _), List.flatten_eq_nil_iff]
              intro p hm
              exact Classical.byContradiction fun hx => hn ⟨p, hm, hx⟩
            obtain ⟨p, hm, hpne⟩ := hex
            obtain ⟨b, hb, hvb⟩ := mapM_ok_forall hps p hm
            obtain ⟨r, hr, hrne, _⟩ := hall p hm
            rw [hr] at hvb
            injection hvb with hvb
            subst hvb
            exact hrne hpne (List.flatten_eq_nil_iff.1 he _ hb)
          · intro c hc
            obtain ⟨b, hb, hcb⟩ := List.mem_flatten.1 hc
            obtain ⟨a, ha, he⟩ := hmem' b hb
            obtain ⟨r, hr, _, hr'⟩ := hall a ha
            rw [hr] at he
            injection he with he
            subst he
            exact (gs82_noSpace (hr' c hcb)).2.2
        rw [hm]; rfl
  · rw [herr _ (by decide)]
    constructor
    · rintro ⟨l₁, a, r, e1, e2, e3⟩
      obtain ⟨hl, ha⟩ := hfirst e1
      obtain ⟨g, rfl, hn⟩ := hbad a ha _ e3
      refine ⟨g, ⟨l₁, r, e1, fun k hk => hgood _ (hl _ hk) (e2 _ hk) k rfl, hn⟩, fun n hx => ?_⟩
      apply Classical.byContradiction
      intro hb
      rw [((hspec _ ha).2 g rfl hn).2 n hx (by omega)] at e3
      cases e3
    · rintro ⟨g, ⟨l, r, e1, e2, hn⟩, hb⟩
      obtain ⟨hl, ha⟩ := hfirst e1
      refine ⟨l, _, r, e1, fun q hq => ?_, ((hspec _ ha).2 g rfl hn).1 hb⟩
      obtain ⟨v, hv, _⟩ := (hspec q (hl q hq)).1 fun k ek => e2 k (ek ▸ hq)
      exact ⟨v, hv⟩
  · rw [herr _ (by decide)]
    constructor
    · rintro ⟨l₁, a, r, e1, e2, e3⟩
      obtain ⟨hl, ha⟩ := hfirst e1
      obtain ⟨g, rfl, hn⟩ := hbad a ha _ e3
      refine ⟨g, ⟨l₁, r, e1, fun k hk => hgood _ (hl _ hk) (e2 _ hk) k rfl, hn⟩, ?_⟩
      apply Classical.byContradiction
      intro hb
      rw [((hspec _ ha).2 g rfl hn).1 fun n hx => Nat.lt_of_not_le fun h => hb ⟨n, hx, h⟩] at e3
      cases e3
    · rintro ⟨g, ⟨l, r, e1, e2, hn⟩, n, hx, hb⟩
      obtain ⟨hl, ha⟩ := hfirst e1
      refine ⟨l, _, r, e1, fun q hq => ?_, ((hspec _ ha).2 g rfl hn).2 n hx hb⟩
      obtain ⟨v, hv, _⟩ := (hspec q (hl q hq)).1 fun k ek => e2 k (ek ▸ hq)
      exact ⟨v, hv⟩

end Epc

namespace Epc
open Spec Re

theorem spec_plain {c : Char} (h : c ∈ gs82) (h' : c ∉ py "\"&/<>?") (hp : c ≠ '%') : isGs3a3Plain c = true := by
  have : ∀ c ∈ gs82, c ∉ py "\"&/<>?" → c ≠ '%' → isGs3a3Plain c = true := by decide +kernel
  exact this c h h' hp

theorem spec_hexA {c : Char} (h : c ∈ py "0123456789abcdefABCDEF") : isHexA c = true := by
  have : ∀ c ∈ py "0123456789abcdefABCDEF", isHexA c = true := by decide +kernel
  exact this c h

theorem star_of_serialText : ∀ (n : Nat) (s : Str), s.length ≤ n → (∀ c ∈ s, c ∈ gs82 ∧ c ∉ py "\"&/<>?") → PercentHex s →
    Star (Lang Rx.gs3a3Char) s := by
  intro n
  induction n with
  | zero =>
    intro s hs _ _
    have : s = [] := List.length_eq_zero_iff.1 (by omega)
    subst this
    exact .nil
  | succ n ih =>
    intro s hs hc hp
    cases s with
    | nil => exact .nil
    | cons c t =>
      simp only [List.length_cons] at hs
      by_cases h : c = '%'
      · subst h
        obtain ⟨d, r, rfl, hd⟩ := hp [] t rfl
        simp only [List.length_cons] at hs
        refine Star.cons (a := ['%', d]) ((lang_gs3a3Char _).2 (.inl ⟨d, spec_hexA hd, rfl⟩)) (ih r (by omega) (fun x hx => hc x (by simp [hx])) hp.tail.tail)
      · refine Star.cons (a := [c]) ((lang_gs3a3Char _).2 (.inr ⟨c, spec_plain (hc c (.head _)).1 (hc c (.head _)).2 h, rfl⟩))
          (ih t (by omega) (fun x hx => hc x (.tail _ hx)) hp.tail)

theorem lang_of_serialText {s : Str} (h : SerialText s) : Lang Rx.gs3a3 s := by
  obtain ⟨hne, hc, hp⟩ := h
  have hs := star_of_serialText _ s (Nat.le_refl _) hc hp
  cases hs with
  | nil => exact absurd rfl hne
  | cons h1 h2 => exact ⟨_, _, rfl, h1, h2⟩

theorem lang_serialText {s : Str} : Lang Rx.gs3a3 s ↔ SerialText s := ⟨serialText_of_lang, lang_of_serialText⟩

theorem verify_serialText {s : Str} (h : SerialText s) :
    (verifyGs3a3 s = .ok () ↔ PercentsOk s) ∧ (verifyGs3a3 s = .error .value ↔ PercentsValueError s) ∧
    (verifyGs3a3 s = .error .overflow ↔ PercentsOverflow s) := by
  obtain ⟨h1, h2, h3⟩ := verify_spec (s := s) (fun c hc => (h.2.1 c hc).1) h.2.2
  exact ⟨h1.trans ⟨fun h => h.2, fun h' => ⟨h.1, h'⟩⟩, h2, h3⟩

theorem unescape_pos {s : Str} (h : s ≠ []) : 1 ≤ (replaceUriEscapes s).length := by
  rw [replaceUriEscapes_eq]
  match s, h with
  | [c], _ => simp [unescapeWith]
  | [c, d], _ => simp [unescapeWith]
  | c :: d :: e :: t, _ =>
    unfold unescapeWith
    split
    · split <;> simp
    · simp

theorem guard_err_iff {α : Type} {b : Bool} {k : Unit → Except Err α} {e : Err} (he : e ≠ .convert) :
    (guardConvert b >>= k) = .error e ↔ b = true ∧ k () = .error e := by
  cases b with
  | true => rw [guard_true rfl, ok_bind]; simp
  | false =>
    rw [guard_false rfl, error_bind]
    constructor
    · intro h; injection h with h; exact absurd h.symm he
    · rintro ⟨h, _⟩; cases h

theorem ctor_error_iff {α : Type} {v : Except Err Unit} {k : Unit → Except Err α} {e : Err} (he : e ≠ .convert)
    (hk : ∀ e', k () = .error e' → e' = .convert) : (v >>= k) = .error e ↔ v = .error e := by
  rw [bind_error_iff]
  constructor
  · rintro (h | ⟨_, _, h⟩)
    · exact h
    · exact absurd (hk _ h) he
  · exact .inl

theorem head_takeWhile (s : Str) : (split ':' s).headD [] = s.takeWhile (· ≠ ':') := by
  obtain ⟨t, h1, h2, h3⟩ := split_head_form ':' s
  generalize (split ':' s).headD [] = a at *
  subst h1
  rcases h3 with rfl | h3
  · rw [List.append_nil]
    symm
    have := List.takeWhile_append_of_pos (p := (· ≠ ':')) (l₁ := a) (l₂ := []) (fun x hx => by have : x ≠ ':' := fun e => h2 (e ▸ hx); simpa using this)
    simpa using this
  · cases t with
    | nil => cases h3
    | cons c t =>
      simp only [List.head?_cons, Option.some.injEq] at h3
      subst h3
      rw [List.takeWhile_append_of_pos (fun x hx => by have : x ≠ ':' := fun e => h2 (e ▸ hx); simpa using this), List.takeWhile_cons,
        if_neg (by simp), List.append_nil]

theorem percentHex_takeWhile {s : Str} (h : PercentHex s) : PercentHex (s.takeWhile (· ≠ ':')) := by
  have hd := List.takeWhile_append_dropWhile (p := (· ≠ ':')) (l := s)
  cases hr : s.dropWhile (· ≠ ':') with
  | nil =>
    rw [hr, List.append_nil] at hd
    rw [hd]; exact h
  | cons c t =>
    have hc : c = ':' := by
      have := List.head?_dropWhile_not (p := (· ≠ ':')) s
      rw [hr] at this
      simpa using this
    rw [hr] at hd
    rw [← hd] at h
    exact percentHex_prefix h (by rw [hc]; decide)

end Epc
