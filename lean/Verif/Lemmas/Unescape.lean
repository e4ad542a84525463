/-
`replace_uri_escapes` on arbitrary strings, and the size of what `encode_string` makes of an accepted serial.
-/
import Verif.Lemmas.SerialText
import Verif.Lemmas.Seven
import Verif.Lemmas.VarBinary

namespace Epc
open Spec Re

theorem mem_of_lookup {α β : Type} [BEq α] [LawfulBEq α] {l : List (α × β)} {a : α} {b : β} (h : l.lookup a = some b) : (a, b) ∈ l := by
  obtain ⟨l1, l2, e, -⟩ := List.lookup_eq_some_iff.1 h
  rw [e]; simp

theorem unescapeWith_ne {k : List ((Char × Char) × Char)} {c : Char} (h : c ≠ '%') (t : Str) : unescapeWith k (c :: t) = c :: unescapeWith k t := by
  match t with
  | [] => rfl
  | [d] => rfl
  | a :: b :: t => rw [unescapeWith, if_neg h]

theorem unescapeWith_known {k : List ((Char × Char) × Char)} {a b r : Char} {t : Str} (h : k.lookup (a, b) = some r) :
    unescapeWith k ('%' :: a :: b :: t) = r :: unescapeWith k t := by
  rw [unescapeWith, if_pos rfl, h]

theorem unescapeWith_unknown {k : List ((Char × Char) × Char)} {a b : Char} {t : Str} (h : k.lookup (a, b) = Option.none) :
    unescapeWith k ('%' :: a :: b :: t) = '%' :: unescapeWith k (a :: b :: t) := by
  rw [unescapeWith, if_pos rfl, h]

theorem unescapeWith_nil (s : Str) : unescapeWith [] s = s := by
  induction s with
  | nil => rfl
  | cons c t ih =>
    match t, ih with
    | [], _ => rfl
    | [d], _ => rfl
    | a :: b :: t, ih =>
      rw [unescapeWith]
      split
      · rw [show List.lookup (a, b) ([] : List ((Char × Char) × Char)) = Option.none from rfl]; rw [ih]
      · rw [ih]

/-- The first character of what is left is a given hexadecimal digit only if it was there before. -/
theorem unescapeWith_head {k : List ((Char × Char) × Char)} {p : Char} {s u : Str} (hp : p ≠ '%') (hk : ∀ e ∈ k, e.2 ≠ p)
    (h : unescapeWith k s = p :: u) : ∃ t, s = p :: t ∧ u = unescapeWith k t := by
  match s, h with
  | [], h => cases h
  | [c], h => injection h with h1 h2; exact ⟨[], by rw [h1], h2.symm⟩
  | [c, d], h => injection h with h1 h2; exact ⟨[d], by rw [h1], by rw [← h2]; rfl⟩
  | c :: a :: b :: t, h =>
    by_cases hc : c = '%'
    · subst hc
      cases hl : k.lookup (a, b) with
      | none =>
        rw [unescapeWith_unknown hl] at h
        injection h with h1 h2
        exact absurd h1.symm hp
      | some r =>
        rw [unescapeWith_known hl] at h
        injection h with h1 h2
        exact absurd h1 (hk _ (mem_of_lookup hl))
    · rw [unescapeWith_ne hc] at h
      injection h with h1 h2
      exact ⟨a :: b :: t, by rw [h1], h2.symm⟩

theorem replaceAll_unescape {p q r : Char} {k : List ((Char × Char) × Char)} (hp : p ≠ '%') (hq : q ≠ '%')
    (hk : ∀ e ∈ k, e.2 ≠ '%' ∧ e.2 ≠ p ∧ e.2 ≠ q) (hn : k.lookup (p, q) = Option.none) : ∀ (n : Nat) (s : Str), s.length ≤ n →
    replaceAll ['%', p, q] [r] (unescapeWith k s) = unescapeWith (((p, q), r) :: k) s := by
  have step : ∀ (c : Char) (t : Str), ¬ (∃ u, c = '%' ∧ t = p :: q :: u) → replaceAll ['%', p, q] [r] (c :: t) = c :: replaceAll ['%', p, q] [r] t := by
    intro c t h
    have : ¬ List.isPrefixOf ['%', p, q] (c :: t) = true := by
      intro hpre
      match t, hpre with
      | [], hpre => simp [List.isPrefixOf] at hpre
      | [d], hpre => simp [List.isPrefixOf] at hpre
      | a :: b :: t, hpre =>
        simp [List.isPrefixOf] at hpre
        exact h ⟨t, hpre.1.symm, by rw [hpre.2.1, hpre.2.2]⟩
    unfold replaceAll
    rw [replaceGo, if_neg this]
  intro n
  induction n with
  | zero =>
    intro s hs
    cases s with
    | nil => rfl
    | cons => simp at hs
  | succ n ih =>
    intro s hs
    cases s with
    | nil => rfl
    | cons c t =>
      simp only [List.length_cons] at hs
      by_cases hc : c = '%'
      · subst hc
        match t, hs with
        | [], _ => exact step _ _ (by simp)
        | [d], hs =>
          refine (step _ _ (by simp)).trans ?_
          have := ih [d] (by simpa using hs)
          simp only [unescapeWith] at this ⊢
          rw [this]
        | a :: b :: t, hs =>
          simp only [List.length_cons] at hs
          cases hl : k.lookup (a, b) with
          | some x =>
            have hx := hk _ (mem_of_lookup hl)
            have hne : ((a, b) == (p, q)) = false := by
              apply beq_false_of_ne
              intro e; rw [e, hn] at hl; cases hl
            have hl' : List.lookup (a, b) (((p, q), r) :: k) = some x := by rw [List.lookup, hne]; exact hl
            rw [unescapeWith_known hl, unescapeWith_known hl', step _ _ (fun ⟨_, h, _⟩ => hx.1 h), ih t (by omega)]
          | none =>
            rw [unescapeWith_unknown hl]
            by_cases hab : (a, b) = (p, q)
            · injection hab with h1 h2
              subst h1; subst h2
              have hl' : List.lookup (a, b) (((a, b), r) :: k) = some r := by rw [List.lookup, beq_self_eq_true]
              rw [unescapeWith_known hl', unescapeWith_ne hp, unescapeWith_ne hq]
              unfold replaceAll
              rw [replaceGo, if_pos (by simp [List.isPrefixOf])]
              have := ih t (by omega)
              unfold replaceAll at this
              rw [← this]
              rfl
            · have hne : ((a, b) == (p, q)) = false := beq_false_of_ne hab
              have hl' : List.lookup (a, b) (((p, q), r) :: k) = Option.none := by rw [List.lookup, hne]; exact hl
              rw [unescapeWith_unknown hl', step, ih _ (by simp; omega)]
              rintro ⟨u, -, h⟩
              obtain ⟨t1, e1, e2⟩ := unescapeWith_head hp (fun e he => (hk e he).2.1) h
              obtain ⟨t2, e3, -⟩ := unescapeWith_head hq (fun e he => (hk e he).2.2) e2.symm
              rw [e3] at e1
              injection e1 with e4 e5
              injection e5 with e5 e6
              exact hab (by rw [e4, e5])
      · rw [unescapeWith_ne hc, unescapeWith_ne hc, step _ _ (fun ⟨_, h, _⟩ => hc h), ih t (by omega)]

/-- `replace_uri_escapes` reads any text from left to right and replaces exactly the seven escapes. -/
theorem replaceUriEscapes_eq (s : Str) : replaceUriEscapes s = unescapeWith uriEscapes s := by
  have step := fun (p q r : Char) (k : List ((Char × Char) × Char)) hp hq hk hn (s : Str) =>
    replaceAll_unescape (p := p) (q := q) (r := r) (k := k) hp hq hk hn s.length s (Nat.le_refl _)
  unfold replaceUriEscapes
  dsimp only
  conv => lhs; rw [← unescapeWith_nil s]
  rw [step '2' '2' '"' _ (by decide) (by decide) (by decide) (by decide), step '2' '6' '&' _ (by decide) (by decide) (by decide) (by decide),
    step '2' 'F' '/' _ (by decide) (by decide) (by decide) (by decide), step '3' 'C' '<' _ (by decide) (by decide) (by decide) (by decide),
    step '3' 'E' '>' _ (by decide) (by decide) (by decide) (by decide), step '3' 'F' '?' _ (by decide) (by decide) (by decide) (by decide),
    step '2' '5' '%' _ (by decide) (by decide) (by decide) (by decide)]
  rfl

theorem digitsGo_lt {b acc n : Nat} {s : Str} (h : digitsGo b acc s = some n) (hb : 1 ≤ b) : n < (acc + 1) * b ^ s.length := by
  fun_induction digitsGo b acc s with
  | case1 acc => injection h with h; subst h; simp
  | case2 acc c cs d hd ih =>
    have hdb : d < b := by
      unfold digitIn at hd
      split at hd
      · split at hd
        · injection hd with hd; omega
        · cases hd
      · cases hd
    refine Nat.lt_of_lt_of_le (ih h) ?_
    rw [List.length_cons, Nat.pow_succ, ← Nat.mul_assoc, Nat.mul_right_comm]
    exact Nat.mul_le_mul_right _ (by rw [Nat.add_mul]; omega)
  | case3 => cases h
  | case4 acc c' cs d hd' _ ih =>
    have hdb : d < b := by
      unfold digitIn at hd'
      split at hd'
      · split at hd'
        · injection hd' with hd'; omega
        · cases hd'
      · cases hd'
    refine Nat.lt_of_lt_of_le (ih h) ?_
    have h1 : (acc * b + d + 1) * b ^ cs.length ≤ (acc + 1) * b ^ (c' :: cs).length := by
      rw [List.length_cons, Nat.pow_succ, ← Nat.mul_assoc, Nat.mul_right_comm]
      exact Nat.mul_le_mul_right _ (by rw [Nat.add_mul]; omega)
    refine Nat.le_trans h1 (Nat.mul_le_mul_left _ (Nat.pow_le_pow_right hb (by simp)))
  | case5 => cases h
  | case6 => cases h

theorem digitsVal_lt {b n : Nat} {s : Str} (h : digitsVal b s = some n) (hb : 1 ≤ b) : n < b ^ s.length := by
  unfold digitsVal at h
  split at h
  · cases h
  · next c cs =>
    split at h
    · next d hd =>
      have hdb : d < b := by
        unfold digitIn at hd
        split at hd
        · split at hd
          · injection hd with hd; omega
          · cases hd
        · cases hd
      refine Nat.lt_of_lt_of_le (digitsGo_lt h hb) ?_
      rw [List.length_cons, Nat.pow_succ, Nat.mul_comm]
      exact Nat.mul_le_mul_left _ (by omega)
    · cases h

theorem length_dropBasePrefix (b : Nat) (s : Str) : (dropBasePrefix b s).length ≤ s.length := by
  unfold dropBasePrefix
  split
  · split
    · split <;> simp <;> omega
    · exact Nat.le_refl _
  · exact Nat.le_refl _

/-- The number written after a percent sign is not negative and has at most four bits for each character. -/
theorem pyInt16_lt {x : Char} {r : Str} {i : Int} (hx : isHexA x = true)
    (hr : ∀ c ∈ x :: r, c.toNat < 127 ∧ isCSpace c = false) (h : pyInt 16 (x :: r) = .ok i) : ∃ n : Nat, i = n ∧ n < 16 ^ (r.length + 1) := by
  unfold pyInt at h
  rw [map_intNormChar_of_lt (fun c hc => (hr c hc).1), noSpace_strip (fun c hc => (hr c hc).2)] at h
  have h' : (match digitsVal 16 (dropBasePrefix 16 (x :: r)) with
      | some n => Except.ok (n : Int)
      | Option.none => Except.error Err.value) = Except.ok i := by
    revert h
    dsimp only
    split
    · next t e => injection e with e _; subst e; exact absurd hx (by decide)
    · next t e => injection e with e _; subst e; exact absurd hx (by decide)
    · exact id
  cases hd : digitsVal 16 (dropBasePrefix 16 (x :: r)) with
  | none => rw [hd] at h'; cases h'
  | some n =>
    rw [hd] at h'
    injection h' with h'
    refine ⟨n, h'.symm, Nat.lt_of_lt_of_le (digitsVal_lt hd (by decide)) (Nat.pow_le_pow_right (by decide) ?_)⟩
    exact length_dropBasePrefix 16 (x :: r)

theorem encodePiece_text {c : Char} {t : Str} (hc : c ≠ '%') : encodeStringPiece (c :: t) = .ok (code7 (c :: t)) := by
  unfold encodeStringPiece
  dsimp only
  rw [if_pos hc, mapM_map_ok (f := fun s : Char => strToBinary (natStr s.toNat) 7) (g := fun c : Char => bin 7 c.toNat)
    (fun a _ => strToBinary_natStr _ _)]
  rfl

theorem length_bin_le {n k : Nat} (h : n < 2 ^ k) : (bin 7 n).length ≤ max 7 k := by
  unfold bin
  rw [length_padLeft]
  rcases Nat.eq_zero_or_pos k with rfl | hk
  · have : n = 0 := by simpa using h
    subst this
    decide
  · have := length_toDigits_le (b := 2) (by decide) hk h
    omega

/-- One piece: bits only, at most seven for each character. -/
theorem encodePiece_size {g r : Str} (hg : ∀ c ∈ g, c.toNat < 127 ∧ isCSpace c = false)
    (hp : ∀ h t, g = '%' :: h :: t → isHexA h = true) (h : encodeStringPiece g = .ok r) : Bits r ∧ r.length ≤ 7 * g.length := by
  match g, h with
  | [], h => injection h with h; subst h; exact ⟨by decide, by decide⟩
  | c :: t, h =>
    by_cases hc : c = '%'
    · subst hc
      unfold encodeStringPiece at h
      dsimp only at h
      rw [if_neg (by decide)] at h
      obtain ⟨i, hi, h⟩ := bind_ok_iff.1 h
      match t, hi with
      | [], hi => rw [show pyInt 16 [] = .error .value from by decide] at hi; cases hi
      | x :: t, hi =>
        obtain ⟨n, rfl, hn⟩ := pyInt16_lt (hp x t rfl) (fun c hc => hg c (List.mem_cons_of_mem _ hc)) hi
        rw [intStr_ofNat, strToBinary_natStr] at h
        injection h with h
        subst h
        refine ⟨fun c hc => (canonDigits_two.1 (canonDigits_bin 7 n)) c hc, ?_⟩
        rw [show (16 : Nat) = 2 ^ 4 from rfl, ← Nat.pow_mul] at hn
        have := length_bin_le hn
        simp only [List.length_cons]
        omega
    · rw [encodePiece_text hc] at h
      injection h with h
      subst h
      exact ⟨Bits_code7 _, by rw [length_code7 (fun c hc => by have := (hg c hc).1; omega)]; exact Nat.le_refl _⟩

/-- The weight of a piece: an escape counts as one character. -/
def weight (g : Str) : Nat :=
  match g with
  | ['%', a, b] => if (uriEscapes.lookup (a, b)).isSome then 1 else 3
  | g => g.length

theorem weight_le (g : Str) : weight g ≤ g.length := by
  unfold weight
  split
  · split <;> simp
  · exact Nat.le_refl _

theorem weight_known {a b : Char} (h : (uriEscapes.lookup (a, b)).isSome = true) : weight ['%', a, b] = 1 := by
  simp [weight, h]

theorem escapeLen_inv {s : Str} {n : Nat} (h : escapeLen s = some n) :
    n = 3 ∧ ∃ y z t, s = '%' :: y :: z :: t ∧ isHexA y = true ∧ isHexA z = true := by
  unfold escapeLen fixedLen at h
  split at h
  · rename_i hm
    injection h with h
    refine ⟨h.symm, ?_⟩
    match s, hm with
    | [], hm => simp [fixedMatch] at hm
    | [x], hm => simp [fixedMatch] at hm
    | [x, y], hm => simp [fixedMatch] at hm
    | x :: y :: z :: t, hm =>
      simp only [fixedMatch, Bool.and_eq_true, beq_iff_eq, Bool.and_true] at hm
      exact ⟨y, z, t, by rw [hm.1], hm.2.1, hm.2.2⟩
  · cases h

theorem known_hex {a b c : Char} (h : uriEscapes.lookup (a, b) = some c) : isHexA a = true ∧ isHexA b = true ∧ a ≠ '%' ∧ b ≠ '%' ∧ c.toNat < 128 ∧
    encodeStringPiece ['%', a, b] = .ok (bin 7 c.toNat) := by
  have key : ∀ e ∈ uriEscapes, isHexA e.1.1 = true ∧ isHexA e.1.2 = true ∧ e.1.1 ≠ '%' ∧ e.1.2 ≠ '%' ∧ e.2.toNat < 128 ∧
    encodeStringPiece ['%', e.1.1, e.1.2] = .ok (bin 7 e.2.toNat) := by decide +kernel
  exact key _ (mem_of_lookup h)

theorem weight_sum {n : Nat} {s h : Str} {t : List Str} (hn : s.length ≤ n) (hs : splitCap escapeLen s = h :: t) :
    h.length + (t.map weight).sum ≤ (unescapeWith uriEscapes s).length := by
  induction n generalizing s h t with
  | zero =>
    cases s with
    | nil => rw [splitCap_nil] at hs; cases hs; decide
    | cons => simp at hn
  | succ n ih =>
    cases s with
    | nil => rw [splitCap_nil] at hs; cases hs; decide
    | cons x xs =>
      simp only [List.length_cons] at hn
      cases hm : escapeLen (x :: xs) with
      | some k =>
        obtain ⟨-, y, z, r, hr, hy, hz⟩ := escapeLen_inv hm
        obtain ⟨rfl, rfl⟩ := List.cons.inj hr
        have hk : escapeLen ('%' :: y :: z :: r) = some 3 := by simp [escapeLen, fixedLen, fixedMatch, hy, hz]
        rw [splitCap_three hk] at hs
        obtain ⟨rfl, rfl⟩ := List.cons.inj hs
        obtain ⟨h', t', ht'⟩ := splitCap_ne_nil escapeLen r
        simp only [List.length_cons] at hn
        have := ih (by omega) ht'
        have hw := weight_le h'
        rw [ht']
        simp only [List.map_cons, List.sum_cons, List.length_nil]
        cases hl : uriEscapes.lookup (y, z) with
        | some c =>
          rw [unescapeWith_known hl]
          rw [weight_known (by rw [hl]; rfl), List.length_cons]
          omega
        | none =>
          rw [unescapeWith_unknown hl, unescapeWith_ne (plain_spec (isGs3a3Plain_of_hex hy)).2.2,
            unescapeWith_ne (plain_spec (isGs3a3Plain_of_hex hz)).2.2]
          have hw3 := weight_le ['%', y, z]
          simp only [List.length_cons, List.length_nil] at hw3 ⊢
          omega
      | none =>
        obtain ⟨h', t', ht'⟩ := splitCap_ne_nil escapeLen xs
        rw [splitCap_none hm ht'] at hs
        obtain ⟨rfl, rfl⟩ := List.cons.inj hs
        have := ih (by omega) ht'
        have hu : unescapeWith uriEscapes (x :: xs) = x :: unescapeWith uriEscapes xs := by
          by_cases hx : x = '%'
          · subst hx
            match xs, hm with
            | [], _ => rfl
            | [d], _ => rfl
            | a :: b :: r, hm =>
              cases hl : uriEscapes.lookup (a, b) with
              | none => exact unescapeWith_unknown hl
              | some c =>
                have hh := known_hex hl
                simp [escapeLen, fixedLen, fixedMatch, hh.1, hh.2.1] at hm
          · exact unescapeWith_ne hx _
        rw [hu]
        simp only [List.length_cons]
        omega

theorem flatten_size {l rs : List Str} (h : l.mapM encodeStringPiece = .ok rs)
    (hl : ∀ g ∈ l, ∀ r, encodeStringPiece g = .ok r → Bits r ∧ r.length ≤ 7 * weight g) :
    Bits rs.flatten ∧ rs.flatten.length ≤ 7 * (l.map weight).sum := by
  induction l generalizing rs with
  | nil => cases h; exact ⟨fun c hc => by simp at hc, by simp⟩
  | cons g l ih =>
    rw [List.mapM_cons] at h
    obtain ⟨r, hr, h⟩ := bind_ok_iff.1 h
    obtain ⟨rs', hrs, h⟩ := bind_ok_iff.1 h
    cases h
    obtain ⟨h1, h2⟩ := hl g (by simp) r hr
    obtain ⟨h3, h4⟩ := ih hrs (fun g hg => hl g (List.mem_cons_of_mem _ hg))
    refine ⟨?_, ?_⟩
    · intro c hc
      rw [List.flatten_cons, List.mem_append] at hc
      exact hc.elim (h1 c) (h3 c)
    · simp only [List.flatten_cons, List.length_append, List.map_cons, List.sum_cons]
      omega

theorem flatten_splitCap_escape (s : Str) : (splitCap escapeLen s).flatten = s := by
  refine flatten_splitCapGo ?_ _ s (Nat.le_refl _)
  intro s n h
  obtain ⟨rfl, y, z, t, rfl, -⟩ := escapeLen_inv h
  simp

/-- Whatever `encode_string` returns for an accepted serial has exactly the wanted size, provided the serial, with the escapes counted as
one character, is not too long. -/
theorem encodeString_size {s b : Str} {n : Nat} (hs : Lang Rx.gs3a3 s) (hn : 7 * (replaceUriEscapes s).length ≤ n)
    (h : encodeString s n = .ok b) : Bits b ∧ b.length = n := by
  unfold encodeString at h
  obtain ⟨rs, hrs, h⟩ := bind_ok_iff.1 h
  cases h
  have hst := serialText_of_lang hs
  have hall : ∀ g ∈ splitCap escapeLen s, ∀ r, encodeStringPiece g = .ok r → Bits r ∧ r.length ≤ 7 * weight g := by
    intro g hg r hr
    obtain ⟨l1, l2, e⟩ := List.append_of_mem hg
    have hf := flatten_splitCap_escape s
    rw [e] at hf
    simp only [List.flatten_append, List.flatten_cons] at hf
    have hsz := encodePiece_size (g := g) (r := r) (fun c hc => by
        have hc' : c ∈ s := by rw [← hf]; simp [hc]
        have := gs82_noSpace (hst.2.1 c hc').1
        exact ⟨this.1, this.2.1⟩)
      (fun x t e' => by
        subst e'
        obtain ⟨h', t', e2, hx⟩ := hst.2.2 l1.flatten (x :: t ++ l2.flatten) (by rw [← hf]; simp)
        cases e2
        have key : ∀ c ∈ py "0123456789abcdefABCDEF", isHexA c = true := by decide +kernel
        exact key _ hx) hr
    refine ⟨hsz.1, ?_⟩
    unfold weight
    split
    · next a b =>
      split
      · next hk =>
        obtain ⟨c, hc⟩ := Option.isSome_iff_exists.1 hk
        obtain ⟨-, -, -, -, hc7, he⟩ := known_hex hc
        rw [he] at hr
        cases hr
        rw [length_bin (by decide) (by omega)]
        decide
      · exact hsz.2
    · exact hsz.2
  obtain ⟨h1, h2⟩ := flatten_size hrs hall
  obtain ⟨h', t', ht'⟩ := splitCap_ne_nil escapeLen s
  have hw := weight_sum (Nat.le_refl _) ht'
  have hw' := weight_le h'
  rw [ht', List.map_cons, List.sum_cons] at h2
  rw [replaceUriEscapes_eq] at hn
  refine ⟨?_, ?_⟩
  · intro c hc
    unfold padRight at hc
    rw [List.mem_append] at hc
    rcases hc with hc | hc
    · exact h1 c hc
    · exact .inl (List.eq_of_mem_replicate hc)
  · rw [length_padRight]
    omega

end Epc
