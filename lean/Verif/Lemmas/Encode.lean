/-
The encoders of numbers and texts, for every input.
-/
import Verif.Lemmas.Pieces
import Verif.Lemmas.LayoutEnc
import Verif.Spec.Encode

namespace Epc
open Spec

theorem bin_atLeast {w : Nat} (hw : 0 < w) (n : Nat) : bin w n = atLeast w n := by
  unfold atLeast
  by_cases h : n < 2 ^ w
  · have hm : max w (n.log2 + 1) = w := by
      refine Nat.max_eq_left ?_
      by_cases h0 : n = 0
      · subst h0; exact hw
      · have := (Nat.log2_lt h0).2 h
        omega
    rw [hm, bin_bitsOf hw h]
  · have h0 : n ≠ 0 := by
      rintro rfl
      exact h (Nat.pow_pos (by decide))
    have h1 : w ≤ n.log2 := (Nat.le_log2 h0).2 (by omega)
    rw [Nat.max_eq_right (by omega), ← bin_bitsOf (by omega) Nat.lt_log2_self]
    have h2 := lt_length_bin (w := n.log2) (n := n) (by omega) (Nat.log2_self_le h0)
    have h3 : n.log2 < (Nat.toDigits 2 n).length := by
      unfold bin at h2
      rw [length_padLeft] at h2
      omega
    unfold bin padLeft
    rw [show w - (Nat.toDigits 2 n).length = 0 by omega, show n.log2 + 1 - (Nat.toDigits 2 n).length = 0 by omega]

theorem intToBinary_signed {w : Nat} (hw : 1 < w) (i : Int) : intToBinary i w = signedBits w i := by
  unfold signedBits
  split
  · next h =>
    rw [← bin_atLeast (by omega)]
    simp only [intToBinary, fmtBin]
    rw [if_pos h]
    rfl
  · next h =>
    rw [← bin_atLeast (by omega), ← intToBinary_ofNat, Int.natAbs_of_nonneg (by omega)]

/-- Well-formed rest of a number after a digit. -/
def DecRest (s : Str) : Prop := (∀ c ∈ s, c ∈ py "0123456789_") ∧ s.getLast? ≠ some '_' ∧ ¬ py "__" <:+: s

theorem digitIn10_cases (c : Char) : (c ∈ py "0123456789" ∧ digitIn 10 c = some ((c.toNat - 48)) ∧ c ≠ '_') ∨
    (c ∉ py "0123456789" ∧ digitIn 10 c = none) := by
  by_cases h : c.toNat < 128
  · have key : ∀ n : Fin 128, (Char.ofNat n ∈ py "0123456789" ∧ digitIn 10 (Char.ofNat n) = some (((Char.ofNat n).toNat - 48)) ∧ Char.ofNat n ≠ '_') ∨
      (Char.ofNat n ∉ py "0123456789" ∧ digitIn 10 (Char.ofNat n) = none) := by decide +kernel
    have := key ⟨c.toNat, h⟩
    dsimp only at this
    rwa [Char.ofNat_toNat] at this
  · right
    have hm : ∀ x ∈ py "0123456789", x.toNat < 128 := by decide
    refine ⟨fun hc => h (hm c hc), ?_⟩
    unfold digitIn digitVal
    simp only
    rw [if_neg (by omega), if_neg (by omega), if_neg (by omega)]

theorem decRest_digit {c : Char} {s : Str} (h : c ∈ py "0123456789") (h' : c ≠ '_') : DecRest (c :: s) ↔ DecRest s := by
  unfold DecRest
  rw [infix2_cons]
  have hm : c ∈ py "0123456789_" := by
    rw [show py "0123456789_" = py "0123456789" ++ ['_'] from rfl]; exact List.mem_append_left _ h
  have hl : (c :: s).getLast? ≠ some '_' ↔ s.getLast? ≠ some '_' := by
    cases s with
    | nil => simp [h']
    | cons d t => rw [List.getLast?_cons_cons]
  rw [hl, List.forall_mem_cons]
  constructor
  · rintro ⟨⟨_, a⟩, b, d⟩; exact ⟨a, b, fun e => d (.inr e)⟩
  · rintro ⟨a, b, d⟩
    refine ⟨⟨hm, a⟩, b, ?_⟩
    rintro (e | e)
    · exact h' e.1
    · exact d e

theorem decRest_nil : DecRest [] := ⟨fun _ h => (by cases h), (by simp), fun h => (by have := List.IsInfix.length_le h; simp at this)⟩

theorem digitsGo10_iff : ∀ (k : Nat) (s : Str), s.length ≤ k → ∀ acc n, digitsGo 10 acc s = some n ↔
    DecRest s ∧ n = (s.filter (· ≠ '_')).foldl (fun n c => 10 * n + (c.toNat - 48)) acc := by
  intro k
  induction k with
  | zero =>
    intro s hs acc n
    have : s = [] := List.length_eq_zero_iff.1 (by omega)
    subst this
    simp [digitsGo, decRest_nil, eq_comm]
  | succ k ih =>
    intro s hs acc n
    cases s with
    | nil => simp [digitsGo, decRest_nil, eq_comm]
    | cons c cs =>
      simp only [List.length_cons] at hs
      rcases digitIn10_cases c with ⟨hc, hd, hu⟩ | ⟨hc, hd⟩
      · rw [digitsGo_digit hd, decRest_digit hc hu, List.filter_cons, if_pos (by simpa using hu), List.foldl_cons, ih cs (by omega),
          Nat.mul_comm]
      · by_cases hu : c = '_'
        · subst hu
          cases cs with
          | nil =>
            rw [digitsGo_bad hd (.inr (.inl rfl))]
            constructor
            · intro h; cases h
            · rintro ⟨⟨_, h, _⟩, _⟩; exact absurd rfl h
          | cons c' cs' =>
            simp only [List.length_cons] at hs
            rcases digitIn10_cases c' with ⟨hc', hd', hu'⟩ | ⟨hc', hd'⟩
            · rw [digitsGo_under hd hd', List.filter_cons, if_neg (by simp), List.filter_cons, if_pos (by simpa using hu'), List.foldl_cons]
              rw [ih cs' (by omega), Nat.mul_comm]
              have hr : DecRest ('_' :: c' :: cs') ↔ DecRest cs' := by
                rw [← decRest_digit (s := cs') hc' hu']
                unfold DecRest
                rw [infix2_cons (c := '_'), List.getLast?_cons_cons]
                have : ¬ ((c' :: cs').head? = some '_') := by simpa using hu'
                rw [List.forall_mem_cons]
                constructor
                · rintro ⟨⟨_, a⟩, b, d⟩; exact ⟨a, b, fun e => d (.inr e)⟩
                · rintro ⟨a, b, d⟩
                  refine ⟨⟨by decide, a⟩, b, ?_⟩
                  rintro (e | e)
                  · exact this e.2
                  · exact d e
              rw [hr]
            · rw [digitsGo_bad hd (.inr (.inr ⟨_, _, rfl, hd'⟩))]
              constructor
              · intro h; cases h
              · rintro ⟨⟨h1, h2, h3⟩, _⟩
                exfalso
                have := h1 c' (by simp)
                rw [show py "0123456789_" = py "0123456789" ++ ['_'] from rfl, List.mem_append] at this
                rcases this with h | h
                · exact hc' h
                · have := List.mem_singleton.1 h
                  subst this
                  exact h3 (infix2_cons.2 (.inl ⟨rfl, rfl⟩))
        · rw [digitsGo_bad hd (.inl hu)]
          constructor
          · intro h; cases h
          · rintro ⟨⟨h1, _⟩, _⟩
            exfalso
            have := h1 c (.head _)
            rw [show py "0123456789_" = py "0123456789" ++ ['_'] from rfl, List.mem_append] at this
            rcases this with h | h
            · exact hc h
            · exact hu (List.mem_singleton.1 h)

/-- Digits with single underscores between them. -/
def DecPlain (d : Str) (n : Nat) : Prop :=
  d ≠ [] ∧ (∀ c ∈ d, c ∈ py "0123456789_") ∧ d.head? ≠ some '_' ∧ d.getLast? ≠ some '_' ∧ ¬ py "__" <:+: d ∧
    n = number (d.filter (· ≠ '_'))

theorem digitsVal10_iff {s : Str} {n : Nat} : digitsVal 10 s = some n ↔ DecPlain s n := by
  unfold DecPlain
  cases s with
  | nil => simp [digitsVal]
  | cons c cs =>
    rcases digitIn10_cases c with ⟨hc, hd, hu⟩ | ⟨hc, hd⟩
    · rw [digitsVal, hd]
      dsimp only
      have hr := decRest_digit (s := cs) hc hu
      rw [digitsGo10_iff cs.length cs (Nat.le_refl _), ← hr]
      unfold DecRest number
      rw [List.filter_cons, if_pos (by simpa using hu), List.foldl_cons, Nat.mul_zero, Nat.zero_add]
      have h1 : (c :: cs).head? ≠ some '_' := by simpa using hu
      constructor
      · rintro ⟨⟨a, b, d⟩, e⟩; exact ⟨by simp, a, h1, b, d, e⟩
      · rintro ⟨_, a, _, b, d, e⟩; exact ⟨⟨a, b, d⟩, e⟩
    · rw [digitsVal, hd]
      dsimp only
      constructor
      · intro h; cases h
      · rintro ⟨_, a, h1, _⟩
        exfalso
        have := a c (.head _)
        rw [show py "0123456789_" = py "0123456789" ++ ['_'] from rfl, List.mem_append] at this
        rcases this with h | h
        · exact hc h
        · exact h1 (by rw [List.mem_singleton.1 h]; rfl)



/-- `int(s)` for a text without blanks. -/
theorem pyInt10_text {s : Str} (hs : ∀ c ∈ s, c.toNat < 127 ∧ isCSpace c = false) :
    (∀ i, IntText s i → pyInt 10 s = .ok i) ∧ ((¬ ∃ i, IntText s i) → pyInt 10 s = .error .value) := by
  have hb : ∀ t, dropBasePrefix 10 t = t := by
    intro t
    unfold dropBasePrefix
    split
    · rw [if_neg (by rintro (⟨h, _⟩ | ⟨h, _⟩) <;> cases h)]
    · rfl
  have e : pyInt 10 s = match (generalizing := false) s with
      | '-' :: t => match digitsVal 10 t with
        | some n => Except.ok (-(n : Int))
        | Option.none => Except.error Err.value
      | '+' :: t => match digitsVal 10 t with
        | some n => Except.ok (n : Int)
        | Option.none => Except.error Err.value
      | t => match digitsVal 10 t with
        | some n => Except.ok (n : Int)
        | Option.none => Except.error Err.value := by
    unfold pyInt
    rw [map_intNormChar_of_lt (fun c hc => (hs c hc).1), noSpace_strip (fun c hc => (hs c hc).2)]
    simp only [hb]
    rfl
  have hplain : ∀ c ∈ py "0123456789_", c ≠ '-' ∧ c ≠ '+' := by decide
  constructor
  · rintro i ⟨sg, d, rfl, hsg, h1, h2, h3, h4, h5, rfl⟩
    have hv : digitsVal 10 d = some (number (d.filter (· ≠ '_'))) := digitsVal10_iff.2 ⟨h1, h2, h3, h4, h5, rfl⟩
    rw [e]
    simp only [List.mem_cons, List.not_mem_nil, or_false] at hsg
    rcases hsg with rfl | rfl | rfl
    · rw [if_neg (by decide), Int.one_mul]
      cases d with
      | nil => exact absurd rfl h1
      | cons c t =>
        have := hplain c (h2 c (.head _))
        simp only [List.nil_append]
        split
        · next t' e' => injection e' with e' _; exact absurd e' this.1
        · next t' e' => injection e' with e' _; exact absurd e' this.2
        · rw [hv]
    · rw [if_neg (by decide), Int.one_mul]
      show (match digitsVal 10 d with
        | some n => Except.ok (n : Int)
        | Option.none => Except.error Err.value) = _
      rw [hv]
    · rw [if_pos rfl, Int.neg_one_mul]
      show (match digitsVal 10 d with
        | some n => Except.ok (-(n : Int))
        | Option.none => Except.error Err.value) = _
      rw [hv]
  · intro hn
    rw [e]
    split
    · next t =>
      cases hd : digitsVal 10 t with
      | none => rfl
      | some n =>
        obtain ⟨h1, h2, h3, h4, h5, rfl⟩ := digitsVal10_iff.1 hd
        exact absurd ⟨_, py "-", t, rfl, by decide, h1, h2, h3, h4, h5, rfl⟩ hn
    · next t =>
      cases hd : digitsVal 10 t with
      | none => rfl
      | some n =>
        obtain ⟨h1, h2, h3, h4, h5, rfl⟩ := digitsVal10_iff.1 hd
        exact absurd ⟨_, py "+", t, rfl, by decide, h1, h2, h3, h4, h5, rfl⟩ hn
    · next t _ _ =>
      cases hd : digitsVal 10 s with
      | none => rfl
      | some n =>
        obtain ⟨h1, h2, h3, h4, h5, rfl⟩ := digitsVal10_iff.1 hd
        exact absurd ⟨_, [], s, rfl, by decide, h1, h2, h3, h4, h5, rfl⟩ hn

theorem strToBinary_text {s : Str} (hs : ∀ c ∈ s, c.toNat < 127 ∧ isCSpace c = false) {w : Nat} (hw : 1 < w) :
    (∀ i, IntText s i → strToBinary s w = .ok (signedBits w i)) ∧ ((¬ ∃ i, IntText s i) → strToBinary s w = .error .value) := by
  obtain ⟨h1, h2⟩ := pyInt10_text hs
  constructor
  · intro i hi
    unfold strToBinary
    rw [h1 i hi, ok_bind, pure_ok, intToBinary_signed hw]
  · intro hn
    unfold strToBinary
    rw [h2 hn, error_bind]

theorem hexA_iff (c : Char) : isHexA c = true ↔ c ∈ py "0123456789abcdefABCDEF" := ⟨hexA_spec, spec_hexA⟩

theorem escape_match {c d e : Char} {t : Str} (hc : c = '%') (hd : isHexA d = true) (he : isHexA e = true) :
    escapeLen (c :: d :: e :: t) = some 3 := by
  subst hc
  simp [escapeLen, fixedLen, fixedMatch, hd, he]

theorem escPieces_glue {c d e : Char} {t : Str} (h : ¬ (c = '%' ∧ d ∈ py "0123456789abcdefABCDEF" ∧ e ∈ py "0123456789abcdefABCDEF")) :
    escPieces (c :: d :: e :: t) = glue c (escPieces (d :: e :: t)) := by
  rw [escPieces, if_neg h]

theorem escPieces_ne (c : Char) (t : Str) (h : c ≠ '%') : ∃ p ps, escPieces (c :: t) = (c :: p) :: ps := by
  match t with
  | [] => exact ⟨[], [], rfl⟩
  | [d] => exact ⟨[d], [], rfl⟩
  | d :: e :: t =>
    rw [escPieces_glue (fun e => h e.1)]
    cases escPieces (d :: e :: t) with
    | nil => exact ⟨_, _, rfl⟩
    | cons p ps => exact ⟨_, _, rfl⟩

theorem splitCap_esc : ∀ (n : Nat) (s : Str), s.length ≤ n → splitCap escapeLen s = escPieces s := by
  intro n
  induction n with
  | zero =>
    intro s hs
    have : s = [] := List.length_eq_zero_iff.1 (by omega)
    subst this; rfl
  | succ n ih =>
    intro s hs
    match s, hs with
    | [], _ => rfl
    | [c], _ => rw [splitCap_none (h := []) (t := []) (by simp [escapeLen, fixedLen, fixedMatch]) rfl]; rfl
    | [c, d], _ =>
      rw [splitCap_none (h := [d]) (t := []) (by simp [escapeLen, fixedLen, fixedMatch])]
      · rfl
      · rw [splitCap_none (h := []) (t := []) (by simp [escapeLen, fixedLen, fixedMatch]) rfl]
    | c :: d :: e :: t, hs =>
      simp only [List.length_cons] at hs
      have hd := hexA_iff d
      have he := hexA_iff e
      by_cases hm : c = '%' ∧ d ∈ py "0123456789abcdefABCDEF" ∧ e ∈ py "0123456789abcdefABCDEF"
      · rw [escPieces, if_pos hm, splitCap_three (escape_match hm.1 (hd.2 hm.2.1) (he.2 hm.2.2)), ih t (by omega)]
      · rw [escPieces_glue hm]
        have hn : escapeLen (c :: d :: e :: t) = none := by
          cases hk : escapeLen (c :: d :: e :: t) with
          | none => rfl
          | some k =>
            exfalso
            obtain ⟨_, y, z, t', e', hy, hz⟩ := escapeLen_inv hk
            simp only [List.cons.injEq] at e'
            obtain ⟨rfl, rfl, rfl, _⟩ := e'
            exact hm ⟨rfl, hd.1 hy, he.1 hz⟩
        obtain ⟨h, ts, ht⟩ := splitCap_ne_nil escapeLen (d :: e :: t)
        rw [splitCap_none hn ht, ← ih (d :: e :: t) (by simp; omega), ht]
        rfl

theorem flatten_escPieces : ∀ (n : Nat) (s : Str), s.length ≤ n → (escPieces s).flatten = s := by
  intro n
  induction n with
  | zero =>
    intro s hs
    have : s = [] := List.length_eq_zero_iff.1 (by omega)
    subst this; rfl
  | succ n ih =>
    intro s hs
    match s, hs with
    | [], _ => rfl
    | [c], _ => rfl
    | [c, d], _ => rfl
    | c :: d :: e :: t, hs =>
      simp only [List.length_cons] at hs
      rw [escPieces]
      split
      · rw [List.flatten_cons, List.flatten_cons, ih t (by omega)]; rfl
      · have := ih (d :: e :: t) (by simp; omega)
        cases hp : escPieces (d :: e :: t) with
        | nil => rw [hp] at this; cases this
        | cons p ps => rw [hp] at this; rw [glue, List.flatten_cons, List.cons_append, ← List.flatten_cons, this]

theorem escPieces_percent : ∀ (n : Nat) (s : Str), s.length ≤ n → PercentHex s → ∀ g, '%' :: g ∈ escPieces s →
    ∃ h t, g = h :: t ∧ h ∈ py "0123456789abcdefABCDEF" := by
  intro n
  have hsub : ∀ c ∈ py "0123456789abcdefABCDEF", c ∈ py "0123456789abcdefABCDEF" := by decide
  have hnp : ∀ c ∈ py "0123456789abcdefABCDEF", c ≠ '%' := by decide
  induction n with
  | zero =>
    intro s hs _ g hg
    have : s = [] := List.length_eq_zero_iff.1 (by omega)
    subst this
    simp [escPieces] at hg
  | succ n ih =>
    intro s hs hp g hg
    match s, hs, hp, hg with
    | [], _, _, hg => simp [escPieces] at hg
    | [c], _, hp, hg =>
      rw [escPieces, List.mem_singleton] at hg
      injection hg with h1 h2
      subst h1 h2
      exact hp [] [] rfl
    | [c, d], _, hp, hg =>
      rw [escPieces, List.mem_singleton] at hg
      injection hg with h1 h2
      subst h1 h2
      exact hp [] [d] rfl
    | c :: d :: e :: t, hs, hp, hg =>
      simp only [List.length_cons] at hs
      by_cases hm : c = '%' ∧ d ∈ py "0123456789abcdefABCDEF" ∧ e ∈ py "0123456789abcdefABCDEF"
      · rw [escPieces, if_pos hm] at hg
        rcases List.mem_cons.1 hg with h | hg
        · cases h
        rcases List.mem_cons.1 hg with h | hg
        · injection h with _ h
          exact ⟨d, [e], h, hsub d hm.2.1⟩
        · exact ih t (by omega) hp.tail.tail.tail g hg
      · rw [escPieces_glue hm] at hg
        cases hq : escPieces (d :: e :: t) with
        | nil =>
          have := flatten_escPieces _ (d :: e :: t) (Nat.le_refl _)
          rw [hq] at this; cases this
        | cons p ps =>
          rw [hq, glue] at hg
          rcases List.mem_cons.1 hg with h | hg
          · injection h with h1 h2
            obtain ⟨k, r, e1, hk⟩ := hp [] (d :: e :: t) (by rw [← h1]; rfl)
            injection e1 with e1 _
            subst e1
            obtain ⟨p', ps', e2⟩ := escPieces_ne d (e :: t) (hnp d hk)
            rw [hq] at e2
            injection e2 with e2 _
            exact ⟨d, p', by rw [h2, e2], hk⟩
          · exact ih (d :: e :: t) (by simp; omega) hp.tail g (by rw [hq]; exact .tail _ hg)



theorem encodePieces {ps : List Str} (hg : ∀ p ∈ ps, ∀ c ∈ p, c ∈ gs82)
    (hp : ∀ g, '%' :: g ∈ ps → ∃ h t, g = h :: t ∧ h ∈ py "0123456789abcdefABCDEF") :
    (∀ b, TextBits ps b → ∃ rs, ps.mapM encodeStringPiece = .ok rs ∧ rs.flatten = b) ∧
    (∀ g, '%' :: g ∈ ps → (¬ ∃ n, HexText g n) → ps.mapM encodeStringPiece = .error .value) := by
  have hcode : ∀ g, '%' :: g ∈ ps → (∀ n, HexText g n → encodeStringPiece ('%' :: g) = .ok (atLeast 7 n)) ∧
      ((¬ ∃ n, HexText g n) → encodeStringPiece ('%' :: g) = .error .value) := by
    intro g h
    obtain ⟨x, r, rfl, hx⟩ := hp g h
    obtain ⟨h1, h2⟩ := pyInt16_text hx (fun c hc => hg _ h c (.tail _ hc))
    constructor
    · intro n hn
      unfold encodeStringPiece
      dsimp only
      rw [if_neg (by simp), h1 n hn, ok_bind]
      show strToBinary (natStr n) 7 = _
      rw [strToBinary_natStr, bin_atLeast (by decide)]
    · intro hn
      unfold encodeStringPiece
      dsimp only
      rw [if_neg (by simp), h2 hn, error_bind]
  have htext : ∀ g ∈ ps, g.head? ≠ some '%' → encodeStringPiece g = .ok (layout (textLayout 7 g)) := by
    intro g h hh
    rw [layout_seven (fun c hc => by have := (gs82_noSpace (hg g h c hc)).1; omega)]
    cases g with
    | nil => rfl
    | cons c t => exact encodePiece_text (by simpa using hh)
  constructor
  · intro b hb
    clear hp
    induction hb with
    | nil => exact ⟨[], rfl, rfl⟩
    | @code g n ps b hn _ ih =>
      obtain ⟨rs, e1, e2⟩ := ih (fun p h => hg p (.tail _ h)) (fun g h => hcode g (.tail _ h)) (fun g h => htext g (.tail _ h))
      refine ⟨atLeast 7 n :: rs, ?_, by rw [List.flatten_cons, e2]⟩
      rw [List.mapM_cons, (hcode g (.head _)).1 n hn, ok_bind, e1]; rfl
    | @text g ps b hh _ ih =>
      obtain ⟨rs, e1, e2⟩ := ih (fun p h => hg p (.tail _ h)) (fun g h => hcode g (.tail _ h)) (fun g h => htext g (.tail _ h))
      refine ⟨layout (textLayout 7 g) :: rs, ?_, by rw [List.flatten_cons, e2]⟩
      rw [List.mapM_cons, htext g (.head _) hh, ok_bind, e1]; rfl
  · intro g hgm hn
    have hall : ∀ q ∈ ps, (∃ r, encodeStringPiece q = .ok r) ∨ encodeStringPiece q = .error .value := by
      intro q hq
      by_cases hh : q.head? = some '%'
      · cases q with
        | nil => cases hh
        | cons c t =>
          injection hh with hh
          subst hh
          by_cases ht : ∃ n, HexText t n
          · obtain ⟨n, ht⟩ := ht
            exact .inl ⟨_, (hcode t hq).1 n ht⟩
          · exact .inr ((hcode t hq).2 ht)
      · exact .inl ⟨_, htext q hq hh⟩
    have hex : ∃ q ∈ ps, encodeStringPiece q = .error .value := ⟨_, hgm, (hcode g hgm).2 hn⟩
    clear hcode htext hp hg hgm
    induction ps with
    | nil => obtain ⟨q, hq, _⟩ := hex; cases hq
    | cons p ps ih =>
      rw [List.mapM_cons]
      rcases hall p (.head _) with ⟨r, hr⟩ | hr
      · rw [hr, ok_bind, ih (fun q h => hall q (.tail _ h)), error_bind]
        obtain ⟨q, hq, e⟩ := hex
        rcases List.mem_cons.1 hq with rfl | hq
        · rw [hr] at e; cases e
        · exact ⟨q, hq, e⟩
      · rw [hr, error_bind]

theorem encodeString_text {s : Str} (h : SerialText s) (w : Nat) :
    (∀ b, TextBits (escPieces s) b → encodeString s w = .ok (fillRight w b)) ∧
    (∀ g, '%' :: g ∈ escPieces s → (¬ ∃ n, HexText g n) → encodeString s w = .error .value) := by
  have hf := flatten_escPieces _ s (Nat.le_refl _)
  obtain ⟨h1, h2⟩ := encodePieces (ps := escPieces s)
    (fun p hp c hc => (h.2.1 c (by rw [← hf]; exact List.mem_flatten.2 ⟨p, hp, hc⟩)).1)
    (escPieces_percent _ s (Nat.le_refl _) h.2.2)
  unfold encodeString
  rw [splitCap_esc _ s (Nat.le_refl _)]
  constructor
  · intro b hb
    obtain ⟨rs, e1, e2⟩ := h1 b hb
    rw [e1, ok_bind, pure_ok, e2]
    rfl
  · intro g hg hn
    rw [h2 g hg hn, error_bind]

/-- The bits exist unless some piece with a percent sign is no hexadecimal number. -/
theorem textBits_exists (ps : List Str) : (∃ b, TextBits ps b) ∨ ∃ g, '%' :: g ∈ ps ∧ ¬ ∃ n, HexText g n := by
  induction ps with
  | nil => exact .inl ⟨[], .nil⟩
  | cons p ps ih =>
    rcases ih with ⟨b, hb⟩ | ⟨g, hg, hn⟩
    · by_cases hh : p.head? = some '%'
      · cases p with
        | nil => cases hh
        | cons c t =>
          injection hh with hh
          subst hh
          by_cases ht : ∃ n, HexText t n
          · obtain ⟨n, ht⟩ := ht
            exact .inl ⟨_, .code ht hb⟩
          · exact .inr ⟨t, .head _, ht⟩
      · exact .inl ⟨_, .text hh hb⟩
    · exact .inr ⟨g, .tail _ hg, hn⟩

end Epc
