/-
`from_hex` and `from_base64` for every text.
-/
import Verif.Spec.Transport
import Verif.Lemmas.HexForm
import Verif.Lemmas.Base64Pads
import Verif.Lemmas.LayoutEnc
import Verif.Lemmas.Script
import Verif.Lemmas.Pieces

namespace Epc
open Spec

/-- A decimal or hexadecimal digit, after the normalisation of `int`. -/
def digitAny (c : Char) : Bool := (digitIn 16 (intNormChar c)).isSome

theorem digitIn_lt {b : Nat} {c : Char} {d : Nat} (h : digitIn b c = some d) : d < b := by
  unfold digitIn at h
  split at h
  · split at h
    · cases h; assumption
    · cases h
  · cases h

theorem digitsGo_count {b : Nat} : ∀ (k : Nat) (s : Str), s.length ≤ k → ∀ (acc n : Nat), digitsGo b acc s = some n →
    n < (acc + 1) * b ^ s.countP (fun c => (digitIn b c).isSome) := by
  intro k
  induction k with
  | zero =>
    intro s hs acc n h
    have : s = [] := List.length_eq_zero_iff.1 (by omega)
    subst this
    cases h
    simp
  | succ k ih =>
    intro s hs acc n h
    cases s with
    | nil => cases h; simp
    | cons c cs =>
      simp only [List.length_cons] at hs
      have step : ∀ d m t, d < b → t.length ≤ k → digitsGo b (acc * b + d) t = some n →
          t.countP (fun c => (digitIn b c).isSome) + 1 ≤ m → n < (acc + 1) * b ^ m := by
        intro d m t hd ht hg hm
        have h1 := ih t ht _ _ hg
        have h2 : acc * b + d + 1 ≤ (acc + 1) * b := by rw [Nat.add_mul]; omega
        have h3 : b ^ (t.countP (fun c => (digitIn b c).isSome) + 1) ≤ b ^ m := Nat.pow_le_pow_right (by omega) hm
        calc n < (acc * b + d + 1) * b ^ t.countP (fun c => (digitIn b c).isSome) := h1
          _ ≤ (acc + 1) * b * b ^ t.countP (fun c => (digitIn b c).isSome) := Nat.mul_le_mul_right _ h2
          _ = (acc + 1) * b ^ (t.countP (fun c => (digitIn b c).isSome) + 1) := by rw [Nat.pow_succ', Nat.mul_assoc]
          _ ≤ (acc + 1) * b ^ m := Nat.mul_le_mul_left _ h3
      unfold digitsGo at h
      split at h
      · next d hd =>
        exact step d _ cs (digitIn_lt hd) (by omega) h (by rw [List.countP_cons]; simp [hd])
      · split at h
        · split at h
          · cases h
          · next c' cs' =>
            split at h
            · next d hd =>
              simp only [List.length_cons] at hs
              exact step d _ cs' (digitIn_lt hd) (by omega) h (by rw [List.countP_cons, List.countP_cons]; simp [hd])
            · cases h
        · cases h

theorem digitsVal_count {b : Nat} {s : Str} {n : Nat} (h : digitsVal b s = some n) : n < b ^ s.countP (fun c => (digitIn b c).isSome) := by
  unfold digitsVal at h
  split at h
  · cases h
  · next c cs =>
    split at h
    · next d hd =>
      have := digitsGo_count _ cs (Nat.le_refl _) _ _ h
      have hd' := digitIn_lt hd
      rw [List.countP_cons, if_pos (by simp [hd])]
      calc n < (d + 1) * b ^ cs.countP (fun c => (digitIn b c).isSome) := this
        _ ≤ b * b ^ cs.countP (fun c => (digitIn b c).isSome) := Nat.mul_le_mul_right _ (by omega)
        _ = _ := by rw [Nat.pow_succ']
    · cases h

theorem dropBasePrefix_sub (b : Nat) (s : Str) : (dropBasePrefix b s).Sublist s := by
  unfold dropBasePrefix
  split
  · split
    · split
      · exact (((List.Sublist.refl _).cons _).cons _).cons _
      · exact ((List.Sublist.refl _).cons _).cons _
    · exact List.Sublist.refl _
  · exact List.Sublist.refl _

theorem strip_sub (s : Str) : (dropRightWhile isCSpace (s.dropWhile isCSpace)).Sublist s := by
  unfold dropRightWhile
  have h1 : (s.dropWhile isCSpace).Sublist s := (List.dropWhile_suffix _).sublist
  have h2 : (((s.dropWhile isCSpace).reverse.dropWhile isCSpace)).Sublist (s.dropWhile isCSpace).reverse := (List.dropWhile_suffix _).sublist
  have h3 := h2.reverse
  rw [List.reverse_reverse] at h3
  exact h3.trans h1

/-- A number read by `int` is smaller than the base to the power of the number of digits in the text. -/
theorem pyInt16_count {s : Str} {i : Int} (h : pyInt 16 s = .ok i) : i.natAbs < 16 ^ s.countP digitAny := by
  have key : ∀ t n, t.Sublist (s.map intNormChar) → digitsVal 16 (dropBasePrefix 16 t) = some n → n < 16 ^ s.countP digitAny := by
    intro t n ht hd
    have h1 := digitsVal_count hd
    have h2 := ((dropBasePrefix_sub 16 t).trans ht).countP_le (p := fun c => (digitIn 16 c).isSome)
    rw [List.countP_map] at h2
    exact Nat.lt_of_lt_of_le h1 (Nat.pow_le_pow_right (by decide) h2)
  have hs := strip_sub (s.map intNormChar)
  unfold pyInt at h
  dsimp only at h
  split at h
  · next t e =>
    rw [e] at hs
    split at h
    · next n hd =>
      cases h
      simpa using key t n ((List.sublist_cons_self _ _).trans hs) hd
    · cases h
  · next t e =>
    rw [e] at hs
    split at h
    · next n hd =>
      cases h
      simpa using key t n ((List.sublist_cons_self _ _).trans hs) hd
    · cases h
  · split at h
    · next n hd =>
      cases h
      simpa using key _ n hs hd
    · cases h

theorem asciiDigit_norm {c : Char} (h : digitAny c = true) : asciiDigit c = intNormChar c := by
  unfold digitAny at h
  unfold asciiDigit intNormChar at *
  by_cases hc : c.toNat < 127
  · rw [if_pos hc] at h ⊢
    exact asciiDigit_ascii (by omega)
  · rw [if_neg hc] at h ⊢
    by_cases hu : isUniSpace c
    · rw [if_pos hu] at h
      exact absurd h (by decide)
    · rw [if_neg hu] at h ⊢
      cases hd : decimalVal c with
      | some d => rfl
      | none =>
        rw [hd] at h
        exact absurd h (by decide)

theorem hexA_of_digitIn {c : Char} (h : (digitIn 16 c).isSome = true) : isHexA c = true := by
  unfold digitIn at h
  split at h
  · next d hd =>
    split at h
    · next hlt =>
      unfold digitVal at hd
      dsimp only at hd
      simp only [isHexA, Bool.or_eq_true, isDigitA_iff, Bool.and_eq_true, decide_eq_true_eq, char_le_iff]
      have e : 'a'.toNat = 97 ∧ 'f'.toNat = 102 ∧ 'A'.toNat = 65 ∧ 'F'.toNat = 70 := by decide
      rw [e.1, e.2.1, e.2.2.1, e.2.2.2]
      split at hd
      · exact .inl (.inl ‹_›)
      · split at hd
        · injection hd with hd
          exact .inl (.inr (by omega))
        · split at hd
          · injection hd with hd
            exact .inr (by omega)
          · cases hd
    · cases h
  · cases h

theorem hex_char_facts : ∀ d ∈ py "0123456789abcdefABCDEF", d.toNat < 127 ∧ digitVal d = some (hexVal d) ∧ hexVal d < 16 := by decide

theorem digitAny_iff (c : Char) : digitAny c = true ↔ asciiDigit c ∈ py "0123456789abcdefABCDEF" := by
  constructor
  · intro h
    rw [asciiDigit_norm h, mem_hex]
    exact hexA_of_digitIn h
  · intro h
    obtain ⟨h1, h2, h3⟩ := hex_char_facts _ h
    unfold digitAny
    rw [← intNormChar_asciiDigit, intNormChar_of_lt h1, digitIn_of h2 h3]
    rfl

theorem hexString_iff (s : Str) : HexString s ↔ s ≠ [] ∧ ∀ c ∈ s, digitAny c = true := by
  unfold HexString asciiDigits
  refine and_congr_right fun _ => ?_
  constructor
  · intro h c hc
    exact (digitAny_iff c).2 (h _ (List.mem_map_of_mem hc))
  · intro h d hd
    obtain ⟨c, hc, rfl⟩ := List.mem_map.1 hd
    exact (digitAny_iff c).1 (h c hc)

theorem bitsOf_add (w k n d : Nat) (hd : d < 2 ^ k) : bitsOf (w + k) (n * 2 ^ k + d) = bitsOf w n ++ bitsOf k d := by
  induction k generalizing d with
  | zero =>
    have : d = 0 := by omega
    subst this
    simp [bitsOf]
  | succ k ih =>
    rw [Nat.pow_succ] at hd ⊢
    rw [← Nat.add_assoc, bitsOf, bitsOf]
    have e1 : (n * (2 ^ k * 2) + d) / 2 = n * 2 ^ k + d / 2 := by
      rw [← Nat.mul_assoc, Nat.mul_comm _ 2, Nat.mul_add_div (by decide)]
    have e2 : (n * (2 ^ k * 2) + d) % 2 = d % 2 := by
      rw [← Nat.mul_assoc, Nat.mul_comm _ 2, Nat.mul_add_mod]
    rw [e1, e2, ih _ (by omega), List.append_assoc]

theorem layout_snoc (l : List (Nat × Nat)) (w n : Nat) : layout (l ++ [(w, n)]) = layout l ++ bitsOf w n := by
  unfold layout
  simp

theorem bitsOf_hex (s : Str) (h : ∀ c ∈ s, c ∈ py "0123456789abcdefABCDEF") :
    bitsOf (s.length * 4) (digVal 16 s) = layout (s.map fun c => (4, hexVal c)) := by
  have key : ∀ (k : Nat) (s : Str), s.length = k → (∀ c ∈ s, c ∈ py "0123456789abcdefABCDEF") →
      bitsOf (s.length * 4) (digVal 16 s) = layout (s.map fun c => (4, hexVal c)) := by
    intro k
    induction k with
    | zero =>
      intro s hs _
      have : s = [] := List.length_eq_zero_iff.1 hs
      subst this; rfl
    | succ k ih =>
      intro s hs h
      have hne : s ≠ [] := by intro e; subst e; simp at hs
      rw [← List.dropLast_concat_getLast hne] at hs h ⊢
      generalize s.dropLast = t at hs h ⊢
      generalize s.getLast hne = c at hs h ⊢
      have hc := hex_char_facts c (h c (by simp))
      rw [digVal_snoc, hc.2.1, Option.getD_some, List.length_append, List.length_singleton, Nat.add_mul, Nat.one_mul,
        show (16 : Nat) = 2 ^ 4 by decide, bitsOf_add _ _ _ _ (by have := hc.2.2; omega), List.map_append, List.map_cons, List.map_nil, layout_snoc]
      have := ih t (by simpa using hs) (fun d hd => h d (List.mem_append_left _ hd))
      rw [← this]
  exact key _ s rfl h

/-- `hex_to_binary` of hexadecimal digits. -/
theorem hexToBinary_string {s : Str} (hs : HexString s) : hexToBinary s = .ok (hexStringBits s) := by
  have hd := (hexString_iff s).1 hs
  have hnorm : s.map intNormChar = asciiDigits s := by
    unfold asciiDigits
    exact List.map_congr_left fun c hc => (asciiDigit_norm (hd.2 c hc)).symm
  have hD : DigitsIn 16 (asciiDigits s) := by
    intro c hc
    obtain ⟨_, h2, h3⟩ := hex_char_facts c (hs.2 c hc)
    exact ⟨_, h2, h3⟩
  unfold hexToBinary
  rw [pyInt_of_norm (by decide) (by rw [hnorm]; exact hD) hs.1]
  show Except.ok _ = _
  rw [hnorm]
  have hl : 0 < (asciiDigits s).length := List.length_pos_iff.2 (asciiDigits_ne_nil hs.1)
  have e : intToBinary (digVal 16 (asciiDigits s) : Nat) (s.length * 4) = bin (s.length * 4) (digVal 16 (asciiDigits s)) := intToBinary_ofNat _ _
  show Except.ok (intToBinary (digVal 16 (asciiDigits s) : Nat) (s.length * 4)) = _
  rw [e, ← length_asciiDigits, bin_bitsOf (by omega) (by rw [← pow_sixteen]; exact digVal_lt hD), bitsOf_hex _ hs.2]
  rfl

/-- `hex_to_binary` of any other text: no header of any coding scheme comes out. -/
theorem hexToBinary_other {s : Str} (hs : ¬ HexString s) :
    hexToBinary s = .error .value ∨ ∃ b, hexToBinary s = .ok b ∧ (b.take 4 = py "0000" ∨ b.head? = some '-') := by
  unfold hexToBinary
  cases hi : pyInt 16 s with
  | error e =>
    left
    rw [error_bind]
    have := hi
    unfold pyInt at this
    dsimp only at this
    split at this <;> split at this <;> cases this <;> rfl
  | ok i =>
    right
    refine ⟨_, rfl, ?_⟩
    have h1 := pyInt16_count hi
    have hne : s ≠ [] := by rintro rfl; cases hi
    have h2 : s.countP digitAny < s.length := by
      rcases Nat.lt_or_ge (s.countP digitAny) s.length with h | h
      · exact h
      · exact absurd ((hexString_iff s).2 ⟨hne, List.countP_eq_length.1 (Nat.le_antisymm List.countP_le_length h)⟩) hs
    have h3 : i.natAbs < 16 ^ (s.length - 1) := Nat.lt_of_lt_of_le h1 (Nat.pow_le_pow_right (by decide) (by omega))
    unfold fmtBin
    split
    · exact .inr rfl
    · left
      by_cases hl : s.length = 1
      · rw [hl] at h3 ⊢
        have : i.natAbs = 0 := by simpa using h3
        rw [this]; rfl
      · have : (Nat.toDigits 2 i.natAbs).length ≤ (s.length - 1) * 4 :=
          length_toDigits_le (by decide) (by omega) (by rw [← pow_sixteen]; exact h3)
        unfold padLeft
        obtain ⟨k, hk⟩ : ∃ k, s.length * 4 - (Nat.toDigits 2 i.natAbs).length = 4 + k := ⟨s.length * 4 - (Nat.toDigits 2 i.natAbs).length - 4, by omega⟩
        rw [hk, ← List.replicate_append_replicate, List.append_assoc]
        rfl

/-! ### base64 -/

theorem b64Val_iff (c : Char) : (c ∈ base64Alphabet → b64Val c = some (base64Alphabet.idxOf c) ∧ base64Alphabet.idxOf c < 64) ∧
    (c ∉ base64Alphabet → b64Val c = Option.none) := by
  constructor
  · have : ∀ c ∈ base64Alphabet, b64Val c = some (base64Alphabet.idxOf c) ∧ base64Alphabet.idxOf c < 64 := by decide +kernel
    exact this c
  · intro h
    have hall : ∀ n : Fin 128, b64Val (Char.ofNat n.val) ≠ Option.none → Char.ofNat n.val ∈ base64Alphabet := by decide +kernel
    by_cases hn : b64Val c = Option.none
    · exact hn
    · exfalso
      have hlt : c.toNat < 128 := by
        unfold b64Val at hn
        dsimp only at hn
        split at hn
        · omega
        · split at hn
          · omega
          · split at hn
            · omega
            · split at hn
              · next e => subst e; decide
              · split at hn
                · next e => subst e; decide
                · exact absurd rfl hn
      have e : Char.ofNat c.toNat = c := Char.ofNat_toNat c
      have := hall ⟨c.toNat, hlt⟩
      rw [e] at this
      exact h (this hn)

theorem eq_not_base64 : '=' ∉ base64Alphabet := by decide

/-- Characters outside the alphabet are skipped. -/
theorem a2bGo_filter (s : Str) : ∀ q l p, a2bGo q l p s = a2bGo q l p (s.filter fun c => c == '=' || decide (c ∈ base64Alphabet)) := by
  induction s with
  | nil => intros; rfl
  | cons c cs ih =>
    intro q l p
    by_cases he : c = '='
    · subst he
      rw [List.filter_cons, if_pos (by simp)]
      unfold a2bGo
      rw [if_pos rfl, if_pos rfl]
      split
      · split
        · rfl
        · exact ih _ _ _
      · exact ih _ _ _
    · by_cases hm : c ∈ base64Alphabet
      · rw [List.filter_cons, if_pos (by simp [hm])]
        unfold a2bGo
        rw [if_neg he, if_neg he, ((b64Val_iff c).1 hm).1]
        dsimp only
        simp only [← ih]
      · rw [List.filter_cons, if_neg (by simp [he, hm])]
        conv => lhs; unfold a2bGo
        rw [if_neg he, (b64Val_iff c).2 hm]
        exact ih _ _ _

theorem a2b_step {c : Char} (hc : c ∈ base64Alphabet) (q l p : Nat) (s : Str) : a2bGo q l p (c :: s) =
    if q = 0 then a2bGo 1 (base64Alphabet.idxOf c) 0 s
    else if q = 1 then (a2bGo 2 (base64Alphabet.idxOf c % 16) 0 s).map ((l * 4 + base64Alphabet.idxOf c / 16) :: ·)
    else if q = 2 then (a2bGo 3 (base64Alphabet.idxOf c % 4) 0 s).map ((l * 16 + base64Alphabet.idxOf c / 4) :: ·)
    else (a2bGo 0 0 0 s).map ((l * 64 + base64Alphabet.idxOf c) :: ·) := by
  have he : c ≠ '=' := by rintro rfl; exact absurd hc eq_not_base64
  conv => lhs; unfold a2bGo
  rw [if_neg he, ((b64Val_iff c).1 hc).1]
  dsimp only
  split
  · rfl
  · split
    · cases a2bGo 2 (base64Alphabet.idxOf c % 16) 0 s <;> rfl
    · split
      · cases a2bGo 3 (base64Alphabet.idxOf c % 4) 0 s <;> rfl
      · cases a2bGo 0 0 0 s <;> rfl

theorem bits12 {a b : Nat} (hb : b < 64) : bitsOf 6 a ++ bitsOf 6 b = bitsOf 8 (a * 4 + b / 16) ++ bitsOf 4 (b % 16) := by
  rw [← bitsOf_add 6 6 a b (by omega), ← bitsOf_add 8 4 _ _ (by omega)]
  congr 1
  omega

theorem bits10 {a b : Nat} (hb : b < 64) : bitsOf 4 a ++ bitsOf 6 b = bitsOf 8 (a * 16 + b / 4) ++ bitsOf 2 (b % 4) := by
  rw [← bitsOf_add 4 6 a b (by omega), ← bitsOf_add 8 2 _ _ (by omega)]
  congr 1
  omega

theorem bits8 {a b : Nat} (hb : b < 64) : bitsOf 2 a ++ bitsOf 6 b = bitsOf 8 (a * 64 + b) := by
  rw [← bitsOf_add 2 6 a b (by omega)]

/-- The bits of bytes. -/
def byteBits (bs : List Nat) : Str := bs.flatMap (bitsOf 8)

theorem length_byteBits (bs : List Nat) : (byteBits bs).length = 8 * bs.length := by
  induction bs with
  | nil => rfl
  | cons a t ih => rw [byteBits, List.flatMap_cons, List.length_append, length_bitsOf, ← byteBits, ih, List.length_cons]; omega

theorem layout_cons_append (w n : Nat) (l : List (Nat × Nat)) (r : Str) : layout ((w, n) :: l) ++ r = bitsOf w n ++ (layout l ++ r) := by
  rw [layout_cons, List.append_assoc]

theorem take_left {a b : Str} {n : Nat} (h : a.length = n) : (a ++ b).take n = a := by
  rw [← h]; exact List.take_left

theorem take_right {a b : Str} {n m : Nat} (h : a.length = n) : (a ++ b).take (n + m) = a ++ b.take m := by
  rw [← h, List.take_length_add_append]

theorem idx_lt {c : Char} (h : c ∈ base64Alphabet) : base64Alphabet.idxOf c < 64 := ((b64Val_iff c).1 h).2

/-- Reading characters of the alphabet: whole bytes, the position in the group of four, the bits left over. -/
theorem a2b_data : ∀ (k : Nat) (d : Str), d.length ≤ k → (∀ c ∈ d, c ∈ base64Alphabet) →
    ∃ bs l, (∀ b ∈ bs, b < 256) ∧ bs.length = 6 * d.length / 8 ∧ byteBits bs = base64Bits d ∧
      ∀ r, a2bGo 0 0 0 (d ++ r) = (a2bGo (d.length % 4) l 0 r).map (bs ++ ·) := by
  have hnil : ∀ e : Except Err (List Nat), e.map (([] : List Nat) ++ ·) = e := fun e => by cases e <;> rfl
  intro k
  induction k using Nat.strongRecOn with
  | ind k ih =>
    intro d hd hm
    match d, hd, hm with
    | [], _, _ => exact ⟨[], 0, by simp, rfl, rfl, fun r => (hnil _).symm⟩
    | [a], _, hm =>
      have ha := hm a (by simp)
      refine ⟨[], base64Alphabet.idxOf a, by simp, by simp, by simp [byteBits, base64Bits], fun r => ?_⟩
      rw [hnil, List.cons_append, a2b_step ha, if_pos rfl]
      rfl
    | [a, b], _, hm =>
      have ha := hm a (by simp)
      have hb := hm b (by simp)
      refine ⟨[base64Alphabet.idxOf a * 4 + base64Alphabet.idxOf b / 16], base64Alphabet.idxOf b % 16, ?_, by simp, ?_, fun r => ?_⟩
      · intro x hx
        rw [List.mem_singleton.1 hx]
        have := idx_lt ha; have := idx_lt hb; omega
      · unfold byteBits base64Bits
        rw [show 6 * [a, b].length / 8 * 8 = 8 by simp]
        simp only [List.map_cons, List.map_nil, layout_cons, List.flatMap_cons, List.flatMap_nil]
        rw [← List.append_assoc, bits12 (idx_lt hb), List.append_assoc, take_left (length_bitsOf 8 _), List.append_nil]
      · rw [List.cons_append, a2b_step ha, if_pos rfl, List.cons_append, a2b_step hb, if_neg (by decide), if_pos rfl]
        rfl
    | [a, b, c], _, hm =>
      have ha := hm a (by simp)
      have hb := hm b (by simp)
      have hc := hm c (by simp)
      refine ⟨[base64Alphabet.idxOf a * 4 + base64Alphabet.idxOf b / 16, base64Alphabet.idxOf b % 16 * 16 + base64Alphabet.idxOf c / 4],
        base64Alphabet.idxOf c % 4, ?_, by simp, ?_, fun r => ?_⟩
      · intro x hx
        have := idx_lt ha; have := idx_lt hb; have := idx_lt hc
        simp only [List.mem_cons, List.not_mem_nil, or_false] at hx
        omega
      · unfold byteBits base64Bits
        rw [show 6 * [a, b, c].length / 8 * 8 = 8 + 8 by simp]
        simp only [List.map_cons, List.map_nil, layout_cons, List.flatMap_cons, List.flatMap_nil]
        rw [← List.append_assoc (bitsOf 6 _), bits12 (idx_lt hb), List.append_assoc, ← List.append_assoc (bitsOf 4 _), bits10 (idx_lt hc),
          List.append_assoc (bitsOf 8 _), take_right (length_bitsOf 8 _), take_left (length_bitsOf 8 _), List.append_nil]
      · rw [List.cons_append, a2b_step ha, if_pos rfl, List.cons_append, a2b_step hb, if_neg (by decide), if_pos rfl,
          List.cons_append, a2b_step hc, if_neg (by decide), if_neg (by decide), if_pos rfl]
        rw [show [a, b, c].length % 4 = 3 by simp, List.nil_append]
        cases a2bGo 3 (List.idxOf c base64Alphabet % 4) 0 r <;> rfl
    | a :: b :: c :: e :: t, hd, hm =>
      simp only [List.length_cons] at hd
      have ha := hm a (by simp)
      have hb := hm b (by simp)
      have hc := hm c (by simp)
      have he := hm e (by simp)
      obtain ⟨bs, l, h1, h2, h3, h4⟩ := ih (k - 4) (by omega) t (by omega) (fun x hx => hm x (by simp [hx]))
      refine ⟨[base64Alphabet.idxOf a * 4 + base64Alphabet.idxOf b / 16, base64Alphabet.idxOf b % 16 * 16 + base64Alphabet.idxOf c / 4,
        base64Alphabet.idxOf c % 4 * 64 + base64Alphabet.idxOf e] ++ bs, l, ?_, ?_, ?_, fun r => ?_⟩
      · intro x hx
        have := idx_lt ha; have := idx_lt hb; have := idx_lt hc; have := idx_lt he
        rcases List.mem_append.1 hx with hx | hx
        · simp only [List.mem_cons, List.not_mem_nil, or_false] at hx
          omega
        · exact h1 x hx
      · rw [List.length_append, h2]
        simp only [List.length_cons, List.length_nil]
        omega
      · unfold byteBits at h3 ⊢
        rw [List.flatMap_append, h3]
        unfold base64Bits
        have e1 : 6 * (a :: b :: c :: e :: t).length / 8 * 8 = 8 + (8 + (8 + 6 * t.length / 8 * 8)) := by
          simp only [List.length_cons]; omega
        rw [e1]
        simp only [List.map_cons, layout_cons]
        rw [← List.append_assoc (bitsOf 6 _), bits12 (idx_lt hb), List.append_assoc, ← List.append_assoc (bitsOf 4 _), bits10 (idx_lt hc),
          List.append_assoc (bitsOf 8 _), ← List.append_assoc (bitsOf 2 _), bits8 (idx_lt he), take_right (length_bitsOf 8 _),
          take_right (length_bitsOf 8 _), take_right (length_bitsOf 8 _)]
        simp [List.flatMap_cons]
      · simp only [List.cons_append]
        rw [a2b_step ha, if_pos rfl, a2b_step hb, if_neg (by decide), if_pos rfl,
          a2b_step hc, if_neg (by decide), if_neg (by decide), if_pos rfl,
          a2b_step he, if_neg (by decide), if_neg (by decide), if_neg (by decide), h4]
        simp only [List.length_cons]
        rw [show (t.length + 1 + 1 + 1 + 1) % 4 = t.length % 4 by omega]
        cases a2bGo (t.length % 4) l 0 r <;> rfl

theorem a2b_pads_end (l : Nat) (k : Nat) : ∀ q, q < 4 → a2bGo q l 0 (List.replicate (k + 2) '=') = if q = 1 then .error .value else .ok [] := by
  intro q hq
  have h1 : ∀ k, a2bGo 1 l 0 (List.replicate k '=') = .error .value := by
    intro k
    induction k with
    | zero => rfl
    | succ k ih =>
      rw [List.replicate_succ]; unfold a2bGo
      rw [if_pos rfl, if_neg (by decide)]; exact ih
  match q, hq with
  | 0, _ => exact a2b_pads0 _ _ _
  | 1, _ => exact h1 _
  | 2, _ => rfl
  | 3, _ => rfl

theorem filter_pads (t : Str) (hp : '=' ∉ t) (k : Nat) :
    (t ++ List.replicate k '=').filter (fun c => c == '=' || decide (c ∈ base64Alphabet)) = base64Chars t ++ List.replicate k '=' := by
  rw [List.filter_append]
  congr 1
  · unfold base64Chars
    refine List.filter_congr fun c hc => ?_
    have : c ≠ '=' := by rintro rfl; exact hp hc
    simp [this]
  · rw [List.filter_eq_self]
    intro c hc
    rw [List.eq_of_mem_replicate hc]; rfl

theorem hexChar_facts {n : Nat} (h : n < 16) : hexChar n ∈ py "0123456789abcdefABCDEF" ∧ hexVal (hexChar n) = n ∧ asciiDigit (hexChar n) = hexChar n := by
  have : ∀ n : Fin 16, hexChar n.val ∈ py "0123456789abcdefABCDEF" ∧ hexVal (hexChar n.val) = n.val ∧ asciiDigit (hexChar n.val) = hexChar n.val := by
    decide
  exact this ⟨n, h⟩

/-- `bytes.hex()` is hexadecimal text with the bits of the bytes. -/
theorem bytesHex_string {bs : List Nat} (h : ∀ b ∈ bs, b < 256) :
    (∀ c ∈ asciiDigits (bytesHex bs), c ∈ py "0123456789abcdefABCDEF") ∧ hexStringBits (bytesHex bs) = byteBits bs := by
  induction bs with
  | nil => exact ⟨by simp [bytesHex, asciiDigits], rfl⟩
  | cons b t ih =>
    have hb := h b (.head _)
    obtain ⟨i1, i2⟩ := ih (fun x hx => h x (List.mem_cons_of_mem _ hx))
    obtain ⟨a1, a2, a3⟩ := hexChar_facts (n := b / 16) (by omega)
    obtain ⟨c1, c2, c3⟩ := hexChar_facts (n := b % 16) (by omega)
    rw [bytesHex]
    unfold hexStringBits at i2 ⊢
    rw [asciiDigits_cons, asciiDigits_cons, a3, c3]
    constructor
    · intro c hc
      rcases List.mem_cons.1 hc with rfl | hc
      · exact a1
      · rcases List.mem_cons.1 hc with rfl | hc
        · exact c1
        · exact i1 c hc
    · rw [List.map_cons, List.map_cons, layout_cons, layout_cons, a2, c2, i2, ← List.append_assoc, ← bitsOf_add 4 4 _ _ (by omega)]
      show bitsOf 8 _ ++ _ = bitsOf 8 _ ++ _
      rw [show b / 16 * 2 ^ 4 + b % 16 = b by omega]
      rfl

/-- `base64_to_hex` of a text with pad characters only at its end. -/
theorem base64ToHex_any {t : Str} (ha : Ascii t) (hp : '=' ∉ t) (k : Nat) :
    ((base64Chars t).length % 4 = 1 → base64ToHex (t ++ List.replicate k '=') = .error .value) ∧
    ((base64Chars t).length % 4 ≠ 1 → ∃ bs, (∀ b ∈ bs, b < 256) ∧ bs.length = 6 * (base64Chars t).length / 8 ∧ byteBits bs = base64Bits (base64Chars t) ∧
      base64ToHex (t ++ List.replicate k '=') = .ok (bytesHex bs)) := by
  obtain ⟨bs, l, h1, h2, h3, h4⟩ := a2b_data _ (base64Chars t) (Nat.le_refl _) (fun c hc => by simpa using (List.mem_filter.1 hc).2)
  have e : b64decode ((t ++ List.replicate k '=') ++ py "==") =
      (if (base64Chars t).length % 4 = 1 then Except.error Err.value else Except.ok []).map (bs ++ ·) := by
    unfold b64decode
    rw [if_pos ?_]
    · rw [a2bGo_filter, List.append_assoc, show py "==" = List.replicate 2 '=' from rfl, List.replicate_append_replicate, filter_pads t hp, h4,
        a2b_pads_end _ _ _ (Nat.mod_lt _ (by decide))]
    · rw [List.all_eq_true]
      intro c hc
      simp only [List.mem_append] at hc
      rcases hc with (hc | hc) | hc
      · exact decide_eq_true (ha c hc)
      · rw [List.eq_of_mem_replicate hc]; rfl
      · revert c; decide
  constructor
  · intro hl
    rw [if_pos hl] at e
    unfold base64ToHex
    rw [e]; rfl
  · intro hl
    rw [if_neg hl] at e
    refine ⟨bs, h1, h2, h3, ?_⟩
    unfold base64ToHex
    rw [e]
    show Except.ok (bytesHex (bs ++ [])) = _
    rw [List.append_nil]

/-- A pad character before the end of the text. -/
theorem base64ToHex_pad {t r : Str} (hp : '=' ∉ t) (ha : Ascii t) (hr : Ascii r) :
    ((base64Chars t).length % 4 = 3 → base64ToHex (t ++ '=' :: r) = base64ToHex t) ∧
    ((base64Chars t).length % 4 = 2 → base64ToHex (t ++ '=' :: '=' :: r) = base64ToHex t) ∧
    ((base64Chars t).length % 4 = 2 → (∃ a r', r.filter (fun c => c == '=' || decide (c ∈ base64Alphabet)) = a :: r' ∧ a ≠ '=') →
      base64ToHex (t ++ '=' :: r) = base64ToHex (t ++ r)) ∧
    ((base64Chars t).length % 4 ≤ 1 → base64ToHex (t ++ '=' :: r) = base64ToHex (t ++ r)) := by
  obtain ⟨bs, l, -, -, -, h4⟩ := a2b_data _ (base64Chars t) (Nat.le_refl _) (fun c hc => by simpa using (List.mem_filter.1 hc).2)
  have hf : t.filter (fun c => c == '=' || decide (c ∈ base64Alphabet)) = base64Chars t := by
    have := filter_pads t hp 0
    simpa using this
  have key : ∀ r : Str, Ascii r → b64decode ((t ++ r) ++ py "==") = (a2bGo ((base64Chars t).length % 4) l 0 (r ++ py "==")).map (bs ++ ·) := by
    intro r hr
    unfold b64decode
    rw [if_pos]
    · rw [a2bGo_filter, List.append_assoc, List.filter_append, hf, h4, ← a2bGo_filter]
    · rw [List.all_eq_true]
      intro c hc
      simp only [List.mem_append] at hc
      rcases hc with (hc | hc) | hc
      · exact decide_eq_true (ha c hc)
      · exact decide_eq_true (hr c hc)
      · revert c; decide
  have hc : ∀ r : Str, Ascii r → Ascii ('=' :: r) := fun r hr c h => by
    rcases List.mem_cons.1 h with rfl | h
    · decide
    · exact hr c h
  have h0 := key [] (by intro c h; cases h)
  rw [List.append_nil] at h0
  unfold base64ToHex
  refine ⟨fun hl => ?_, fun hl => ?_, fun hl ⟨a, r', hr', hne⟩ => ?_, fun hl => ?_⟩
  · rw [key _ (hc _ hr), h0, hl]; rfl
  · rw [key _ (hc _ (hc _ hr)), h0, hl]; rfl
  · rw [key _ (hc _ hr), key _ hr, hl, List.cons_append]
    have e1 : a2bGo 2 l 0 ('=' :: (r ++ py "==")) = a2bGo 2 l 1 (r ++ py "==") := rfl
    have ham : a ∈ base64Alphabet := by
      have : a ∈ r.filter (fun c => c == '=' || decide (c ∈ base64Alphabet)) := by rw [hr']; exact .head _
      simpa [hne] using (List.mem_filter.1 this).2
    rw [e1, a2bGo_filter (r ++ _), a2bGo_filter (r ++ _) 2 l 0, List.filter_append, hr', List.cons_append, a2b_step ham, a2b_step ham]
  · rw [key _ (hc _ hr), key _ hr, List.cons_append]
    conv => lhs; unfold a2bGo
    rw [if_pos rfl, if_neg (by omega)]

theorem base64ToHex_nonascii {s : Str} (ha : ¬ Ascii s) : base64ToHex s = .error .value := by
  unfold base64ToHex b64decode
  rw [if_neg]
  · rfl
  · intro h
    rw [List.all_eq_true] at h
    exact ha fun c hc => of_decide_eq_true (h c (List.mem_append_left _ hc))

/-! ### The class methods -/

/-- `from_hex`; `hdr` says that a binary without a known header raises KeyError. -/
theorem fromHexWith_any {α : Type} {dec : Str → Except Err α}
    (hdr : ∀ b : Str, b.take 4 = py "0000" ∨ b.head? = some '-' → dec b = .error .key) (s : Str) :
    (HexString s → fromHexWith dec s = dec (hexStringBits s)) ∧
    (¬ HexString s → fromHexWith dec s = .error .value ∨ fromHexWith dec s = .error .key) := by
  constructor
  · intro hs
    unfold fromHexWith
    rw [hexToBinary_string hs, ok_bind]
  · intro hs
    unfold fromHexWith
    rcases hexToBinary_other hs with h | ⟨b, h, hb⟩
    · rw [h, error_bind]; exact .inl rfl
    · rw [h, ok_bind]; exact .inr (hdr b hb)

theorem fromBase64With_any {α : Type} {dec : Str → Except Err α} (s : Str) :
    (¬ Ascii s → fromBase64With dec s = .error .value) ∧
    ∀ t k, s = t ++ List.replicate k '=' → '=' ∉ t → Ascii t →
      ((base64Chars t).length % 4 = 1 ∨ base64Chars t = [] → fromBase64With dec s = .error .value) ∧
      ((base64Chars t).length % 4 ≠ 1 → base64Chars t ≠ [] → fromBase64With dec s = dec (base64Bits (base64Chars t))) := by
  constructor
  · intro h
    unfold fromBase64With
    rw [base64ToHex_nonascii h, error_bind]
  · rintro t k rfl hp ha
    obtain ⟨h1, h2⟩ := base64ToHex_any ha hp k
    constructor
    · rintro (h | h)
      · unfold fromBase64With
        rw [h1 h, error_bind]
      · obtain ⟨bs, _, hl, _, e⟩ := h2 (by rw [h]; decide)
        rw [h] at hl
        have : bs = [] := List.length_eq_zero_iff.1 hl
        subst this
        unfold fromBase64With
        rw [e]; rfl
    · intro h hne
      obtain ⟨bs, hb, hl, e1, e⟩ := h2 h
      unfold fromBase64With fromHexWith
      have hb0 : bs ≠ [] := by
        rintro rfl
        have := List.length_pos_iff.2 hne
        simp only [List.length_nil] at hl
        omega
      obtain ⟨g1, g2⟩ := bytesHex_string hb
      rw [e, ok_bind, hexToBinary_string ⟨by cases bs with | nil => exact absurd rfl hb0 | cons b t => simp [bytesHex], g1⟩, ok_bind, g2, e1]
end Epc
