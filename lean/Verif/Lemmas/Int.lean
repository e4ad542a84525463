/-
Facts about `int(s, base)` and the decimal, binary and hexadecimal forms of natural numbers.
-/
import Verif.Lemmas.Char
import Verif.Lemmas.Str

namespace Epc

/-- Value of a string of digits in base `b`. -/
def digValFrom (b : Nat) (acc : Nat) (s : Str) : Nat := s.foldl (fun a c => a * b + (digitVal c).getD 0) acc

/-- Value of a string of digits in base `b`. -/
def digVal (b : Nat) (s : Str) : Nat := digValFrom b 0 s

/-- All characters are digits of base `b`. -/
def DigitsIn (b : Nat) (s : Str) : Prop := ∀ c ∈ s, ∃ d, digitVal c = some d ∧ d < b

theorem DigitsIn.cons {b : Nat} {c : Char} {s : Str} :
    DigitsIn b (c :: s) ↔ (∃ d, digitVal c = some d ∧ d < b) ∧ DigitsIn b s := by
  simp [DigitsIn]

theorem DigitsIn.append {b : Nat} {s t : Str} : DigitsIn b (s ++ t) ↔ DigitsIn b s ∧ DigitsIn b t := by
  simp only [DigitsIn, List.mem_append]
  constructor
  · intro h; exact ⟨fun c hc => h c (.inl hc), fun c hc => h c (.inr hc)⟩
  · rintro ⟨h1, h2⟩ c (hc | hc)
    · exact h1 c hc
    · exact h2 c hc

theorem DigitsIn.nil {b : Nat} : DigitsIn b [] := by simp [DigitsIn]

theorem digitIn_of {b : Nat} {c : Char} {d : Nat} (h : digitVal c = some d) (hd : d < b) : digitIn b c = some d := by
  simp [digitIn, h, hd]

theorem digitVal_lt_127 {c : Char} {d : Nat} (h : digitVal c = some d) : c.toNat < 127 := by
  simp only [digitVal] at h
  split at h
  · omega
  · split at h
    · omega
    · split at h
      · omega
      · cases h

theorem digitVal_not_space {c : Char} {d : Nat} (h : digitVal c = some d) : isCSpace c = false := by
  have h1 := digitVal_lt_127 h
  revert h
  have := ascii_forall (P := fun c => (digitVal c).isSome → isCSpace c = false) (by decide) c (by omega)
  intro h; exact this (by simp [h])

theorem digitsGo_eq {b : Nat} {s : Str} (h : DigitsIn b s) (acc : Nat) :
    digitsGo b acc s = some (digValFrom b acc s) := by
  induction s generalizing acc with
  | nil => rfl
  | cons c s ih =>
    obtain ⟨⟨d, h1, h2⟩, hs⟩ := DigitsIn.cons.1 h
    rw [digitsGo.eq_def]
    simp only [digitIn_of h1 h2]
    rw [ih hs]
    simp [digValFrom, h1]

theorem digitsVal_eq {b : Nat} {s : Str} (h : DigitsIn b s) (hne : s ≠ []) :
    digitsVal b s = some (digVal b s) := by
  cases s with
  | nil => exact absurd rfl hne
  | cons c s =>
    obtain ⟨⟨d, h1, h2⟩, hs⟩ := DigitsIn.cons.1 h
    unfold digitsVal
    simp only [digitIn_of h1 h2, digitsGo_eq hs]
    simp [digVal, digValFrom, h1]

theorem dropRightWhile_of_last {p : Char → Bool} {s : Str} (h : ∀ c ∈ s, p c = false) : dropRightWhile p s = s := by
  unfold dropRightWhile
  have : s.reverse.dropWhile p = s.reverse := by
    cases hr : s.reverse with
    | nil => rfl
    | cons c t =>
      have : p c = false := h c (by rw [← List.mem_reverse, hr]; simp)
      simp [this]
  rw [this, List.reverse_reverse]

theorem dropWhile_of_all {p : Char → Bool} {s : Str} (h : ∀ c ∈ s, p c = false) : s.dropWhile p = s := by
  cases s with
  | nil => rfl
  | cons c t => simp [h c (by simp)]

theorem dropBasePrefix_of_digits {b : Nat} (hb : b ≤ 16) {s : Str} (h : DigitsIn b s) : dropBasePrefix b s = s := by
  unfold dropBasePrefix
  split
  · next x t =>
    have hx : ∃ d, digitVal x = some d ∧ d < b := h x (by simp)
    obtain ⟨d, h1, h2⟩ := hx
    rw [if_neg]
    rintro (⟨rfl, rfl | rfl⟩ | ⟨rfl, rfl | rfl⟩)
    · have : digitVal 'x' = some 33 := by decide
      rw [this] at h1; cases h1; omega
    · have : digitVal 'X' = some 33 := by decide
      rw [this] at h1; cases h1; omega
    · have : digitVal 'b' = some 11 := by decide
      rw [this] at h1; cases h1; omega
    · have : digitVal 'B' = some 11 := by decide
      rw [this] at h1; cases h1; omega
  · rfl

theorem intNormChar_of_lt {c : Char} (h : c.toNat < 127) : intNormChar c = c := by
  simp [intNormChar, h]

theorem map_intNormChar_of_lt {s : Str} (h : ∀ c ∈ s, c.toNat < 127) : s.map intNormChar = s := by
  rw [List.map_congr_left (g := id)]
  · simp
  · intro c hc; exact intNormChar_of_lt (h c hc)

theorem DigitsIn.lt_127 {b : Nat} {s : Str} (h : DigitsIn b s) : ∀ c ∈ s, c.toNat < 127 := by
  intro c hc
  obtain ⟨d, h1, _⟩ := h c hc
  exact digitVal_lt_127 h1

/-- `int(s, b)` on a string whose normalised form is a non-empty digit string. -/
theorem pyInt_of_norm {b : Nat} (hb : b ≤ 16) {s : Str} (h : DigitsIn b (s.map intNormChar)) (hne : s ≠ []) :
    pyInt b s = .ok (digVal b (s.map intNormChar)) := by
  have hsp : ∀ c ∈ s.map intNormChar, isCSpace c = false := by
    intro c hc
    obtain ⟨d, h1, _⟩ := h c hc
    exact digitVal_not_space h1
  have hne' : s.map intNormChar ≠ [] := by simpa using hne
  unfold pyInt
  simp only [dropWhile_of_all hsp, dropRightWhile_of_last hsp]
  generalize s.map intNormChar = t at *
  split
  · exfalso
    obtain ⟨d, h1, _⟩ := h '-' (by simp)
    revert h1; simp [digitVal]
  · exfalso
    obtain ⟨d, h1, _⟩ := h '+' (by simp)
    revert h1; simp [digitVal]
  · rw [dropBasePrefix_of_digits hb h, digitsVal_eq h hne']

/-- `int(s, b)` on a non-empty ASCII digit string. -/
theorem pyInt_digits {b : Nat} (hb : b ≤ 16) {s : Str} (h : DigitsIn b s) (hne : s ≠ []) :
    pyInt b s = .ok (digVal b s) := by
  have hm := map_intNormChar_of_lt h.lt_127
  have := pyInt_of_norm (b := b) hb (s := s) (by rw [hm]; exact h) hne
  rw [hm] at this; exact this

/-! ### Values -/

theorem digValFrom_append (b acc : Nat) (s t : Str) :
    digValFrom b acc (s ++ t) = digValFrom b (digValFrom b acc s) t := by
  simp [digValFrom]

theorem digVal_snoc (b : Nat) (s : Str) (c : Char) :
    digVal b (s ++ [c]) = digVal b s * b + (digitVal c).getD 0 := by
  simp [digVal, digValFrom]

theorem digValFrom_eq (b acc : Nat) (s : Str) : digValFrom b acc s = acc * b ^ s.length + digVal b s := by
  induction s generalizing acc with
  | nil => simp [digVal, digValFrom]
  | cons c s ih =>
    have h1 : digValFrom b acc (c :: s) = digValFrom b (acc * b + (digitVal c).getD 0) s := by
      simp [digValFrom]
    have h2 : digVal b (c :: s) = digValFrom b ((digitVal c).getD 0) s := by
      simp [digVal, digValFrom]
    rw [h1, h2, ih, ih ((digitVal c).getD 0), List.length_cons, Nat.pow_succ, Nat.add_mul,
      Nat.mul_assoc, Nat.mul_comm b, Nat.add_assoc]

theorem digVal_append (b : Nat) (s t : Str) : digVal b (s ++ t) = digVal b s * b ^ t.length + digVal b t := by
  rw [digVal, digValFrom_append, digValFrom_eq]; rfl

theorem digVal_cons (b : Nat) (c : Char) (s : Str) :
    digVal b (c :: s) = (digitVal c).getD 0 * b ^ s.length + digVal b s := by
  have := digVal_append b [c] s
  simpa [digVal, digValFrom] using this

theorem digVal_replicate_zero (b k : Nat) : digVal b (List.replicate k '0') = 0 := by
  induction k with
  | zero => rfl
  | succ k ih =>
    rw [List.replicate_succ, digVal_cons, ih]
    simp [show digitVal '0' = some 0 from by decide]

theorem digVal_padLeft (b w : Nat) (s : Str) : digVal b (padLeft '0' w s) = digVal b s := by
  rw [padLeft, digVal_append, digVal_replicate_zero]; simp

theorem digVal_lt {b : Nat} {s : Str} (h : DigitsIn b s) : digVal b s < b ^ s.length := by
  induction s with
  | nil => simp [digVal, digValFrom]
  | cons c s ih =>
    obtain ⟨⟨d, h1, h2⟩, hs⟩ := DigitsIn.cons.1 h
    rw [digVal_cons, h1, List.length_cons, Nat.pow_succ]
    have := ih hs
    simp only [Option.getD_some]
    have h3 : (d + 1) * b ^ s.length ≤ b * b ^ s.length := Nat.mul_le_mul_right _ h2
    rw [Nat.mul_comm (b ^ s.length) b]
    rw [Nat.add_mul] at h3
    omega

/-! ### `Nat.toDigits` -/

theorem digitVal_digitChar {d : Nat} (h : d < 16) : digitVal (Nat.digitChar d) = some d := by
  have : ∀ d : Fin 16, digitVal (Nat.digitChar d.val) = some d.val := by decide
  exact this ⟨d, h⟩

theorem digitsIn_toDigits {b n : Nat} (hb : 1 < b) (hb' : b ≤ 16) : DigitsIn b (Nat.toDigits b n) := by
  induction n using Nat.strongRecOn with
  | ind n ih =>
    by_cases h : n < b
    · rw [Nat.toDigits_of_lt_base h]
      intro c hc
      simp only [List.mem_singleton] at hc
      subst hc
      exact ⟨n, digitVal_digitChar (by omega), h⟩
    · rw [Nat.toDigits_of_base_le hb (by omega), DigitsIn.append]
      refine ⟨ih _ (Nat.div_lt_self (by omega) hb), ?_⟩
      intro c hc
      simp only [List.mem_singleton] at hc
      subst hc
      have : n % b < b := Nat.mod_lt _ (by omega)
      exact ⟨n % b, digitVal_digitChar (by omega), this⟩

theorem digVal_toDigits {b n : Nat} (hb : 1 < b) (hb' : b ≤ 16) : digVal b (Nat.toDigits b n) = n := by
  induction n using Nat.strongRecOn with
  | ind n ih =>
    by_cases h : n < b
    · rw [Nat.toDigits_of_lt_base h]
      simp [digVal, digValFrom, digitVal_digitChar (show n < 16 by omega)]
    · rw [Nat.toDigits_of_base_le hb (by omega), digVal_snoc, ih _ (Nat.div_lt_self (by omega) hb)]
      have : n % b < b := Nat.mod_lt _ (by omega)
      rw [digitVal_digitChar (by omega)]
      simp only [Option.getD_some]
      rw [Nat.mul_comm]; exact Nat.div_add_mod n b

/-- The characters are the ones `Nat.toDigits` produces (no upper-case hexadecimal digits). -/
def CanonDigits (b : Nat) (s : Str) : Prop := ∀ c ∈ s, ∃ d, d < b ∧ c = Nat.digitChar d

theorem CanonDigits.digitsIn {b : Nat} (hb : b ≤ 16) {s : Str} (h : CanonDigits b s) : DigitsIn b s := by
  intro c hc
  obtain ⟨d, h1, rfl⟩ := h c hc
  exact ⟨d, digitVal_digitChar (by omega), h1⟩

theorem canonDigits_toDigits {b n : Nat} (hb : 1 < b) : CanonDigits b (Nat.toDigits b n) := by
  induction n using Nat.strongRecOn with
  | ind n ih =>
    by_cases h : n < b
    · rw [Nat.toDigits_of_lt_base h]
      intro c hc
      simp only [List.mem_singleton] at hc
      exact ⟨n, h, hc⟩
    · rw [Nat.toDigits_of_base_le hb (by omega)]
      intro c hc
      rcases List.mem_append.1 hc with hc | hc
      · exact ih _ (Nat.div_lt_self (by omega) hb) c hc
      · simp only [List.mem_singleton] at hc
        exact ⟨n % b, Nat.mod_lt _ (by omega), hc⟩

theorem canonDigits_padLeft {b w : Nat} {s : Str} (hb : 0 < b) (h : CanonDigits b s) :
    CanonDigits b (padLeft '0' w s) := by
  intro c hc
  rcases mem_padLeft hc with rfl | hc
  · exact ⟨0, hb, rfl⟩
  · exact h c hc

/-- A string of digits is determined by its length and value. -/
theorem canonDigits_inj {b : Nat} (hb' : b ≤ 16) {s t : Str} (hs : CanonDigits b s) (ht : CanonDigits b t)
    (hl : s.length = t.length) (hv : digVal b s = digVal b t) : s = t := by
  induction s generalizing t with
  | nil => cases t with
    | nil => rfl
    | cons => simp at hl
  | cons c s ih =>
    cases t with
    | nil => simp at hl
    | cons c' t =>
      simp only [List.length_cons, Nat.add_right_cancel_iff] at hl
      have hs' : CanonDigits b s := fun x hx => hs x (List.mem_cons_of_mem _ hx)
      have ht' : CanonDigits b t := fun x hx => ht x (List.mem_cons_of_mem _ hx)
      obtain ⟨d, hd, rfl⟩ := hs c (by simp)
      obtain ⟨d', hd', rfl⟩ := ht c' (by simp)
      rw [digVal_cons, digVal_cons, digitVal_digitChar (by omega), digitVal_digitChar (by omega), hl] at hv
      simp only [Option.getD_some] at hv
      have l1 := digVal_lt (hs'.digitsIn hb')
      have l2 := digVal_lt (ht'.digitsIn hb')
      rw [hl] at l1
      have hdd : d = d' := by
        have e1 : (d * b ^ t.length + digVal b s) / b ^ t.length = d := by
          rw [Nat.mul_comm, Nat.mul_add_div (by omega), Nat.div_eq_of_lt l1]; simp
        have e2 : (d' * b ^ t.length + digVal b t) / b ^ t.length = d' := by
          rw [Nat.mul_comm, Nat.mul_add_div (by omega), Nat.div_eq_of_lt l2]; simp
        rw [hv] at e1; omega
      subst hdd
      rw [ih hs' ht' hl (by omega)]

theorem length_toDigits_le {b n w : Nat} (hb : 1 < b) (hw : 0 < w) (h : n < b ^ w) : (Nat.toDigits b n).length ≤ w :=
  (Nat.length_toDigits_le_iff hb hw).2 h

/-- The padded digit form of the value of a digit string is the string. -/
theorem padLeft_toDigits_digVal {b : Nat} (hb : 1 < b) (hb' : b ≤ 16) {s : Str} (hs : CanonDigits b s) (hne : s ≠ []) :
    padLeft '0' s.length (Nat.toDigits b (digVal b s)) = s := by
  have hlen : 0 < s.length := List.length_pos_iff.2 hne
  apply canonDigits_inj hb' (canonDigits_padLeft (by omega) (canonDigits_toDigits hb)) hs
  · rw [length_padLeft]
    have := length_toDigits_le hb hlen (digVal_lt (hs.digitsIn hb'))
    omega
  · rw [digVal_padLeft, digVal_toDigits hb hb']

/-! ### Decimal strings -/

theorem digitVal_of_isDigitA {c : Char} (h : isDigitA c = true) : digitVal c = some (c.toNat - 48) := by
  rw [isDigitA_iff] at h; simp [digitVal, h]

theorem digitsIn_ten {s : Str} (h : ∀ c ∈ s, isDigitA c = true) : DigitsIn 10 s := by
  intro c hc
  have := h c hc
  refine ⟨_, digitVal_of_isDigitA this, ?_⟩
  rw [isDigitA_iff] at this; omega

theorem canonDigits_ten {s : Str} (h : ∀ c ∈ s, isDigitA c = true) : CanonDigits 10 s := by
  intro c hc
  have := h c hc
  have h1 := (isDigitA_iff c).1 this
  refine ⟨c.toNat - 48, by omega, ?_⟩
  rw [char_eq_iff, Nat.toNat_digitChar_of_lt_ten (by omega)]; omega

theorem isDigitA_of_canon {s : Str} (h : CanonDigits 10 s) : ∀ c ∈ s, isDigitA c = true := by
  intro c hc
  obtain ⟨d, hd, rfl⟩ := h c hc
  rw [isDigitA_iff, Nat.toNat_digitChar_of_lt_ten hd]; omega

theorem isDigitA_natStr (n : Nat) : ∀ c ∈ natStr n, isDigitA c = true :=
  isDigitA_of_canon (canonDigits_toDigits (by decide))

theorem natStr_ne_nil (n : Nat) : natStr n ≠ [] := Nat.toDigits_ne_nil

theorem pyInt_natStr (n : Nat) : pyInt 10 (natStr n) = .ok n := by
  unfold natStr
  rw [pyInt_digits (by decide) (digitsIn_toDigits (by decide) (by decide)) Nat.toDigits_ne_nil,
    digVal_toDigits (by decide) (by decide)]

theorem intStr_ofNat (n : Nat) : intStr (n : Int) = natStr n := by
  simp only [intStr, Int.natAbs_natCast]
  rw [if_neg (by omega)]

/-! ### Unicode decimal digits -/

theorem not_isUniSpace_of_decimal {c : Char} {d : Nat} (hd : decimalVal c = some d) (hc : ¬ c.toNat < 128) :
    isUniSpace c = false := by
  cases hs : isUniSpace c with
  | false => rfl
  | true =>
    have : decimalVal c = none := by
      simp only [isUniSpace, Bool.or_eq_true, beq_iff_eq, Bool.and_eq_true, decide_eq_true_eq] at hs
      have h0 : ¬ (48 ≤ c.toNat ∧ c.toNat ≤ 57) := by omega
      simp only [decimalVal, h0, if_false, hc]
      simp only [ndZeros, findRun]
      repeat rw [if_neg (by omega)]
    rw [this] at hd; cases hd

/-- The ASCII digit a decimal digit is normalised to has the same value. -/
theorem digitVal_intNormChar {c : Char} {d : Nat} (hd : decimalVal c = some d) :
    digitVal (intNormChar c) = some d := by
  have hd10 := decimalVal_lt hd
  by_cases hc : c.toNat < 128
  · have h1 := isDigitA_of_isDecimal (c := c) (by simp [isDecimal, hd]) hc
    have h2 := decimalVal_of_isDigitA h1
    rw [intNormChar_of_lt (by rw [isDigitA_iff] at h1; omega), digitVal_of_isDigitA h1, ← hd, h2]
  · unfold intNormChar
    rw [if_neg (by omega), not_isUniSpace_of_decimal hd hc, hd]
    have : ∀ d : Fin 10, digitVal (Char.ofNat (48 + d.val)) = some d.val := by decide
    simpa using this ⟨d, hd10⟩

/-- Value of a string of (Unicode) decimal digits. -/
def decVal (s : Str) : Nat := digVal 10 (s.map intNormChar)

theorem digitsIn_norm {s : Str} (h : ∀ c ∈ s, isDecimal c = true) : DigitsIn 10 (s.map intNormChar) := by
  intro c hc
  obtain ⟨x, hx, rfl⟩ := List.mem_map.1 hc
  obtain ⟨d, hd⟩ := Option.isSome_iff_exists.1 (h x hx)
  exact ⟨d, digitVal_intNormChar hd, decimalVal_lt hd⟩

/-- `int(s)` on a non-empty string of decimal digits. -/
theorem pyInt_decimal {s : Str} (h : ∀ c ∈ s, isDecimal c = true) (hne : s ≠ []) : pyInt 10 s = .ok (decVal s) :=
  pyInt_of_norm (by decide) (digitsIn_norm h) hne

theorem decVal_ascii {s : Str} (h : ∀ c ∈ s, isDigitA c = true) : decVal s = digVal 10 s := by
  rw [decVal, map_intNormChar_of_lt (digitsIn_ten h).lt_127]

/-- `int(c)` for a single character is the model's `digitInt`. -/
theorem pyInt_single (c : Char) : pyInt 10 [c] = (digitInt c).map Int.ofNat := by
  cases hd : decimalVal c with
  | some d =>
    have := pyInt_decimal (s := [c]) (by intro x hx; simp at hx; subst hx; simp [isDecimal, hd]) (by simp)
    rw [this]
    simp [decVal, digVal, digValFrom, digitVal_intNormChar hd, digitInt, hd, Except.map]
  | none =>
    have e : digitInt c = .error .value := by simp [digitInt, hd]
    rw [e]
    by_cases hc : c.toNat < 128
    · revert hd
      exact ascii_forall (P := fun c => decimalVal c = none → pyInt 10 [c] = Except.map Int.ofNat (.error .value))
        (by decide +kernel) c hc
    · have hn : intNormChar c = ' ' ∨ intNormChar c = '?' := by
        unfold intNormChar
        rw [if_neg (by omega), hd]
        cases isUniSpace c <;> simp
      have h2 : pyInt 10 [c] = pyInt 10 [intNormChar c] := by
        have : intNormChar (intNormChar c) = intNormChar c := by
          rcases hn with h | h <;> rw [h] <;> decide
        unfold pyInt
        simp [this]
      rw [h2]
      rcases hn with h | h <;> rw [h] <;> decide

end Epc
