/-
Lower-casing the ASCII letters of a string does not change what any `from_binary` makes of it.
-/
import Verif.Model.Parsers
import Verif.Lemmas.Monad
import Verif.Lemmas.Char
import Verif.Lemmas.Int

set_option linter.unusedSimpArgs false

namespace Epc
open Re

theorem ite_iff {α : Type} {p q : Prop} [Decidable p] [Decidable q] (h : p ↔ q) {a b : α} : (if p then a else b) = (if q then a else b) := by
  by_cases hq : q
  · rw [if_pos hq, if_pos (h.2 hq)]
  · rw [if_neg hq, if_neg (fun hp => hq (h.1 hp))]

/-- Lower-case every ASCII letter. -/
def low (s : Str) : Str := s.map lowerChar

theorem lowerChar_cases (c : Char) : lowerChar c = c ∨ (65 ≤ c.toNat ∧ c.toNat ≤ 90 ∧ (lowerChar c).toNat = c.toNat + 32) := by
  unfold lowerChar
  split
  · rename_i h
    right
    have h1 : 65 ≤ c.toNat := h.1
    have h2 : c.toNat ≤ 90 := h.2
    refine ⟨h1, h2, ?_⟩
    have : ∀ n, n < 91 → (Char.ofNat (n + 32)).toNat = n + 32 := by decide
    exact this _ (by omega)
  · exact .inl rfl

/-- A character that is not a letter is only produced by itself. -/
theorem lowerChar_eq_iff {c d : Char} (hd : d.toNat < 65 ∨ (90 < d.toNat ∧ d.toNat < 97) ∨ 122 < d.toNat) : lowerChar c = d ↔ c = d := by
  rcases lowerChar_cases c with h | ⟨h1, h2, h3⟩
  · rw [h]
  · constructor
    · intro e; rw [e] at h3; omega
    · intro e; subst e; omega

theorem isCSpace_lower (c : Char) : isCSpace (lowerChar c) = isCSpace c := by
  unfold isCSpace
  have h (d : Char) (hd : d.toNat < 65) : (lowerChar c == d) = (c == d) := by
    rw [Bool.eq_iff_iff, beq_iff_eq, beq_iff_eq, lowerChar_eq_iff (.inl hd)]
  rw [h _ (by decide), h _ (by decide), h _ (by decide), h _ (by decide), h _ (by decide), h _ (by decide)]

theorem digitVal_lower (c : Char) : digitVal (lowerChar c) = digitVal c := by
  rcases lowerChar_cases c with h | ⟨h1, h2, h3⟩
  · rw [h]
  · unfold digitVal
    dsimp only
    rw [h3, if_neg (by omega), if_pos (by omega), if_neg (by omega), if_neg (by omega), if_pos (by omega)]
    congr 1

theorem digitIn_lower (b : Nat) (c : Char) : digitIn b (lowerChar c) = digitIn b c := by
  unfold digitIn; rw [digitVal_lower]

theorem intNormChar_lower (c : Char) : intNormChar (lowerChar c) = lowerChar (intNormChar c) := by
  by_cases h : c.toNat < 127
  · have h' : (lowerChar c).toNat < 127 := by
      rcases lowerChar_cases c with e | ⟨_, _, e⟩
      · rw [e]; exact h
      · omega
    unfold intNormChar
    rw [if_pos h, if_pos h']
  · have e : lowerChar c = c := by
      rcases lowerChar_cases c with e | ⟨_, _, e⟩
      · exact e
      · omega
    rw [e]
    unfold intNormChar
    rw [if_neg h]
    split
    · rfl
    · split
      · rename_i d hd
        have hlt : d < 10 := decimalVal_lt hd
        have : ∀ k, k < 10 → lowerChar (Char.ofNat (48 + k)) = Char.ofNat (48 + k) := by decide
        exact (this d hlt).symm
      · rfl

theorem dropWhile_low {p : Char → Bool} (hp : ∀ c, p (lowerChar c) = p c) (s : Str) : (low s).dropWhile p = low (s.dropWhile p) := by
  unfold low
  induction s with
  | nil => rfl
  | cons c s ih =>
    rw [List.map_cons, List.dropWhile_cons, List.dropWhile_cons, hp]
    split
    · exact ih
    · rfl

theorem low_reverse (s : Str) : (low s).reverse = low s.reverse := by unfold low; rw [List.map_reverse]

theorem dropRightWhile_low {p : Char → Bool} (hp : ∀ c, p (lowerChar c) = p c) (s : Str) :
    dropRightWhile p (low s) = low (dropRightWhile p s) := by
  unfold dropRightWhile
  rw [low_reverse, dropWhile_low hp, low_reverse]

theorem digitsGo_low (b acc : Nat) (s : Str) : digitsGo b acc (low s) = digitsGo b acc s := by
  unfold low
  fun_induction digitsGo b acc s with
  | case1 acc => rfl
  | case2 acc c cs d hd ih => rw [List.map_cons, digitsGo.eq_def]; dsimp only; rw [digitIn_lower, hd]; exact ih
  | case3 acc hd =>
    rw [List.map_cons, digitsGo.eq_def]; dsimp only; rw [digitIn_lower, hd]
    rfl
  | case4 acc c' cs' d hd' hd ih =>
    rw [List.map_cons, List.map_cons, digitsGo.eq_def]; dsimp only; rw [digitIn_lower, hd]
    dsimp only
    rw [if_pos (by decide), digitIn_lower, hd']
    exact ih
  | case5 acc c' cs' hd' hd =>
    rw [List.map_cons, List.map_cons, digitsGo.eq_def]; dsimp only; rw [digitIn_lower, hd]
    dsimp only
    rw [if_pos (by decide), digitIn_lower, hd']
  | case6 acc c cs hd hc =>
    rw [List.map_cons, digitsGo.eq_def]; dsimp only; rw [digitIn_lower, hd]
    dsimp only
    rw [if_neg]
    rw [lowerChar_eq_iff (by decide)]
    exact hc

theorem digitsVal_low (b : Nat) (s : Str) : digitsVal b (low s) = digitsVal b s := by
  cases s with
  | nil => rfl
  | cons c s =>
    show digitsVal b (lowerChar c :: low s) = _
    unfold digitsVal
    dsimp only
    rw [digitIn_lower]
    cases digitIn b c with
    | none => rfl
    | some d => exact digitsGo_low b d s

theorem lowerChar_b (x : Char) : (lowerChar x = 'b' ∨ lowerChar x = 'B') ↔ (x = 'b' ∨ x = 'B') := by
  rcases lowerChar_cases x with h | ⟨h1, h2, h3⟩
  · rw [h]
  · constructor
    · rintro (e | e)
      · rw [e] at h3
        right
        apply Char.toNat_inj.1
        have : ('b' : Char).toNat = 98 := rfl
        have : ('B' : Char).toNat = 66 := rfl
        omega
      · rw [e] at h3
        have : ('B' : Char).toNat = 66 := rfl
        omega
    · rintro (e | e) <;> subst e <;> decide

theorem dropUnderscore (t : Str) : (match t with | '_' :: t' => t' | _ => t) = (if t.head? = some '_' then t.tail else t) := by
  cases t with
  | nil => rfl
  | cons y t =>
    by_cases hy : y = '_'
    · subst hy; rfl
    · rw [List.head?_cons, if_neg (fun e => hy (Option.some.inj e))]
      split
      · rename_i e; exact absurd (List.cons.inj e).1 hy
      · rfl

theorem dropBasePrefix_zero (x : Char) (t : Str) : dropBasePrefix 2 ('0' :: x :: t) =
    if x = 'b' ∨ x = 'B' then (if t.head? = some '_' then t.tail else t) else '0' :: x :: t := by
  unfold dropBasePrefix
  rw [← dropUnderscore]
  by_cases h : x = 'b' ∨ x = 'B'
  · rw [if_pos h]; exact if_pos (.inr ⟨rfl, h⟩)
  · rw [if_neg h]; exact if_neg (by rintro (⟨h', -⟩ | ⟨-, h'⟩); exact absurd h' (by decide); exact h h')

theorem dropBasePrefix_other {s : Str} (h : ∀ x t, s ≠ '0' :: x :: t) : dropBasePrefix 2 s = s := by
  unfold dropBasePrefix
  split
  · exact absurd rfl (h _ _)
  · rfl

theorem low_head? (t : Str) : ((low t).head? = some '_') ↔ (t.head? = some '_') := by
  cases t with
  | nil => exact Iff.rfl
  | cons c t =>
    show some (lowerChar c) = some '_' ↔ some c = some '_'
    rw [Option.some.injEq, Option.some.injEq, lowerChar_eq_iff (by decide)]

theorem dropBasePrefix_low (s : Str) : dropBasePrefix 2 (low s) = low (dropBasePrefix 2 s) := by
  by_cases h : ∃ x t, s = '0' :: x :: t
  · obtain ⟨x, t, rfl⟩ := h
    show dropBasePrefix 2 ('0' :: lowerChar x :: low t) = _
    rw [dropBasePrefix_zero, dropBasePrefix_zero, ite_iff (lowerChar_b x)]
    split
    · rw [ite_iff (low_head? t)]
      split
      · cases t <;> rfl
      · rfl
    · rfl
  · rw [dropBasePrefix_other (fun x t e => h ⟨x, t, e⟩), dropBasePrefix_other]
    intro x t e
    match s, e with
    | [], e => cases e
    | [c], e => cases (List.cons.inj e).2
    | c :: y :: s, e =>
      have e1 : lowerChar c = '0' := (List.cons.inj e).1
      exact h ⟨y, s, by rw [(lowerChar_eq_iff (by decide)).1 e1]⟩

theorem sign_match {α : Type} {c : Char} (h1 : c ≠ '-') (h2 : c ≠ '+') (t : Str) (f g h : Str → α) :
    (match c :: t with | '-' :: t => f t | '+' :: t => g t | t => h t) = h (c :: t) := by
  split
  · rename_i e; exact absurd (List.cons.inj e).1 h1
  · rename_i e; exact absurd (List.cons.inj e).1 h2
  · rfl

theorem pyInt_low (s : Str) : pyInt 2 (low s) = pyInt 2 s := by
  have hn : (low s).map intNormChar = low (s.map intNormChar) := by
    unfold low
    rw [List.map_map, List.map_map]
    exact List.map_congr_left (fun c _ => intNormChar_lower c)
  unfold pyInt
  dsimp only
  rw [hn, dropWhile_low isCSpace_lower, dropRightWhile_low isCSpace_lower]
  generalize dropRightWhile isCSpace ((s.map intNormChar).dropWhile isCSpace) = t
  have key (t : Str) : digitsVal 2 (dropBasePrefix 2 (low t)) = digitsVal 2 (dropBasePrefix 2 t) := by
    rw [dropBasePrefix_low, digitsVal_low]
  match t with
  | [] => rfl
  | c :: t =>
    by_cases h1 : c = '-'
    · subst h1
      show (match digitsVal 2 (dropBasePrefix 2 (low t)) with | some n => Except.ok (-(n : Int)) | Option.none => .error Err.value) = _
      rw [key]
      rfl
    · by_cases h2 : c = '+'
      · subst h2
        show (match digitsVal 2 (dropBasePrefix 2 (low t)) with | some n => Except.ok (n : Int) | Option.none => .error Err.value) = _
        rw [key]
        rfl
      · have h1' : lowerChar c ≠ '-' := fun e => h1 ((lowerChar_eq_iff (by decide)).1 e)
        have h2' : lowerChar c ≠ '+' := fun e => h2 ((lowerChar_eq_iff (by decide)).1 e)
        refine (sign_match h1' h2' (low t)
          (fun t => match digitsVal 2 (dropBasePrefix 2 t) with | some n => Except.ok (-(n : Int)) | Option.none => .error Err.value)
          (fun t => match digitsVal 2 (dropBasePrefix 2 t) with | some n => Except.ok (n : Int) | Option.none => .error Err.value)
          (fun t => match digitsVal 2 (dropBasePrefix 2 t) with | some n => Except.ok (n : Int) | Option.none => .error Err.value)).trans
          (Eq.trans ?_ (sign_match h1 h2 t
          (fun t => match digitsVal 2 (dropBasePrefix 2 t) with | some n => Except.ok (-(n : Int)) | Option.none => .error Err.value)
          (fun t => match digitsVal 2 (dropBasePrefix 2 t) with | some n => Except.ok (n : Int) | Option.none => .error Err.value)
          (fun t => match digitsVal 2 (dropBasePrefix 2 t) with | some n => Except.ok (n : Int) | Option.none => .error Err.value)).symm)
        have k := key (c :: t)
        have hl : low (c :: t) = lowerChar c :: low t := rfl
        rw [hl] at k
        rw [k]

theorem binaryToInt_low (s : Str) : binaryToInt (low s) = binaryToInt s := pyInt_low s

theorem low_take (n : Nat) (s : Str) : (low s).take n = low (s.take n) := by unfold low; rw [List.map_take]
theorem low_drop (n : Nat) (s : Str) : (low s).drop n = low (s.drop n) := by unfold low; rw [List.map_drop]
theorem low_slice (s : Str) (i j : Nat) : slice (low s) i j = low (slice s i j) := by unfold slice; rw [low_take, low_drop]
theorem low_length (s : Str) : (low s).length = s.length := List.length_map ..
theorem low_sliceToI (s : Str) (i : Int) : sliceToI (low s) i = low (sliceToI s i) := by unfold sliceToI; rw [low_length, low_take]
theorem low_append (a b : Str) : low (a ++ b) = low a ++ low b := List.map_append ..
theorem low_flatten (l : List Str) : (l.map low).flatten = low l.flatten := by
  induction l with
  | nil => rfl
  | cons a l ih => rw [List.map_cons, List.flatten_cons, List.flatten_cons, low_append, ih]

theorem binIntStr_low (s : Str) : binIntStr (low s) = binIntStr s := by unfold binIntStr; rw [binaryToInt_low]

theorem low_eq_iff {s k : Str} (hk : ∀ c ∈ k, c.toNat < 65) : (low s = k) ↔ (s = k) := by
  induction s generalizing k with
  | nil => rfl
  | cons c s ih =>
    cases k with
    | nil => simp [low]
    | cons d k =>
      show (lowerChar c :: low s = d :: k) ↔ _
      rw [List.cons.injEq, List.cons.injEq, lowerChar_eq_iff (.inl (hk d List.mem_cons_self)),
        ih (fun c hc => hk c (List.mem_cons_of_mem _ hc))]

theorem lookup_low {α : Type} {l : List (Str × α)} (hl : ∀ p ∈ l, ∀ c ∈ p.1, c.toNat < 65) (s : Str) : l.lookup (low s) = l.lookup s := by
  induction l with
  | nil => rfl
  | cons p l ih =>
    obtain ⟨k, v⟩ := p
    have hk := hl (k, v) List.mem_cons_self
    rw [List.lookup_cons, List.lookup_cons, ih (fun p hp => hl p (List.mem_cons_of_mem _ hp))]
    have : (low s == k) = (s == k) := by
      rw [Bool.eq_iff_iff, beq_iff_eq, beq_iff_eq, low_eq_iff hk]
    rw [this]

theorem fixedMatch_low {ps : List (Char → Bool)} (hp : ∀ p ∈ ps, ∀ c, p (lowerChar c) = p c) (s : Str) :
    fixedMatch ps (low s) = fixedMatch ps s := by
  induction ps generalizing s with
  | nil => cases s <;> rfl
  | cons p ps ih =>
    cases s with
    | nil => rfl
    | cons c s =>
      show (p (lowerChar c) && fixedMatch ps (low s)) = (p c && fixedMatch ps s)
      rw [hp p List.mem_cons_self, ih (fun q hq => hp q (List.mem_cons_of_mem _ hq))]

theorem fixedLen_low {ps : List (Char → Bool)} (hp : ∀ p ∈ ps, ∀ c, p (lowerChar c) = p c) (s : Str) :
    fixedLen ps (low s) = fixedLen ps s := by
  unfold fixedLen; rw [fixedMatch_low hp]

theorem splitCapGo_low {m : Str → Option Nat} (hm : ∀ s, m (low s) = m s) (k : Nat) (s : Str) :
    splitCapGo m k (low s) = (splitCapGo m k s).map low := by
  induction s generalizing k with
  | nil => cases k <;> rfl
  | cons c s ih =>
    show splitCapGo m k (lowerChar c :: low s) = _
    cases k with
    | succ k => rw [splitCapGo, splitCapGo]; exact ih k
    | zero =>
      have e : m (lowerChar c :: low s) = m (c :: s) := hm (c :: s)
      rw [splitCapGo, splitCapGo, e]
      cases m (c :: s) with
      | some n =>
        dsimp only
        rw [ih]
        show [] :: (low (c :: s)).take n :: _ = [] :: low ((c :: s).take n) :: _
        rw [low_take]
      | none =>
        dsimp only
        rw [ih]
        cases splitCapGo m 0 s <;> rfl

theorem splitCap_low {m : Str → Option Nat} (hm : ∀ s, m (low s) = m s) (s : Str) : splitCap m (low s) = (splitCap m s).map low :=
  splitCapGo_low hm 0 s

theorem findAllGo_low {m : Str → Option Nat} (hm : ∀ s, m (low s) = m s) (k : Nat) (s : Str) :
    findAllGo m k (low s) = (findAllGo m k s).map low := by
  induction s generalizing k with
  | nil => cases k <;> rfl
  | cons c s ih =>
    show findAllGo m k (lowerChar c :: low s) = _
    cases k with
    | succ k => rw [findAllGo, findAllGo]; exact ih k
    | zero =>
      have e : m (lowerChar c :: low s) = m (c :: s) := hm (c :: s)
      rw [findAllGo, findAllGo, e]
      cases m (c :: s) with
      | some n =>
        dsimp only
        rw [ih]
        show (low (c :: s)).take n :: _ = low ((c :: s).take n) :: _
        rw [low_take]
      | none => dsimp only; rw [ih]

theorem beq_lower {d : Char} (hd : d.toNat < 65) (c : Char) : (lowerChar c == d) = (c == d) := by
  rw [Bool.eq_iff_iff, beq_iff_eq, beq_iff_eq, lowerChar_eq_iff (.inl hd)]

theorem isBit_lower (c : Char) : isBit (lowerChar c) = isBit c := by
  unfold isBit; rw [beq_lower (by decide), beq_lower (by decide)]

theorem anyChar_lower (c : Char) : anyChar (lowerChar c) = anyChar c := by
  unfold anyChar; rw [bne, bne, beq_lower (by decide)]

theorem bitsLen_low (n : Nat) (s : Str) : bitsLen n (low s) = bitsLen n s :=
  fixedLen_low (fun p hp c => by rw [(List.mem_replicate.1 hp).2]; exact isBit_lower c) s

theorem mapM_low {f : Str → Except Err Str} (hf : ∀ s, f (low s) = f s) (l : List Str) : (l.map low).mapM f = l.mapM f := by
  induction l with
  | nil => rfl
  | cons a l ih => rw [List.map_cons, List.mapM_cons, List.mapM_cons, hf, ih]

theorem decodeBinaryChar_low (s : Str) : decodeBinaryChar (low s) = decodeBinaryChar s := by
  unfold decodeBinaryChar
  rw [ite_iff (low_eq_iff (by decide)), lookup_low (by decide), pyInt_low]

theorem decodeString_low (s : Str) : decodeString (low s) = decodeString s := by
  unfold decodeString findAll
  rw [findAllGo_low, mapM_low decodeBinaryChar_low]
  exact fixedLen_low (fun p hp c => by rw [(List.mem_replicate.1 hp).2]; exact anyChar_lower c)

theorem startsWith_low {p : Str} (hp : ∀ c ∈ p, c.toNat < 65) (s : Str) : startsWith (low s) p = startsWith s p := by
  unfold startsWith
  rw [Bool.eq_iff_iff, List.isPrefixOf_iff_prefix, List.isPrefixOf_iff_prefix, List.prefix_iff_eq_take, List.prefix_iff_eq_take,
    low_take]
  constructor
  · intro h; exact ((low_eq_iff hp).1 h.symm).symm
  · intro h; exact ((low_eq_iff hp).2 h.symm).symm

theorem decodeSixLoop_low (l : List Str) : decodeSixLoop (l.map low) = decodeSixLoop l := by
  induction l with
  | nil => rfl
  | cons g l ih =>
    rw [List.map_cons, decodeSixLoop, decodeSixLoop, ite_iff (low_eq_iff (by decide)), low_length, ih,
      startsWith_low (by decide), startsWith_low (by decide), pyInt_low]

theorem decodeStringSixBits_low (s : Str) (n : Nat) : decodeStringSixBits (low s) n = decodeStringSixBits s n := by
  unfold decodeStringSixBits
  rw [splitCap_low (bitsLen_low 6), decodeSixLoop_low]

theorem decodeRef_low (s : Str) (row : Row) (m : PartMode) : decodeRef (low s) row m = decodeRef s row m := by
  cases m <;> unfold decodeRef
  · rw [binaryToInt_low]
  · rw [binaryToInt_low]
  · exact decodeString_low s
  · exact decodeStringSixBits_low s _

theorem decodePartitionTable_low (s : Str) (t : List Row) (m : PartMode) : decodePartitionTable (low s) t m = decodePartitionTable s t m := by
  unfold decodePartitionTable
  rw [low_take, binaryToInt_low]
  congr 1; funext p
  congr 1; funext row
  rw [low_slice, binaryToInt_low]
  congr 1; funext C
  rw [low_slice]
  dsimp only
  rw [decodeRef_low]

theorem decodeNumericString_low (s : Str) : decodeNumericString (low s) = decodeNumericString s := by
  unfold decodeNumericString; rw [pyInt_low]

theorem decodeFixedWidthInteger_low (s : Str) : decodeFixedWidthInteger (low s) = decodeFixedWidthInteger s := by
  unfold decodeFixedWidthInteger; rw [pyInt_low, low_length]

theorem decodeCageCode_low (s : Str) : decodeCageCode (low s) = decodeCageCode s := by
  unfold decodeCageCode
  rw [splitCap_low (bitsLen_low 8), mapM_low]
  intro g
  rw [ite_iff (low_eq_iff (by decide)), pyInt_low]

theorem decodeCageCodeSixBits_low (s : Str) : decodeCageCodeSixBits (low s) = decodeCageCodeSixBits s := by
  unfold decodeCageCodeSixBits
  rw [startsWith_low (by decide), low_drop]
  split
  · exact decodeStringSixBits_low _ _
  · exact decodeStringSixBits_low _ _

theorem parseHeader_low {κ : Type} {headers : List (Str × κ)} (hh : ∀ p ∈ headers, ∀ c ∈ p.1, c.toNat < 65) (value : κ → Str) (b : Str) :
    parseHeader headers value (low b) = (parseHeader headers value b).map (fun p => (p.1, low p.2)) := by
  unfold parseHeader
  rw [low_take, lookup_low hh, low_length]
  cases headers.lookup (b.take 8) with
  | none => rfl
  | some s =>
    dsimp only
    split
    · split
      · cases pyInt 10 _ with
        | error e => rfl
        | ok n =>
          rw [ok_bind, ok_bind]
          split
          · rfl
          · rw [low_sliceToI]; rfl
      · rfl
    · rfl

theorem bind_map_low {κ α : Type} (r : Except Err (κ × Str)) {f : κ × Str → Except Err α} (hf : ∀ k s, f (k, low s) = f (k, s)) :
    (r.map (fun p => (p.1, low p.2)) >>= f) = (r >>= f) := by
  cases r with
  | error e => rfl
  | ok p => exact hf p.1 p.2


theorem CPI.serialLoop_low (i : Bool) (l : List Str) : CPI.serialLoop i (l.map low) = low (CPI.serialLoop i l) := by
  induction l generalizing i with
  | nil => rfl
  | cons g l ih =>
    have e : decide (low g = py "000000") = decide (g = py "000000") := decide_eq_decide.2 (low_eq_iff (by decide))
    rw [List.map_cons, CPI.serialLoop, CPI.serialLoop, ih, low_append, e]
    cases i <;> rfl

theorem CPI.decodeParts_low (cs : CPI.Coding) (b : Str) :
    CPI.decodeParts cs (low b) = (CPI.decodeParts cs b).map (fun p => (p.1, low p.2)) := by
  unfold CPI.decodeParts
  split
  · rw [low_slice, decodePartitionTable_low, low_drop]
    cases decodePartitionTable _ _ _ <;> rfl
  · dsimp only
    rw [low_drop, decodePartitionTable_low, low_take, binaryToInt_low]
    cases decodePartitionTable _ _ _ with
    | error e => rfl
    | ok c =>
      cases binaryToInt _ with
      | error e => rfl
      | ok p =>
        simp only [ok_bind]
        cases rowByP CPI.tableVar p with
        | error e => rfl
        | ok row =>
          simp only [ok_bind]
          rw [low_drop, splitCap_low (bitsLen_low 6), CPI.serialLoop_low, low_length]
          split
          · rw [low_take]; rfl
          · rfl

theorem ADI.zerosLen_low (s : Str) : ADI.zerosLen (low s) = ADI.zerosLen s :=
  fixedLen_low (fun p hp c => by rw [(List.mem_replicate.1 hp).2]; exact beq_lower (by decide) c) s

/-- No character class of the pattern separates a letter from its lower-case form. -/
def LowInv : Re → Prop
  | .none => True
  | .eps => True
  | .cls p => ∀ c, p (lowerChar c) = p c
  | .seq a b => LowInv a ∧ LowInv b
  | .alt a b => LowInv a ∧ LowInv b
  | .star a => LowInv a

theorem LowInv.seq' {a b : Re} (ha : LowInv a) (hb : LowInv b) : LowInv (Re.seq' a b) := by
  unfold Re.seq'
  split
  · trivial
  · exact hb
  · split
    · trivial
    · exact ⟨ha, hb⟩

theorem LowInv.alt' {a b : Re} (ha : LowInv a) (hb : LowInv b) : LowInv (Re.alt' a b) := by
  unfold Re.alt'
  split
  · exact hb
  · split
    · exact ha
    · exact ⟨ha, hb⟩

theorem LowInv.deriv {r : Re} (h : LowInv r) (c : Char) : LowInv (Re.deriv c r) ∧ Re.deriv (lowerChar c) r = Re.deriv c r := by
  induction r with
  | none => exact ⟨trivial, rfl⟩
  | eps => exact ⟨trivial, rfl⟩
  | cls p =>
    have e : p (lowerChar c) = p c := h c
    constructor
    · unfold Re.deriv; split <;> trivial
    · unfold Re.deriv; rw [e]
  | seq a b iha ihb =>
    obtain ⟨ha, ea⟩ := iha h.1
    obtain ⟨hb, eb⟩ := ihb h.2
    constructor
    · unfold Re.deriv
      split
      · exact (ha.seq' h.2).alt' hb
      · exact ha.seq' h.2
    · rw [Re.deriv, Re.deriv, ea, eb]
  | alt a b iha ihb =>
    obtain ⟨ha, ea⟩ := iha h.1
    obtain ⟨hb, eb⟩ := ihb h.2
    exact ⟨ha.alt' hb, by rw [Re.deriv, Re.deriv, ea, eb]⟩
  | star a iha =>
    obtain ⟨ha, ea⟩ := iha h
    exact ⟨LowInv.seq' ha h, by rw [Re.deriv, Re.deriv, ea]⟩

theorem matchPrefix_low {r : Re} (h : LowInv r) (s : Str) : r.matchPrefix (low s) = r.matchPrefix s := by
  induction s generalizing r with
  | nil => rfl
  | cons c s ih =>
    show r.matchPrefix (lowerChar c :: low s) = _
    obtain ⟨hd, e⟩ := h.deriv c
    rw [Re.matchPrefix, Re.matchPrefix, e]
    congr 1
    have ih' := ih hd
    split
    · rfl
    · exact ih'

theorem ADI.hasTerminator_low (s : Str) : ADI.hasTerminator (low s) = ADI.hasTerminator s := by
  apply matchPrefix_low
  have ha : ∀ c, anyChar (lowerChar c) = anyChar c := anyChar_lower
  have hz : ∀ c : Char, (fun x => x == '0') (lowerChar c) = (fun x => x == '0') c := fun c => beq_lower (by decide) c
  simp only [Re.seqs, Re.plus, Re.rep, Re.chr, LowInv]
  simp only [ha, beq_lower (d := '0') (by decide), implies_true, and_self]

theorem unpack2s_low (l : List Str) : unpack2s (l.map low) = (unpack2s l).map (fun p => (low p.1, low p.2.1, p.2.2.map low)) := by
  match l with
  | [] => rfl
  | [_] => rfl
  | _ :: _ :: _ => rfl

theorem SGTIN.fromBinary_low (b : Str) : SGTIN.fromBinary (low b) = SGTIN.fromBinary b := by
  unfold SGTIN.fromBinary
  rw [parseHeader_low (by decide)]
  apply bind_map_low
  intro cs b
  simp only [low_slice, low_drop, binaryToInt_low, decodePartitionTable_low, binIntStr_low, decodeString_low, decodeNumericString_low,
    decodeFixedWidthInteger_low, decodeCageCode_low]

theorem SSCC.fromBinary_low (b : Str) : SSCC.fromBinary (low b) = SSCC.fromBinary b := by
  unfold SSCC.fromBinary
  rw [parseHeader_low (by decide)]
  apply bind_map_low
  intro cs b
  simp only [low_slice, low_drop, binaryToInt_low, decodePartitionTable_low, binIntStr_low, decodeString_low, decodeNumericString_low,
    decodeFixedWidthInteger_low, decodeCageCode_low]

theorem SGLN.fromBinary_low (b : Str) : SGLN.fromBinary (low b) = SGLN.fromBinary b := by
  unfold SGLN.fromBinary
  rw [parseHeader_low (by decide)]
  apply bind_map_low
  intro cs b
  simp only [low_slice, low_drop, binaryToInt_low, decodePartitionTable_low, binIntStr_low, decodeString_low, decodeNumericString_low,
    decodeFixedWidthInteger_low, decodeCageCode_low]

theorem GRAI.fromBinary_low (b : Str) : GRAI.fromBinary (low b) = GRAI.fromBinary b := by
  unfold GRAI.fromBinary
  rw [parseHeader_low (by decide)]
  apply bind_map_low
  intro cs b
  simp only [low_slice, low_drop, binaryToInt_low, decodePartitionTable_low, binIntStr_low, decodeString_low, decodeNumericString_low,
    decodeFixedWidthInteger_low, decodeCageCode_low]

theorem GIAI.fromBinary_low (b : Str) : GIAI.fromBinary (low b) = GIAI.fromBinary b := by
  unfold GIAI.fromBinary
  rw [parseHeader_low (by decide)]
  apply bind_map_low
  intro cs b
  simp only [low_slice, low_drop, binaryToInt_low, decodePartitionTable_low, binIntStr_low, decodeString_low, decodeNumericString_low,
    decodeFixedWidthInteger_low, decodeCageCode_low]

theorem GID.fromBinary_low (b : Str) : GID.fromBinary (low b) = GID.fromBinary b := by
  unfold GID.fromBinary
  rw [parseHeader_low (by decide)]
  apply bind_map_low
  intro cs b
  simp only [low_slice, low_drop, binaryToInt_low, decodePartitionTable_low, binIntStr_low, decodeString_low, decodeNumericString_low,
    decodeFixedWidthInteger_low, decodeCageCode_low]

theorem GSRN.fromBinary_low (b : Str) : GSRN.fromBinary (low b) = GSRN.fromBinary b := by
  unfold GSRN.fromBinary
  rw [parseHeader_low (by decide)]
  apply bind_map_low
  intro cs b
  simp only [low_slice, low_drop, binaryToInt_low, decodePartitionTable_low, binIntStr_low, decodeString_low, decodeNumericString_low,
    decodeFixedWidthInteger_low, decodeCageCode_low]

theorem GSRNP.fromBinary_low (b : Str) : GSRNP.fromBinary (low b) = GSRNP.fromBinary b := by
  unfold GSRNP.fromBinary
  rw [parseHeader_low (by decide)]
  apply bind_map_low
  intro cs b
  simp only [low_slice, low_drop, binaryToInt_low, decodePartitionTable_low, binIntStr_low, decodeString_low, decodeNumericString_low,
    decodeFixedWidthInteger_low, decodeCageCode_low]

theorem GDTI.fromBinary_low (b : Str) : GDTI.fromBinary (low b) = GDTI.fromBinary b := by
  unfold GDTI.fromBinary
  rw [parseHeader_low (by decide)]
  apply bind_map_low
  intro cs b
  simp only [low_slice, low_drop, binaryToInt_low, decodePartitionTable_low, binIntStr_low, decodeString_low, decodeNumericString_low,
    decodeFixedWidthInteger_low, decodeCageCode_low]

theorem SGCN.fromBinary_low (b : Str) : SGCN.fromBinary (low b) = SGCN.fromBinary b := by
  unfold SGCN.fromBinary
  rw [parseHeader_low (by decide)]
  apply bind_map_low
  intro cs b
  simp only [low_slice, low_drop, binaryToInt_low, decodePartitionTable_low, binIntStr_low, decodeString_low, decodeNumericString_low,
    decodeFixedWidthInteger_low, decodeCageCode_low]

theorem USDOD.fromBinary_low (b : Str) : USDOD.fromBinary (low b) = USDOD.fromBinary b := by
  unfold USDOD.fromBinary
  rw [parseHeader_low (by decide)]
  apply bind_map_low
  intro cs b
  simp only [low_slice, low_drop, binaryToInt_low, decodePartitionTable_low, binIntStr_low, decodeString_low, decodeNumericString_low,
    decodeFixedWidthInteger_low, decodeCageCode_low]

theorem ITIP.fromBinary_low (b : Str) : ITIP.fromBinary (low b) = ITIP.fromBinary b := by
  unfold ITIP.fromBinary
  rw [parseHeader_low (by decide)]
  apply bind_map_low
  intro cs b
  simp only [low_slice, low_drop, binaryToInt_low, decodePartitionTable_low, binIntStr_low, decodeString_low, decodeNumericString_low,
    decodeFixedWidthInteger_low, decodeCageCode_low]

theorem CPI.fromBinary_low (b : Str) : CPI.fromBinary (low b) = CPI.fromBinary b := by
  unfold CPI.fromBinary
  rw [parseHeader_low (by decide)]
  apply bind_map_low
  intro cs b
  dsimp only
  rw [CPI.decodeParts_low, low_slice, binaryToInt_low]
  apply bind_map_low
  intro c s
  simp only [binIntStr_low]

theorem ADI.fromBinary_low (b : Str) : ADI.fromBinary (low b) = ADI.fromBinary b := by
  unfold ADI.fromBinary
  rw [parseHeader_low (by decide)]
  apply bind_map_low
  intro cs b
  dsimp only
  rw [low_drop, ADI.hasTerminator_low, splitCap_low ADI.zerosLen_low, unpack2s_low]
  congr 1; funext _
  cases unpack2s (splitCap ADI.zerosLen (b.drop 50)) with
  | error e => rfl
  | ok p =>
    obtain ⟨p1, p2, rest⟩ := p
    show (binaryToInt _ >>= _) = (binaryToInt _ >>= _)
    simp only [low_slice, low_flatten, low_sliceToI, binaryToInt_low, decodeCageCodeSixBits_low, decodeStringSixBits_low]

theorem Cls.fromBinary_low (c : Cls) (b : Str) : c.fromBinary (low b) = c.fromBinary b := by
  cases c <;> simp only [Cls.fromBinary, ADI.fromBinary_low, CPI.fromBinary_low, SGTIN.fromBinary_low, SSCC.fromBinary_low, SGLN.fromBinary_low, GRAI.fromBinary_low, GIAI.fromBinary_low, GID.fromBinary_low, GSRN.fromBinary_low, GSRNP.fromBinary_low, GDTI.fromBinary_low, SGCN.fromBinary_low, USDOD.fromBinary_low, ITIP.fromBinary_low]

end Epc
