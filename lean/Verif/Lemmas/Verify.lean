/-
`verify_gs3a3_component`: exactly which canonical serials it lets through.
-/
import Verif.Lemmas.SpecDigits
import Verif.Lemmas.Seven

namespace Epc
open Spec Re

/-! ### `mapM` -/

theorem mapM_ok_forall {α β : Type} {f : α → Except Err β} {l : List α} {r : List β} (h : l.mapM f = .ok r) :
    ∀ a ∈ l, ∃ b ∈ r, f a = .ok b := by
  induction l generalizing r with
  | nil => intro a ha; cases ha
  | cons x xs ih =>
    rw [List.mapM_cons, bind_ok_iff] at h
    obtain ⟨b, hb, h⟩ := h
    rw [bind_ok_iff] at h
    obtain ⟨bs, hbs, h⟩ := h
    rw [pure_ok, Except.ok.injEq] at h
    subst h
    intro a ha
    rcases List.mem_cons.1 ha with rfl | ha
    · exact ⟨b, by simp, hb⟩
    · obtain ⟨b', hb', h'⟩ := ih hbs a ha
      exact ⟨b', by simp [hb'], h'⟩

/-! ### The segments between two-digit escapes -/

/-- The characters whose escape consists of two decimal digits: `%22`, `%25`, `%26`. -/
def isDE (c : Char) : Bool := c == '"' || c == '%' || c == '&'
/-- The characters whose escape contains a letter: `%2F`, `%3C`, `%3E`, `%3F`. -/
def isLE (c : Char) : Bool := c == '/' || c == '<' || c == '>' || c == '?'

/-- Text before the first two-digit escape, then each two-digit escape with the text after it. -/
def segs : Str → Str × List (Char × Str)
  | [] => ([], [])
  | c :: r => if isDE c then ([], (c, (segs r).1) :: (segs r).2) else (c :: (segs r).1, (segs r).2)

theorem gs82_not_percentDigits {c : Char} (h : c ∈ gs82) (hd : isDE c = false) (t : Str) (h' : Str) (t' : List Str)
    (hs : splitCap percentDigitsLen t = h' :: t') :
    splitCap percentDigitsLen (escChar c ++ t) = (escChar c ++ h') :: t' := by
  have hp : ∀ (x : Char) (s : Str), x ≠ '%' → percentDigitsLen (x :: s) = Option.none := by
    intro x s hx
    simp [percentDigitsLen, fixedLen, fixedMatch, hx]
  rcases escChar_cases c with h1 | ⟨h1, h2⟩
  · have h3 : c = '/' ∨ c = '<' ∨ c = '>' ∨ c = '?' := by
      rcases h1 with rfl | rfl | rfl | h1
      · cases hd
      · cases hd
      · cases hd
      · exact h1
    rcases h3 with rfl | rfl | rfl | rfl
    · exact splitCap_none (xs := '2' :: 'F' :: t) (by simp [percentDigitsLen, fixedLen, fixedMatch]; decide)
        (splitCap_none (x := '2') (xs := 'F' :: t) (hp _ _ (by decide)) (splitCap_none (x := 'F') (hp _ _ (by decide)) hs))
    · exact splitCap_none (xs := '3' :: 'C' :: t) (by simp [percentDigitsLen, fixedLen, fixedMatch]; decide)
        (splitCap_none (x := '3') (xs := 'C' :: t) (hp _ _ (by decide)) (splitCap_none (x := 'C') (hp _ _ (by decide)) hs))
    · exact splitCap_none (xs := '3' :: 'E' :: t) (by simp [percentDigitsLen, fixedLen, fixedMatch]; decide)
        (splitCap_none (x := '3') (xs := 'E' :: t) (hp _ _ (by decide)) (splitCap_none (x := 'E') (hp _ _ (by decide)) hs))
    · exact splitCap_none (xs := '3' :: 'F' :: t) (by simp [percentDigitsLen, fixedLen, fixedMatch]; decide)
        (splitCap_none (x := '3') (xs := 'F' :: t) (hp _ _ (by decide)) (splitCap_none (x := 'F') (hp _ _ (by decide)) hs))
  · rw [h1]
    exact splitCap_none (hp _ _ h2) hs

theorem splitCap_escape {raw : Str} (h : ∀ c ∈ raw, c ∈ gs82) : splitCap percentDigitsLen (escape raw) =
    escape (segs raw).1 :: (segs raw).2.flatMap (fun p => [escChar p.1, escape p.2]) := by
  induction raw with
  | nil => rfl
  | cons c r ih =>
    have ih := ih (fun x hx => h x (by simp [hx]))
    rw [escape_cons]
    cases hd : isDE c with
    | false =>
      rw [gs82_not_percentDigits (h c (by simp)) hd _ _ _ ih]
      simp only [segs, hd, Bool.false_eq_true, if_false, escape_cons]
    | true =>
      simp only [segs, hd, if_true, List.flatMap_cons]
      have h3 : c = '"' ∨ c = '%' ∨ c = '&' := by simpa [isDE, or_assoc] using hd
      rcases h3 with rfl | rfl | rfl
      · exact (splitCap_three (by simp [percentDigitsLen, fixedLen, fixedMatch]; decide)).trans (by
          rw [show ([] : Str).append (escape r) = escape r from rfl, ih]; rfl)
      · exact (splitCap_three (by simp [percentDigitsLen, fixedLen, fixedMatch]; decide)).trans (by
          rw [show ([] : Str).append (escape r) = escape r from rfl, ih]; rfl)
      · exact (splitCap_three (by simp [percentDigitsLen, fixedLen, fixedMatch]; decide)).trans (by
          rw [show ([] : Str).append (escape r) = escape r from rfl, ih]; rfl)

/-! ### One segment -/

/-- A segment the code can cope with: it does not start with a letter escape, or is just that escape. -/
def SegOk (s : Str) : Prop := ∀ c t, s = c :: t → isLE c = true → t = []

theorem digitsGo_ge {b acc n : Nat} {s : Str} (h : digitsGo b acc s = some n) (hb : 1 ≤ b) : acc ≤ n ∧ (s ≠ [] → acc * b ≤ n) := by
  have h2 : ∀ acc : Nat, acc ≤ acc * b := fun acc => Nat.le_mul_of_pos_right _ hb
  fun_induction digitsGo b acc s with
  | case1 acc => injection h with h; subst h; exact ⟨Nat.le_refl _, fun h => absurd rfl h⟩
  | case2 acc c cs d hd ih =>
    have h1 := (ih h).1
    have := h2 acc
    exact ⟨by omega, fun _ => by omega⟩
  | case3 => cases h
  | case4 acc c' cs' d hd' _ ih =>
    have h1 := (ih h).1
    have := h2 acc
    exact ⟨by omega, fun _ => by omega⟩
  | case5 => cases h
  | case6 => cases h

theorem noSpace_strip {s : Str} (h : ∀ c ∈ s, isCSpace c = false) :
    dropRightWhile isCSpace (s.dropWhile isCSpace) = s := by
  have h1 : ∀ l : Str, (∀ c ∈ l, isCSpace c = false) → l.dropWhile isCSpace = l := by
    intro l hl
    cases l with
    | nil => rfl
    | cons a t => rw [List.dropWhile_cons, hl a (by simp)]; rfl
  rw [h1 s h, dropRightWhile, h1 _ (by simpa using h), List.reverse_reverse]

/-- `int("2F…", 16)` with at least one more character is an error or large. -/
theorem pyInt16_ge {x y z : Char} {r : Str} {i : Int} (hx : x = '2' ∨ x = '3') (hy : y = 'F' ∨ y = 'C' ∨ y = 'E')
    (hr : ∀ c ∈ z :: r, c.toNat < 127 ∧ isCSpace c = false) (h : pyInt 16 (x :: y :: z :: r) = .ok i) : 512 ≤ i := by
  have hall : ∀ c ∈ x :: y :: z :: r, c.toNat < 127 ∧ isCSpace c = false := by
    intro c hc
    rcases List.mem_cons.1 hc with rfl | hc
    · rcases hx with rfl | rfl <;> decide
    · rcases List.mem_cons.1 hc with rfl | hc
      · rcases hy with rfl | rfl | rfl <;> decide
      · exact hr c hc
  unfold pyInt at h
  rw [map_intNormChar_of_lt (fun c hc => (hall c hc).1), noSpace_strip (fun c hc => (hall c hc).2)] at h
  have key : ∀ n, digitsVal 16 (x :: y :: z :: r) = some n → 512 ≤ n := by
    intro n hn
    have : ∃ a, 32 ≤ a ∧ digitsVal 16 (x :: y :: z :: r) = digitsGo 16 a (z :: r) := by
      rcases hx with rfl | rfl
      · rcases hy with rfl | rfl | rfl
        · exact ⟨47, by decide, rfl⟩
        · exact ⟨44, by decide, rfl⟩
        · exact ⟨46, by decide, rfl⟩
      · rcases hy with rfl | rfl | rfl
        · exact ⟨63, by decide, rfl⟩
        · exact ⟨60, by decide, rfl⟩
        · exact ⟨62, by decide, rfl⟩
    obtain ⟨a, ha, he⟩ := this
    rw [he] at hn
    have := (digitsGo_ge hn (by decide)).2 (by simp)
    omega
  have hp : dropBasePrefix 16 (x :: y :: z :: r) = x :: y :: z :: r := by
    rcases hx with rfl | rfl <;> rfl
  have h' : (match digitsVal 16 (dropBasePrefix 16 (x :: y :: z :: r)) with
      | some n => Except.ok (n : Int)
      | Option.none => Except.error Err.value) = Except.ok i := by
    rcases hx with rfl | rfl <;> exact h
  rw [hp] at h'
  cases hd : digitsVal 16 (x :: y :: z :: r) with
  | none => rw [hd] at h'; cases h'
  | some n =>
    rw [hd] at h'
    have := key n hd
    injection h' with h'
    omega

theorem chr_ge {i : Int} {c : Char} (hi : 512 ≤ i) (h : chr i = .ok c) : 128 ≤ c.toNat := by
  unfold chr at h
  split at h
  · cases h
  · split at h
    · cases h
    · split at h
      · rename_i hv
        injection h with h
        subst h
        show 128 ≤ (Char.ofNatAux i.toNat hv).toNat
        have : (Char.ofNatAux i.toNat hv).toNat = i.toNat := by
          unfold Char.ofNatAux Char.toNat
          simp
        omega
      · injection h with h
        subst h; decide

theorem gs82_noSpace {c : Char} (h : c ∈ gs82) : c.toNat < 127 ∧ isCSpace c = false ∧ isGs3a3Any c = true := by
  have := (mem_gs82 c).1 h
  have hl := isGs3a3Any_lt this
  have key : isGs3a3Any c = true → c.toNat < 127 ∧ isCSpace c = false :=
    ascii_forall (P := fun c => isGs3a3Any c = true → c.toNat < 127 ∧ isCSpace c = false) (by decide +kernel) c hl
  exact ⟨(key this).1, (key this).2, this⟩

theorem escape_mem82 {raw : Str} (h : ∀ c ∈ raw, c ∈ gs82) : ∀ c ∈ escape raw, c ∈ gs82 := by
  intro c hc
  obtain ⟨x, hx, hc'⟩ := List.mem_flatMap.1 hc
  clear hc
  rcases escChar_cases x with h1 | ⟨h1, -⟩
  · rcases h1 with rfl | rfl | rfl | rfl | rfl | rfl | rfl <;> revert c <;> decide
  · rw [h1] at hc'; simp at hc'; subst hc'; exact h _ hx

/-- A segment the code copes with is replaced by text over the GS1 character set. -/
theorem verifyPiece_ok {s : Str} (h : ∀ c ∈ s, c ∈ gs82) (hd : ∀ c ∈ s, isDE c = false) (hs : SegOk s) :
    ∃ r, verifyPiece (escape s) = .ok r ∧ (∀ c ∈ r, isGs3a3Any c = true) ∧ (s ≠ [] → r ≠ []) := by
  cases s with
  | nil => exact ⟨[], rfl, by simp, by simp⟩
  | cons c t =>
    by_cases hl : isLE c = true
    · have := hs c t rfl hl
      subst this
      have h3 : c = '/' ∨ c = '<' ∨ c = '>' ∨ c = '?' := by simpa [isLE, or_assoc] using hl
      rcases h3 with rfl | rfl | rfl | rfl <;> exact ⟨_, rfl, by decide, by decide⟩
    · refine ⟨escape (c :: t), ?_, fun x hx => (gs82_noSpace (escape_mem82 h x hx)).2.2, fun _ => escape_ne_nil (by simp)⟩
      have hd := hd c (by simp)
      have : escChar c = [c] ∧ c ≠ '%' := by
        rcases escChar_cases c with h1 | h1
        · exfalso
          rcases h1 with rfl | rfl | rfl | rfl | rfl | rfl | rfl
          all_goals first | (revert hd; decide) | (apply hl; decide)
        · exact h1
      rw [escape_cons, this.1]
      simp [verifyPiece, this.2]

/-- A segment the code cannot cope with: an exception, or a character outside ASCII. -/
theorem verifyPiece_bad {s r : Str} (h : ∀ c ∈ s, c ∈ gs82) (hs : ¬ SegOk s) (hr : verifyPiece (escape s) = .ok r) :
    ∃ c ∈ r, 128 ≤ c.toNat := by
  have : ∃ c t, s = c :: t ∧ isLE c = true ∧ t ≠ [] := by
    apply Classical.byContradiction
    intro hn
    apply hs
    intro c t e hl
    apply Classical.byContradiction
    intro ht
    exact hn ⟨c, t, e, hl, ht⟩
  obtain ⟨c, t, rfl, hl, ht⟩ := this
  have h3 : c = '/' ∨ c = '<' ∨ c = '>' ∨ c = '?' := by simpa [isLE, or_assoc] using hl
  have hxy : ∃ x y, escChar c = ['%', x, y] ∧ (x = '2' ∨ x = '3') ∧ (y = 'F' ∨ y = 'C' ∨ y = 'E') := by
    rcases h3 with rfl | rfl | rfl | rfl
    · exact ⟨'2', 'F', rfl, by simp, by simp⟩
    · exact ⟨'3', 'C', rfl, by simp, by simp⟩
    · exact ⟨'3', 'E', rfl, by simp, by simp⟩
    · exact ⟨'3', 'F', rfl, by simp, by simp⟩
  obtain ⟨x, y, he, hx, hy⟩ := hxy
  rw [escape_cons, he] at hr
  have ht' := escape_ne_nil ht
  have hm := escape_mem82 (fun c hc => h c (List.mem_cons_of_mem _ hc))
  cases hz : escape t with
  | nil => exact absurd hz ht'
  | cons z r' =>
    rw [hz] at hr hm
    have hv : verifyPiece (['%', x, y] ++ z :: r') = (do
      let i ← pyInt 16 (x :: y :: z :: r')
      let c ← chr i
      return [c]) := by rfl
    rw [hv, bind_ok_iff] at hr
    obtain ⟨i, hi, hr⟩ := hr
    rw [bind_ok_iff] at hr
    obtain ⟨k, hk, hr⟩ := hr
    rw [pure_ok, Except.ok.injEq] at hr
    subst hr
    have h512 := pyInt16_ge hx hy (fun c hc => ⟨(gs82_noSpace (hm c hc)).1, (gs82_noSpace (hm c hc)).2.1⟩) hi
    exact ⟨k, by simp, chr_ge h512 hk⟩

/-! ### The whole component -/

theorem segs_mem {raw : Str} : (∀ c ∈ (segs raw).1, c ∈ raw ∧ isDE c = false) ∧
    ∀ p ∈ (segs raw).2, p.1 ∈ raw ∧ isDE p.1 = true ∧ ∀ c ∈ p.2, c ∈ raw ∧ isDE c = false := by
  induction raw with
  | nil => simp [segs]
  | cons c r ih =>
    cases hd : isDE c with
    | true =>
      simp only [segs, hd, if_true]
      refine ⟨by simp, ?_⟩
      intro p hp
      rcases List.mem_cons.1 hp with rfl | hp
      · exact ⟨by simp, hd, fun x hx => ⟨List.mem_cons_of_mem _ (ih.1 x hx).1, (ih.1 x hx).2⟩⟩
      · have := ih.2 p hp
        exact ⟨List.mem_cons_of_mem _ this.1, this.2.1, fun x hx => ⟨List.mem_cons_of_mem _ (this.2.2 x hx).1, (this.2.2 x hx).2⟩⟩
    | false =>
      simp only [segs, hd, Bool.false_eq_true, if_false]
      refine ⟨?_, ?_⟩
      · intro x hx
        rcases List.mem_cons.1 hx with rfl | hx
        · exact ⟨by simp, hd⟩
        · exact ⟨List.mem_cons_of_mem _ (ih.1 x hx).1, (ih.1 x hx).2⟩
      · intro p hp
        have := ih.2 p hp
        exact ⟨List.mem_cons_of_mem _ this.1, this.2.1, fun x hx => ⟨List.mem_cons_of_mem _ (this.2.2 x hx).1, (this.2.2 x hx).2⟩⟩

theorem verifyPiece_DE {c : Char} (h : isDE c = true) :
    ∃ r, verifyPiece (escChar c) = .ok r ∧ (∀ c ∈ r, isGs3a3Any c = true) ∧ r ≠ [] := by
  have h3 : c = '"' ∨ c = '%' ∨ c = '&' := by simpa [isDE, or_assoc] using h
  rcases h3 with rfl | rfl | rfl <;> exact ⟨_, rfl, by decide, by decide⟩

theorem verifySegs_ok {l : List (Char × Str)} (h : ∀ p ∈ l, isDE p.1 = true ∧ (∀ c ∈ p.2, c ∈ gs82 ∧ isDE c = false) ∧ SegOk p.2) :
    ∃ ps, (l.flatMap (fun p => [escChar p.1, escape p.2])).mapM verifyPiece = .ok ps ∧
      (∀ c ∈ ps.flatten, isGs3a3Any c = true) ∧ (l ≠ [] → ps.flatten ≠ []) := by
  induction l with
  | nil => exact ⟨[], rfl, by simp, by simp⟩
  | cons p l ih =>
    obtain ⟨ps, h1, h2, -⟩ := ih (fun q hq => h q (List.mem_cons_of_mem _ hq))
    obtain ⟨hp1, hp2, hp3⟩ := h p (by simp)
    obtain ⟨r1, a1, b1, c1⟩ := verifyPiece_DE hp1
    obtain ⟨r2, a2, b2, -⟩ := verifyPiece_ok (fun c hc => (hp2 c hc).1) (fun c hc => (hp2 c hc).2) hp3
    refine ⟨r1 :: r2 :: ps, ?_, ?_, ?_⟩
    · exact mapM_cons_ok a1 (mapM_cons_ok a2 h1)
    · intro c hc
      simp only [List.flatten_cons, List.mem_append] at hc
      rcases hc with hc | hc | hc
      · exact b1 c hc
      · exact b2 c hc
      · exact h2 c hc
    · intro _
      simp [c1]

/-- All segments between two-digit escapes are harmless. -/
def SegsOk (raw : Str) : Prop := SegOk (segs raw).1 ∧ ∀ p ∈ (segs raw).2, SegOk p.2

theorem segs_nil {raw : Str} (h1 : (segs raw).1 = []) (h2 : (segs raw).2 = []) : raw = [] := by
  cases raw with
  | nil => rfl
  | cons c r =>
    cases hd : isDE c with
    | true => simp [segs, hd] at h2
    | false => simp [segs, hd] at h1

theorem verify_ok {raw : Str} (h : ∀ c ∈ raw, c ∈ gs82) (hne : raw ≠ []) (hs : SegsOk raw) : verifyGs3a3 (escape raw) = .ok () := by
  have hm := @segs_mem raw
  obtain ⟨r, a1, a2, a3⟩ := verifyPiece_ok (fun c hc => h c (hm.1 c hc).1) (fun c hc => (hm.1 c hc).2) hs.1
  obtain ⟨ps, b1, b2, b3⟩ := verifySegs_ok (l := (segs raw).2)
    (fun p hp => ⟨(hm.2 p hp).2.1, fun c hc => ⟨h c ((hm.2 p hp).2.2 c hc).1, ((hm.2 p hp).2.2 c hc).2⟩, hs.2 p hp⟩)
  unfold verifyGs3a3
  rw [splitCap_escape h, mapM_cons_ok a1 b1, ok_bind]
  have : verifyGs3a3Re.fullmatch (r :: ps).flatten = true := by
    rw [fullmatch_iff]
    unfold verifyGs3a3Re
    rw [lang_cls_plus]
    refine ⟨?_, ?_⟩
    · intro he
      simp only [List.flatten_cons, List.append_eq_nil_iff] at he
      apply hne
      apply segs_nil
      · apply Classical.byContradiction; intro hx; exact a3 hx he.1
      · apply Classical.byContradiction; intro hx; exact b3 hx he.2
    · intro c hc
      simp only [List.flatten_cons, List.mem_append] at hc
      rcases hc with hc | hc
      · exact a2 c hc
      · exact b2 c hc
  rw [this]; rfl

theorem verify_segs {raw : Str} (h : ∀ c ∈ raw, c ∈ gs82) (hv : verifyGs3a3 (escape raw) = .ok ()) : SegsOk raw := by
  have hm := @segs_mem raw
  unfold verifyGs3a3 at hv
  rw [splitCap_escape h, bind_ok_iff] at hv
  obtain ⟨ps, hps, hv⟩ := hv
  have hf : verifyGs3a3Re.fullmatch ps.flatten = true := by
    cases hf : verifyGs3a3Re.fullmatch ps.flatten with
    | true => rfl
    | false => rw [hf] at hv; cases hv
  rw [fullmatch_iff] at hf
  unfold verifyGs3a3Re at hf
  rw [lang_cls_plus] at hf
  have key : ∀ s, escape s ∈ (escape (segs raw).1 :: (segs raw).2.flatMap (fun p => [escChar p.1, escape p.2])) →
      (∀ c ∈ s, c ∈ gs82) → SegOk s := by
    intro s hs hg
    apply Classical.byContradiction
    intro hn
    obtain ⟨r, hr, he⟩ := mapM_ok_forall hps _ hs
    obtain ⟨c, hc, hc'⟩ := verifyPiece_bad hg hn he
    have := isGs3a3Any_lt (hf.2 c (List.mem_flatten.2 ⟨r, hr, hc⟩))
    omega
  refine ⟨key _ (by simp) (fun c hc => h c (hm.1 c hc).1), ?_⟩
  intro p hp
  refine key _ ?_ (fun c hc => h c ((hm.2 p hp).2.2 c hc).1)
  simp only [List.mem_cons, List.mem_flatMap]
  exact .inr ⟨p, hp, by simp⟩

/-! ### The condition on the text -/

theorem isDE_iff (c : Char) : isDE c = true ↔ c ∈ py "\"%&" := by simp [isDE, or_assoc]
theorem isLE_iff (c : Char) : isLE c = true ↔ c ∈ py "/<>?" := by simp [isLE, or_assoc]

theorem mem_segs {raw : Str} {p : Char × Str} :
    p ∈ (segs raw).2 ↔ ∃ a r, raw = a ++ p.1 :: r ∧ isDE p.1 = true ∧ p.2 = (segs r).1 := by
  induction raw with
  | nil => simp [segs]
  | cons c t ih =>
    cases hd : isDE c with
    | true =>
      simp only [segs, hd, if_true, List.mem_cons, ih]
      constructor
      · rintro (rfl | ⟨a, r, rfl, h1, h2⟩)
        · exact ⟨[], t, rfl, hd, rfl⟩
        · exact ⟨c :: a, r, rfl, h1, h2⟩
      · rintro ⟨a, r, h, h1, h2⟩
        cases a with
        | nil =>
          simp only [List.nil_append, List.cons.injEq] at h
          obtain ⟨rfl, rfl⟩ := h
          exact .inl (by rw [← h2])
        | cons x a =>
          simp only [List.cons_append, List.cons.injEq] at h
          exact .inr ⟨a, r, h.2, h1, h2⟩
    | false =>
      simp only [segs, hd, Bool.false_eq_true, if_false, ih]
      constructor
      · rintro ⟨a, r, rfl, h1, h2⟩
        exact ⟨c :: a, r, rfl, h1, h2⟩
      · rintro ⟨a, r, h, h1, h2⟩
        cases a with
        | nil =>
          simp only [List.nil_append, List.cons.injEq] at h
          obtain ⟨rfl, rfl⟩ := h
          rw [hd] at h1; cases h1
        | cons x a =>
          simp only [List.cons_append, List.cons.injEq] at h
          exact ⟨a, r, h.2, h1, h2⟩

theorem segs_fst_nil {raw : Str} : (segs raw).1 = [] ↔ raw = [] ∨ ∃ d t, raw = d :: t ∧ isDE d = true := by
  cases raw with
  | nil => simp [segs]
  | cons c t =>
    cases hd : isDE c with
    | true => simp [segs, hd]
    | false => simp [segs, hd]

theorem isDE_of_isLE {c : Char} (h : isLE c = true) : isDE c = false := by
  have h3 : c = '/' ∨ c = '<' ∨ c = '>' ∨ c = '?' := by simpa [isLE, or_assoc] using h
  rcases h3 with rfl | rfl | rfl | rfl <;> rfl

theorem segOk_segs {raw : Str} : SegOk (segs raw).1 ↔ ∀ c b, raw = c :: b → isLE c = true →
    (b = [] ∨ ∃ d b', b = d :: b' ∧ isDE d = true) := by
  constructor
  · rintro h c b rfl hl
    have hd := isDE_of_isLE hl
    have e : (segs (c :: b)).1 = c :: (segs b).1 := by simp [segs, hd]
    rw [e] at h
    exact segs_fst_nil.1 (h c _ rfl hl)
  · intro h c t e hl
    cases raw with
    | nil => simp [segs] at e
    | cons x r =>
      cases hd : isDE x with
      | true => simp [segs, hd] at e
      | false =>
        simp only [segs, hd, Bool.false_eq_true, if_false, List.cons.injEq] at e
        obtain ⟨rfl, rfl⟩ := e
        exact segs_fst_nil.2 (h x r rfl hl)

theorem segsOk_iff (raw : Str) : SegsOk raw ↔ LoneLetterEscapes raw := by
  unfold SegsOk LoneLetterEscapes
  simp only [← isDE_iff, ← isLE_iff]
  constructor
  · rintro ⟨h1, h2⟩ a c b rfl hl ha
    rcases ha with rfl | ⟨a', d, rfl, hd⟩
    · exact segOk_segs.1 h1 c b rfl hl
    · have := h2 (d, (segs (c :: b)).1) (mem_segs.2 ⟨a', c :: b, by simp, hd, rfl⟩)
      exact segOk_segs.1 this c b rfl hl
  · intro h
    refine ⟨segOk_segs.2 (fun c b e hl => h [] c b e hl (.inl rfl)), ?_⟩
    intro p hp
    obtain ⟨a, r, e, hd, e2⟩ := mem_segs.1 hp
    rw [e2]
    refine segOk_segs.2 (fun c b e' hl => h (a ++ [p.1]) c b ?_ hl (.inr ⟨a, p.1, rfl, hd⟩))
    rw [e, e']; simp

/-- Exactly which canonical serials `verify_gs3a3_component` accepts. -/
theorem verify_escape_iff {raw : Str} (h : ∀ c ∈ raw, c ∈ gs82) (hne : raw ≠ []) :
    verifyGs3a3 (escape raw) = .ok () ↔ LoneLetterEscapes raw := by
  rw [← segsOk_iff]
  exact ⟨verify_segs h, verify_ok h hne⟩

theorem loneLetter_of_none {raw : Str} (h : ∀ c ∈ raw, c ∉ py "/<>?") : LoneLetterEscapes raw := by
  intro a c b e hc
  exact absurd hc (h c (by rw [e]; simp))

theorem verify_digits {s : Str} (h : Digits s) (hne : s ≠ []) : verifyGs3a3 s = .ok () := by
  have := (verify_escape_iff (gs82_of_digits h) hne).2 (loneLetter_of_none (fun c hc hc' => by
    have := h c hc
    clear hc
    revert c; decide))
  rwa [escape_digits h] at this

/-! ### Exceptions -/

theorem splitCap_noPercent {s : Str} (h : '%' ∉ s) : splitCap percentDigitsLen s = [s] := by
  induction s with
  | nil => rfl
  | cons c t ih =>
    simp only [List.mem_cons, not_or] at h
    exact splitCap_none (by simp [percentDigitsLen, fixedLen, fixedMatch, Ne.symm h.1]) (ih h.2)

/-- Without a percent sign the only exception is `ConvertException`. -/
theorem verify_noPercent {s : Str} {e : Err} (h : '%' ∉ s) (he : verifyGs3a3 s = .error e) : e = .convert := by
  unfold verifyGs3a3 at he
  rw [splitCap_noPercent h] at he
  have hp : verifyPiece s = .ok s := by
    cases s with
    | nil => rfl
    | cons c t =>
      simp only [List.mem_cons, not_or] at h
      simp [verifyPiece, Ne.symm h.1]
  rw [mapM_cons_ok hp (show [].mapM verifyPiece = .ok [] from rfl), ok_bind] at he
  split at he
  · cases he
  · injection he with he; exact he.symm

theorem pyInt_error {b : Nat} {s : Str} {e : Err} (h : pyInt b s = .error e) : e = .value := by
  unfold pyInt at h
  simp only [] at h
  split at h <;> split at h <;> first | cases h; done | (injection h with h; exact h.symm)

theorem chr_error {i : Int} {e : Err} (h : chr i = .error e) : e = .value ∨ e = .overflow := by
  unfold chr at h
  split at h
  · injection h with h; exact .inr h.symm
  · split at h
    · injection h with h; exact .inl h.symm
    · split at h <;> cases h

theorem mapM_error {α β : Type} {f : α → Except Err β} {l : List α} {e : Err} (h : l.mapM f = .error e) : ∃ a ∈ l, f a = .error e := by
  induction l with
  | nil => cases h
  | cons x xs ih =>
    rw [List.mapM_cons, bind_error_iff] at h
    rcases h with h | ⟨b, hb, h⟩
    · exact ⟨x, by simp, h⟩
    · rw [bind_error_iff] at h
      rcases h with h | ⟨bs, hbs, h⟩
      · obtain ⟨a, ha, h⟩ := ih h
        exact ⟨a, by simp [ha], h⟩
      · cases h

/-- The exceptions of `verify_gs3a3_component`. -/
theorem verify_error {s : Str} {e : Err} (h : verifyGs3a3 s = .error e) : e = .convert ∨ e = .value ∨ e = .overflow := by
  unfold verifyGs3a3 at h
  rw [bind_error_iff] at h
  rcases h with h | ⟨ps, hps, h⟩
  · obtain ⟨g, hg, h⟩ := mapM_error h
    right
    cases g with
    | nil => cases h
    | cons c t =>
      by_cases hc : c = '%'
      · subst hc
        have hv : verifyPiece ('%' :: t) = (do
          let i ← pyInt 16 t
          let c ← chr i
          return [c]) := by rfl
        rw [hv, bind_error_iff] at h
        rcases h with h | ⟨i, hi, h⟩
        · exact .inl (pyInt_error h)
        · rw [bind_error_iff] at h
          rcases h with h | ⟨k, hk, h⟩
          · exact chr_error h
          · cases h
      · simp [verifyPiece, hc] at h
  · split at h
    · cases h
    · injection h with h; exact .inl h.symm

end Epc
