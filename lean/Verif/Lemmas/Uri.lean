/-
Splitting of URIs, and check digits of decimal strings of any script.
-/
import Verif.Lemmas.Monad
import Verif.Lemmas.RegexLang
import Verif.Lemmas.Str
import Verif.Lemmas.Numeric

namespace Epc
open Spec Re

theorem uriBody_eq {q t : Str} (h : (split ':' q).length = 4) : uriBody (q ++ ':' :: t) = t := by
  unfold uriBody
  rw [split_append_gen, ← h, List.drop_left, joinWith_split]

theorem headD_split_append (c : Char) (s : Str) : ∃ t, s = (split c s).headD [] ++ t ∧ (t = [] ∨ ∃ t', t = c :: t') := by
  induction s with
  | nil => exact ⟨[], rfl, .inl rfl⟩
  | cons x xs ih =>
    by_cases h : x = c
    · subst h; rw [split_cons_sep]; exact ⟨x :: xs, rfl, .inr ⟨xs, rfl⟩⟩
    · rw [split_cons_ne h]
      obtain ⟨t, ht, h'⟩ := ih
      exact ⟨t, by simp only [List.headD_cons, List.cons_append]; rw [← ht], h'⟩

theorem headD_split_mem {c x : Char} {s : Str} (h : x ∈ (split c s).headD []) : x ∈ s := by
  obtain ⟨t, ht, -⟩ := headD_split_append c s
  rw [ht]; exact List.mem_append_left _ h

theorem headD_split (c : Char) (s : Str) : (split c s)[0]? = some ((split c s).headD []) := by
  have := split_ne_nil c s
  cases h : split c s with
  | nil => exact absurd h this
  | cons a t => rfl

theorem getPart4 {q t : Str} (h : (split ':' q).length = 4) :
    getPart (split ':' (q ++ ':' :: t)) 4 = .ok ((split ':' t).headD []) := by
  apply getPart_ok
  rw [split_append_gen, List.getElem?_append_right (by omega), h]
  exact headD_split ':' t

theorem getPart4_noColon {q t : Str} (h : (split ':' q).length = 4) (ht : ':' ∉ t) :
    getPart (split ':' (q ++ ':' :: t)) 4 = .ok t := by
  rw [getPart4 h, split_notMem ht]; rfl

theorem last_split {q t : Str} (ht : ':' ∉ t) : (split ':' (q ++ ':' :: t)).getLastD [] = t := by
  rw [split_append_gen, split_notMem ht]; simp

theorem split2 {a b : Str} (ha : '.' ∉ a) (hb : '.' ∉ b) : split '.' (a ++ '.' :: b) = [a, b] := by
  rw [split_append_sep ha, split_notMem hb]

theorem split3 {a b c : Str} (ha : '.' ∉ a) (hb : '.' ∉ b) (hc : '.' ∉ c) :
    split '.' (a ++ '.' :: (b ++ '.' :: c)) = [a, b, c] := by
  rw [split_append_sep ha, split2 hb hc]

/-- The part before the first colon of a dotted body whose last component may contain colons. -/
theorem head_colon1 {a s : Str} (ha : ':' ∉ a) :
    (split ':' (a ++ '.' :: s)).headD [] = a ++ '.' :: (split ':' s).headD [] := by
  have h : ':' ∉ a ++ ['.'] := by simp [ha]
  have : a ++ '.' :: s = (a ++ ['.']) ++ s := by simp
  rw [this, split_append_of_notMem h]; simp

theorem head_colon2 {a b s : Str} (ha : ':' ∉ a) (hb : ':' ∉ b) :
    (split ':' (a ++ '.' :: (b ++ '.' :: s))).headD [] = a ++ '.' :: (b ++ '.' :: (split ':' s).headD []) := by
  rw [head_colon1 ha, head_colon1 hb]

theorem unpack2_take {a b s : Str} (ha : '.' ∉ a) (hb : '.' ∉ b) :
    unpack2 ((split '.' (a ++ '.' :: (b ++ '.' :: s))).take 2) = .ok (a, b) := by
  rw [split_append_sep ha, split_append_sep hb]; rfl

theorem serial_of_body2 {a b s : Str} (ha : '.' ∉ a) (hb : '.' ∉ b) :
    joinWith '.' ((split '.' (a ++ '.' :: (b ++ '.' :: s))).drop 2) = s := by
  rw [split_append_sep ha, split_append_sep hb]
  exact joinWith_split '.' s

theorem noDot_noColon {a b : Str} (ha : Dec a) (hb : Dec b) : ':' ∉ a ++ '.' :: b := by
  simp [ha.no_colon, hb.no_colon]

theorem noColon3 {a b c : Str} (ha : ':' ∉ a) (hb : ':' ∉ b) (hc : ':' ∉ c) : ':' ∉ a ++ '.' :: (b ++ '.' :: c) := by
  simp [ha, hb, hc]

/-! ### Check digits -/

/-- Digit values of a decimal string of any script. -/
def decDigits (s : Str) : List Nat := s.map (fun c => (decimalVal c).getD 0)

/-- The check digit of a decimal string of any script. -/
def uCheck (s : Str) : Nat := (10 - wsum (decDigits s) % 10) % 10

theorem mapM_digitInt_dec {s : Str} (h : Dec s) : s.mapM digitInt = .ok (decDigits s) := by
  apply mapM_map_ok
  intro c hc
  have := h c hc
  unfold isDecimal at this
  unfold digitInt
  cases hv : decimalVal c with
  | none => rw [hv] at this; cases this
  | some d => rfl

theorem length_decDigits (s : Str) : (decDigits s).length = s.length := by simp [decDigits]

theorem checksum_dec {s : Str} (h : Dec s) : calculateChecksum s = .ok (uCheck s) := by
  unfold calculateChecksum
  rw [mapM_digitInt_dec h, ok_bind]
  have hw := wsum_eq (decDigits s)
  rw [length_decDigits] at hw
  unfold uCheck
  rw [hw]
  by_cases hl : s.length % 2 = 0
  · simp only [hl, if_true]; rfl
  · simp only [hl, if_false]; rfl

theorem decDigits_of_digits {s : Str} (h : Digits s) : decDigits s = digitValues s := by
  unfold decDigits digitValues
  apply List.map_congr_left
  intro c hc
  rw [decimalVal_of_isDigitA ((mem_digits c).1 (h c hc))]; rfl

theorem uCheck_of_digits {s : Str} (h : Digits s) : uCheck s = checkDigit s := by
  have h1 := checksum_dec (dec_of_digits h)
  rw [checksum_eq' h] at h1
  injection h1 with h1
  exact h1.symm

theorem uCheck_lt (s : Str) : uCheck s < 10 := Nat.mod_lt _ (by decide)

theorem length_natStr_uCheck (s : Str) : (natStr (uCheck s)).length = 1 := by
  rw [natStr_digit (uCheck_lt s)]; rfl

/-- Digits of any script do not begin with a sign, so `zfill` pads on the left. -/
theorem zfill_dec {s : Str} (h : Dec s) (w : Nat) : zfill w s = padLeft '0' w s := by
  cases s with
  | nil => rfl
  | cons c t =>
    have hc := (Dec.cons.1 h).1
    have h1 : c ≠ '+' := isDecimal_ne hc (by decide) (by decide)
    have h2 : c ≠ '-' := isDecimal_ne hc (by decide) (by decide)
    unfold zfill
    split
    · next e => injection e with e _; exact absurd e h1
    · next e => injection e with e _; exact absurd e h2
    · rfl

theorem dec_natStr (n : Nat) : Dec (natStr n) := dec_of_digits (Digits_natStr n)

theorem ascii_append {a b : Str} : Ascii (a ++ b) ↔ Ascii a ∧ Ascii b := by
  simp only [Ascii, List.mem_append]
  exact ⟨fun h => ⟨fun c hc => h c (.inl hc), fun c hc => h c (.inr hc)⟩, fun h c hc => hc.elim (h.1 c) (h.2 c)⟩

theorem ascii_cons {a : Char} {b : Str} : Ascii (a :: b) ↔ a.toNat < 128 ∧ Ascii b := by simp [Ascii]

theorem digits_of_dec_ascii {s : Str} (h : Dec s) (ha : Ascii s) : Digits s := isDigitA_of_decimal_ascii ha h

theorem ascii_of_digits {s : Str} (h : Digits s) : Ascii s := by
  intro c hc
  exact isDigitA_lt ((mem_digits c).1 (h c hc))

theorem uri3_inj {q a b c a' b' c' : Str} (ha : '.' ∉ a) (hb : '.' ∉ b) (ha' : '.' ∉ a') (hb' : '.' ∉ b')
    (h : q ++ ':' :: (a ++ '.' :: (b ++ '.' :: c)) = q ++ ':' :: (a' ++ '.' :: (b' ++ '.' :: c'))) : a = a' ∧ b = b' ∧ c = c' := by
  have e := List.append_cancel_left h
  injection e with _ e
  have e1 := append_sep_inj ha ha' e
  have e2 := append_sep_inj hb hb' e1.2
  exact ⟨e1.1, e2⟩

theorem uri2_inj {q a b a' b' : Str} (ha : '.' ∉ a) (ha' : '.' ∉ a')
    (h : q ++ ':' :: (a ++ '.' :: b) = q ++ ':' :: (a' ++ '.' :: b')) : a = a' ∧ b = b' := by
  have e := List.append_cancel_left h
  injection e with _ e
  exact append_sep_inj ha ha' e

theorem escape_no_colon {raw : Str} (h : ':' ∉ raw) : ':' ∉ escape raw := by
  intro hc
  obtain ⟨x, hx, hc⟩ := List.mem_flatMap.1 hc
  rcases escChar_cases x with h1 | ⟨h1, -⟩
  · rcases h1 with rfl | rfl | rfl | rfl | rfl | rfl | rfl <;> revert hc <;> decide
  · rw [h1] at hc; simp at hc; subst hc; exact h hx

end Epc
