/-
The fields of an ADI-var encoding in terms of the layout specification.
-/
import Verif.Lemmas.LayoutSix

namespace Epc
open Spec Re

theorem exists_least {P : Nat → Prop} : ∀ {n : Nat}, P n → ∃ t, P t ∧ ∀ s, s < t → ¬ P s := by
  intro n
  induction n using Nat.strongRecOn with
  | ind n ih =>
    intro h
    by_cases h' : ∃ s, s < n ∧ P s
    · obtain ⟨s, hs, hp⟩ := h'
      exact ih s hs hp
    · exact ⟨n, h, fun s hs hp => h' ⟨s, hs, hp⟩⟩

theorem bitsNumber_zeros6 : bitsNumber (py "000000") = 0 := by decide

theorem bits_zero6 {s : Str} (h : Bits s) (hl : s.length = 6) (h0 : bitsNumber s = 0) : s = py "000000" := by
  obtain ⟨n, _, e1, e2, _⟩ := six_group h hl
  exact e2 (by omega)

theorem bitField_zero6 {b : Str} (hB : Bits b) {t : Nat} (h : t + 6 ≤ b.length) (h0 : bitField b t 6 = 0) :
    b.drop t = py "000000" ++ b.drop (t + 6) := by
  have := bits_zero6 (bits_take (bits_drop hB t) 6) (field_length h) h0
  rw [← this, ← List.drop_drop, List.take_append_drop]

theorem ADI.hasTerminator_iff {s : Str} (h : Bits s) : ADI.hasTerminator s = true ↔ ∃ a t, s = a ++ (py "000000" ++ t) := by
  constructor
  · intro ht
    unfold ADI.hasTerminator at ht
    rw [matchPrefix_iff] at ht
    obtain ⟨p, q, rfl, ht⟩ := ht
    simp only [Re.seqs, Lang] at ht
    obtain ⟨a, r, rfl, -, z, r', rfl, hz, -⟩ := ht
    rw [lang_plus] at hz
    obtain ⟨z1, z2, rfl, hz, -⟩ := hz
    obtain ⟨h1, h2⟩ := (lang_rep_cls (· == '0') 6 z1).1 hz
    rw [zeros_eq h1 h2]
    exact ⟨a, z2 ++ (r' ++ q), by simp⟩
  · rintro ⟨a, t, rfl⟩
    exact ADI.hasTerminator_of (Bits_append.1 h).1

theorem adi_split {b : Str} (hB : Bits b) {t : Nat} (h : FirstZeros b t) :
    ADI.hasTerminator (b.drop 50) = true ∧
    splitCap ADI.zerosLen (b.drop 50) = (b.take t).drop 50 :: py "000000" :: splitCap ADI.zerosLen (b.drop (t + 6)) := by
  obtain ⟨h50, hl, h0, hmin⟩ := h
  have e : b.drop 50 = (b.take t).drop 50 ++ (py "000000" ++ b.drop (t + 6)) := by
    rw [← bitField_zero6 hB hl h0, List.drop_take]
    rw [show b.drop t = (b.drop 50).drop (t - 50) by rw [List.drop_drop]; congr 1; omega, List.take_append_drop]
  have ha : Bits ((b.take t).drop 50) := bits_drop (bits_take hB t) 50
  refine ⟨by rw [e]; exact ADI.hasTerminator_of ha, ?_⟩
  rw [e]
  refine ADI.split_first ?_
  rintro ⟨p, q, hpq⟩
  have hlen := congrArg List.length hpq
  have l5 : (py "00000").length = 5 := rfl
  have l6 : (py "000000").length = 6 := rfl
  have la : ((b.take t).drop 50).length = t - 50 := by rw [List.length_drop, List.length_take]; omega
  rw [List.length_append, List.length_append, List.length_append, l5, l6, la] at hlen
  refine hmin (50 + p.length) (by omega) (by omega) ?_
  have : b.drop 50 = p ++ (py "000000" ++ (q ++ ('0' :: b.drop (t + 6)))) := by
    rw [e, show py "000000" ++ b.drop (t + 6) = py "00000" ++ ('0' :: b.drop (t + 6)) from rfl, ← List.append_assoc, ← hpq]
    simp
  unfold bitField
  rw [← List.drop_drop, this, drop_append_eq rfl, show ∀ s : Str, List.take 6 (py "000000" ++ s) = py "000000" from fun _ => rfl]
  decide

theorem adi_noSplit {b : Str} (hB : Bits b) (h : ¬ ∃ t, FirstZeros b t) : ADI.hasTerminator (b.drop 50) = false := by
  cases hh : ADI.hasTerminator (b.drop 50) with
  | false => rfl
  | true =>
    exfalso
    obtain ⟨a, t, e⟩ := (ADI.hasTerminator_iff (bits_drop hB 50)).1 hh
    have hlen := congrArg List.length e
    have l6 : (py "000000").length = 6 := rfl
    rw [List.length_drop, List.length_append, List.length_append, l6] at hlen
    obtain ⟨t', ⟨h1, h2, h3⟩, hmin⟩ := exists_least (P := fun t => 50 ≤ t ∧ t + 6 ≤ b.length ∧ bitField b t 6 = 0) (n := 50 + a.length)
      ⟨by omega, by omega, by unfold bitField; rw [← List.drop_drop, e, drop_append_eq rfl, show ∀ s : Str, List.take 6 (py "000000" ++ s) = py "000000" from fun _ => rfl]; decide⟩
    exact h ⟨t', h1, h2, h3, fun s hs hst h0 => hmin s hst ⟨hs, by omega, h0⟩⟩

theorem sliceToI_neg_any (s : Str) (k : Nat) (hk : 0 < k) : sliceToI s (-(k : Int)) = s.take (s.length - k) := by
  unfold sliceToI clampIdx
  rw [if_pos (by omega)]
  congr 1
  omega

theorem decodeSix_rest {b : Str} (hB : Bits b) (lo k m : Nat) (hk : b.length ≤ lo + 6 * k) :
    decodeStringSixBits (b.drop lo) m = if (sixText b lo k).length > m then .error .convert else .ok (escape39 (sixText b lo k)) := by
  rw [← decodeSixBits_spec hB k lo m, List.take_of_length_le (by rw [List.length_drop]; omega)]

theorem sixText_length (b : Str) : ∀ (k lo : Nat), (sixText b lo k).length ≤ k
  | 0, _ => Nat.le_refl _
  | k + 1, lo => by
    rw [sixText]
    split
    · simp
    · rw [List.length_cons]; have := sixText_length b k (lo + 6); omega

theorem cage_decode {b : Str} (hB : Bits b) (hl : 50 ≤ b.length) : decodeCageCodeSixBits (slice b 14 50) = .ok (escape39 (cageText b)) := by
  have e : slice b 14 50 = (b.take 50).drop 14 := rfl
  have hB' := bits_take hB 50
  have l : (b.take 50).length = 50 := by rw [List.length_take]; omega
  have h6 : ((b.drop 14).take 6).length = 6 := field_length (by omega)
  have e6 : (slice b 14 50).take 6 = (b.drop 14).take 6 := by
    rw [slice_eq, List.take_take]; rfl
  have hs : startsWith (slice b 14 50) (py "100000") = true ↔ bitField b 14 6 = 32 := by
    unfold startsWith
    rw [List.isPrefixOf_iff_prefix, List.prefix_iff_eq_take]
    show py "100000" = (slice b 14 50).take 6 ↔ _
    rw [e6]
    constructor
    · intro h; unfold bitField; rw [← h]; decide
    · intro h
      rw [← bin_bitsNumber (bits_take (bits_drop hB 14) 6) h6 (by decide), show bitsNumber ((b.drop 14).take 6) = 32 from h]
      decide
  unfold decodeCageCodeSixBits cageText
  by_cases h : bitField b 14 6 = 32
  · rw [if_pos (hs.2 h), if_pos h, e, List.drop_drop, decodeSix_rest hB' (14 + 6) 5 6 (by omega)]
    have := sixText_length (b.take 50) 5 20
    rw [show 14 + 6 = 20 from rfl, if_neg (by omega)]
  · rw [if_neg (fun h' => h (hs.1 h')), if_neg h, e, decodeSix_rest hB' 14 6 6 (by omega)]
    have := sixText_length (b.take 50) 6 14
    rw [if_neg (by omega)]

theorem escape39_measure (raw : Str) : (escape39 raw).length + 2 * raw.count '%' = raw.length + 2 * (escape39 raw).count '%' := by
  induction raw with
  | nil => rfl
  | cons c raw ih =>
    rw [escape39_cons, List.length_append, List.count_append, List.length_cons, List.count_cons]
    have : (escChar39 c).length + 2 * (if (c == '%') = true then 1 else 0) = 1 + 2 * (escChar39 c).count '%' := by
      unfold escChar39
      by_cases h1 : c = '#'
      · subst h1; decide
      by_cases h2 : c = '/'
      · subst h2; decide
      · rw [if_neg h1, if_neg h2, List.count_cons]; simp
    omega

theorem escape39_length_le {raw P : Str} (hP : ∀ c ∈ P, c ∈ gs39) (h : escape39 raw = escape39 P) : P.length ≤ raw.length := by
  have h1 := escape39_measure raw
  have h2 := escape39_measure P
  have : P.count '%' = 0 := List.count_eq_zero.2 fun h => by have := hP _ h; revert this; decide
  rw [h] at h1
  omega

theorem lang_adiSerial' (s : Str) :
    Lang (.seq (opt (lit (py "%23"))) (plus Rx.adiChar)) s ↔
      ∃ S, ((∀ c ∈ S, c ∈ gs39) ∧ '#' ∉ S.tail ∧ S ≠ [] ∧ S ≠ py "#") ∧ s = escape39 S := by
  rw [lang_adiSerial]
  constructor
  · rintro ⟨raw, hr, hg, ht, rfl⟩
    refine ⟨raw, ⟨hg, ht, ?_, ?_⟩, rfl⟩
    · rcases hr with ⟨_, _, rfl, _⟩ | ⟨_, _, rfl, _⟩ <;> simp
    · rcases hr with ⟨c, t, rfl, hc⟩ | ⟨_, _, rfl, _⟩
      · intro h; injection h with h _; exact hc h
      · intro h; injection h with _ h; cases h
  · rintro ⟨S, ⟨hg, ht, hne, hh⟩, rfl⟩
    refine ⟨S, ?_, hg, ht, rfl⟩
    cases S with
    | nil => exact absurd rfl hne
    | cons c t =>
      by_cases hc : c = '#'
      · subst hc
        cases t with
        | nil => exact absurd rfl hh
        | cons d t => exact .inr ⟨d, t, rfl, fun h => ht (by subst h; simp)⟩
      · exact .inl ⟨c, t, rfl, hc⟩

theorem escape39_plain {s : Str} (h : ∀ c ∈ s, ¬ (c = '#' ∨ c = '/')) : escape39 s = s := by
  induction s with
  | nil => rfl
  | cons c s ih =>
    have := h c (.head _)
    rw [escape39_cons, ih fun c hc => h c (.tail _ hc)]
    unfold escChar39
    rw [if_neg (fun e => this (.inl e)), if_neg (fun e => this (.inr e))]
    rfl

end Epc
