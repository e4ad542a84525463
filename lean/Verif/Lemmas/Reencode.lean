/-
From a decoded tag URI back to the constructor, and splitting a bit string into its fields.
-/
import Verif.Lemmas.DecodeAll
import Verif.Lemmas.Avail

namespace Epc
open Spec Re

theorem new_of_fromTagUri {α : Type} {new : Str → Except Err α} {n f b : Str} {x : α} (hn : ':' ∉ n ∧ '.' ∉ n) (hf : Num f)
    (h : fromTagUri new true (tagUriPrefix ++ n ++ ':' :: (f ++ '.' :: b)) = .ok x) :
    new (py "urn:epc:id:" ++ (split '-' n).headD [] ++ ':' :: b) = .ok x := by
  rw [fromTagUri_filter hn hf] at h
  split at h
  · exact h
  · cases h

theorem escape39_digits {s : Str} (h : Digits s) : escape39 s = s := by
  induction s with
  | nil => rfl
  | cons c t ih =>
    obtain ⟨h1, h2⟩ := Digits_cons.1 h
    show escChar39 c ++ escape39 t = _
    rw [ih h2]
    have : ∀ c ∈ py "0123456789", escChar39 c = [c] := by decide
    rw [this c h1]; rfl

theorem gs3a3_digits {s : Str} (h : Digits s) (hne : s ≠ []) : Lang Rx.gs3a3 s := by
  have := gs3a3_escape (raw := s) (fun c hc => by
    have k : ∀ c ∈ py "0123456789", c ∈ gs82 := by decide
    exact k c (h c hc)) hne
  rwa [escape_digits h] at this

theorem cpref_digits {s : Str} (h : Digits s) (hne : s ≠ []) : Lang Rx.cpref s :=
  (lang_cpref s).2 ⟨s, hne, fun c hc => by
    have k : ∀ c ∈ py "0123456789", c ∈ gs39 := by decide
    exact k c (h c hc), (escape39_digits h).symm⟩

theorem dec_digits {s : Str} (h : Digits s) : Dec s := isDecimal_of_Digits h

theorem no_colon_digits {s : Str} (h : Digits s) : ':' ∉ s := fun hc => by
  have := h _ hc
  revert this; decide

theorem take_split3 {b hd : Str} (h : b.take 8 = hd) {n : Nat} (hn : 11 ≤ n) : hd ++ ((b.drop 8).take 3 ++ (b.drop 11).take (n - 11)) = b.take n := by
  rw [← h]
  obtain ⟨m, rfl⟩ : ∃ m, n = 8 + (3 + m) := ⟨n - 11, by omega⟩
  rw [List.take_add, List.take_add, List.drop_drop, show 8 + (3 + m) - 11 = m by omega]

theorem take_split4 {b hd : Str} (h : b.take 8 = hd) {W n : Nat} (hn : 11 + W ≤ n) :
    hd ++ ((b.drop 8).take 3 ++ ((b.drop 11).take W ++ (b.drop (11 + W)).take (n - (11 + W)))) = b.take n := by
  rw [← take_split3 h (by omega : 11 ≤ n)]
  obtain ⟨m, rfl⟩ : ∃ m, n = 11 + (W + m) := ⟨n - (11 + W), by omega⟩
  rw [show 11 + (W + m) - 11 = W + m by omega, List.take_add, List.drop_drop, show 11 + (W + m) - (11 + W) = m by omega]

theorem filter_fin {b : Str} (hB : Bits b) (hl : 11 ≤ b.length) :
    ∃ f : Fin 8, f.val = bitsNumber ((b.drop 8).take 3) ∧ bin 3 f = (b.drop 8).take 3 := by
  have hl3 : ((b.drop 8).take 3).length = 3 := field_length (by omega)
  have := bitsNumber_lt (bits_take (bits_drop hB 8) 3)
  rw [hl3] at this
  exact ⟨⟨_, this⟩, rfl, bin_bitsNumber (bits_take (bits_drop hB 8) 3) hl3 (by decide)⟩

/-- `decode_numeric_string` is undone by `encode_numeric_string`. -/
theorem decodeNumeric_inv {b s : Str} (hB : Bits b) (hl : b.length = 41) (h : decodeNumericString b = .ok s) :
    Digits s ∧ s ≠ [] ∧ (s.length ≤ 12 → encodeNumericString s 41 = .ok b) := by
  have hne := ne_nil_of_length hl (by decide)
  unfold decodeNumericString at h
  rw [show pyInt 2 b = .ok (bitsNumber b : Int) from binaryToInt_bits hB hne, ok_bind] at h
  dsimp only at h
  rw [intStr_ofNat] at h
  split at h
  · cases h
  next hc =>
  rw [pure_ok] at h
  injection h with h
  have hd := Digits_natStr (bitsNumber b)
  have hnum := number_natStr (bitsNumber b)
  generalize natStr (bitsNumber b) = t at *
  cases t with
  | nil => simp at hc
  | cons c t =>
    rw [List.drop_one, List.tail_cons] at h
    subst h
    simp only [List.length_cons, List.head?_cons, Option.some.injEq, not_or, Decidable.not_not] at hc
    obtain ⟨hc1, rfl⟩ := hc
    refine ⟨(Digits_cons.1 hd).2, fun e => by rw [e] at hc1; simp at hc1, fun h12 => ?_⟩
    have : 10 ^ t.length ≤ 10 ^ 12 := Nat.pow_le_pow_right (by decide) h12
    rw [encodeNumeric_ok (Digits_cons.1 hd).2 (by omega), hnum, bin_bitsNumber hB hl (by decide)]

end Epc
