/-
A numeric serial and the same number without leading zeros.
-/
import Verif.Lemmas.Avail
import Verif.Lemmas.SerialText
import Verif.Lemmas.Unescape

namespace Epc
open Spec Re

theorem length_natStr_le {S : Str} (h : Digits S) (hne : S ≠ []) : (natStr (number S)).length ≤ S.length := by
  have := congrArg List.length (natStr_number h hne)
  rw [length_padLeft] at this
  omega

theorem strip_serial {S : Str} (h : Digits S) (hne : S ≠ []) :
    Lang Rx.gs3a3 (natStr (number S)) ∧ verifyGs3a3 (natStr (number S)) = .ok () ∧
    1 ≤ (replaceUriEscapes (natStr (number S))).length ∧
    (replaceUriEscapes (natStr (number S))).length = (natStr (number S)).length ∧
    (natStr (number S)).length ≤ S.length ∧ (replaceUriEscapes S).length = S.length ∧
    ∀ w, strToBinary (natStr (number S)) w = strToBinary S w := by
  have hN := Digits_natStr (number S)
  have hNne := natStr_ne_nil (number S)
  have e := escape_digits hN
  have e' := escape_digits h
  have hr := gs82_of_digits hN
  have hlone : LoneLetterEscapes (natStr (number S)) := loneLetter_of_none fun c hc => by
    have hall : ∀ c ∈ py "0123456789", c ∉ py "/<>?" := by decide
    exact hall c (hN c hc)
  have h1 := gs3a3_escape hr hNne
  have h2 := (verify_escape_iff hr hNne).2 hlone
  have h3 := replaceUriEscapes_escape (natStr (number S))
  have h4 := replaceUriEscapes_escape S
  rw [e] at h1 h2 h3
  rw [e'] at h4
  refine ⟨h1, h2, ?_, by rw [h3], length_natStr_le h hne, by rw [h4], fun w => ?_⟩
  · rw [h3]; exact List.length_pos_iff.2 hNne
  · rw [strToBinary_natStr, strToBinary_decimal (isDecimal_of_Digits h) hne, decVal_Digits h]

theorem digitIn10 {c : Char} {d : Nat} (h : digitIn 10 c = some d) : c ∈ py "0123456789" := by
  unfold digitIn digitVal at h
  dsimp only at h
  have hc : 48 ≤ c.toNat ∧ c.toNat ≤ 57 := by
    split at h
    · next d' hd' =>
      split at hd'
      · assumption
      · split at hd'
        · injection hd' with hd'
          split at h
          · omega
          · cases h
        · split at hd'
          · injection hd' with hd'
            split at h
            · omega
            · cases h
          · cases hd'
    · cases h
  have hc' : c = Char.ofNat c.toNat := by simp
  rw [hc']
  have hall : ∀ n, n < 58 → 48 ≤ n → Char.ofNat n ∈ py "0123456789" := by decide
  exact hall _ (by omega) hc.1

theorem digitsGo_chars {acc n : Nat} {s : Str} (h : digitsGo 10 acc s = some n) : ∀ c ∈ s, c ∈ py "0123456789_" := by
  have hw : ∀ c ∈ py "0123456789", c ∈ py "0123456789_" := by decide
  fun_induction digitsGo 10 acc s with
  | case1 acc => simp
  | case2 acc c cs d hd ih =>
    intro a ha
    rcases List.mem_cons.1 ha with rfl | ha
    · exact hw _ (digitIn10 hd)
    · exact ih h a ha
  | case3 => cases h
  | case4 acc c' cs d hd' _ ih =>
    intro a ha
    rcases List.mem_cons.1 ha with rfl | ha
    · decide
    · rcases List.mem_cons.1 ha with rfl | ha
      · exact hw _ (digitIn10 hd')
      · exact ih h a ha
  | case5 => cases h
  | case6 => cases h

theorem digitsVal_chars {n : Nat} {s : Str} (h : digitsVal 10 s = some n) : ∀ c ∈ s, c ∈ py "0123456789_" := by
  have hw : ∀ c ∈ py "0123456789", c ∈ py "0123456789_" := by decide
  unfold digitsVal at h
  split at h
  · cases h
  · split at h
    · next hd =>
      intro a ha
      rcases List.mem_cons.1 ha with rfl | ha
      · exact hw _ (digitIn10 hd)
      · exact digitsGo_chars h a ha
    · cases h

theorem dropBasePrefix10 (s : Str) : dropBasePrefix 10 s = s := by
  unfold dropBasePrefix
  split
  · rw [if_neg (by simp)]
  · rfl

theorem pyInt10_chars {s : Str} {i : Int} (hs : ∀ c ∈ s, c.toNat < 127 ∧ isCSpace c = false) (h : pyInt 10 s = .ok i) :
    ∀ c ∈ s, c ∈ py "0123456789_+-" := by
  unfold pyInt at h
  rw [map_intNormChar_of_lt (fun c hc => (hs c hc).1), noSpace_strip (fun c hc => (hs c hc).2)] at h
  have hw : ∀ c ∈ py "0123456789_", c ∈ py "0123456789_+-" := by decide
  dsimp only at h
  simp only [dropBasePrefix10] at h
  split at h
  · split at h
    · next hd =>
      intro a ha
      rcases List.mem_cons.1 ha with rfl | ha
      · decide
      · exact hw _ (digitsVal_chars hd a ha)
    · cases h
  · split at h
    · next hd =>
      intro a ha
      rcases List.mem_cons.1 ha with rfl | ha
      · decide
      · exact hw _ (digitsVal_chars hd a ha)
    · cases h
  · split at h
    · next hd => exact fun a ha => hw _ (digitsVal_chars hd a ha)
    · cases h

theorem strToBinary_letter {s : Str} (w : Nat) (hs : ∀ c ∈ s, c ∈ gs82) (hc : ∃ c ∈ s, c ∉ py "0123456789_+-") :
    strToBinary s w = .error .value := by
  obtain ⟨c, hc, hn⟩ := hc
  unfold strToBinary
  cases hp : pyInt 10 s with
  | error e => rw [error_bind, pyInt_error hp]
  | ok i =>
    exact absurd (pyInt10_chars (fun c hc => ⟨(gs82_noSpace (hs c hc)).1, (gs82_noSpace (hs c hc)).2.1⟩) hp c hc) hn

end Epc
