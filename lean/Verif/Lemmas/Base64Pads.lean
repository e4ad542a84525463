/-
Base64 text from which any number of the trailing pad characters was dropped.
-/
import Verif.Lemmas.HexForm

namespace Epc
open Spec

theorem a2b_pads0 (l p : Nat) : ∀ k, a2bGo 0 l p (List.replicate k '=') = .ok []
  | 0 => by simp [a2bGo]
  | k + 1 => by rw [List.replicate_succ, a2bGo]; simp [a2b_pads0 l p k]

theorem dropRight_b64 {v : Nat} (hv : v < 64) (s : Str) :
    dropRightWhile (· == '=') (b64Char v :: s) = b64Char v :: dropRightWhile (· == '=') s := by
  have hne := (b64Val_b64Char hv).2.1
  unfold dropRightWhile
  rw [List.reverse_cons, List.dropWhile_append]
  split
  · next he =>
    have : (s.reverse).dropWhile (· == '=') = [] := by simpa using he
    simp [this, hne]
  · simp

theorem a2b_encode_pads (bs : List Nat) (h : ∀ b ∈ bs, b < 256) (k : Nat) :
    a2bGo 0 0 0 (dropRightWhile (· == '=') (b64encode bs) ++ List.replicate (k + 2) '=') = .ok bs := by
  induction bs using b64encode.induct with
  | case1 => exact a2b_pads0 0 0 _
  | case2 a =>
    have ha := h a (by simp)
    rw [b64encode, dropRight_b64 (by omega), dropRight_b64 (by omega), show dropRightWhile (· == '=') ['=', '='] = [] from rfl]
    simp only [List.cons_append, List.replicate_succ]
    rw [a2b_0 (by omega), a2b_1 (by omega)]
    simp [a2bGo, Except.map]; omega
  | case3 a b =>
    have ha := h a (by simp)
    have hb := h b (by simp)
    rw [b64encode, dropRight_b64 (by omega), dropRight_b64 (by omega), dropRight_b64 (by omega),
      show dropRightWhile (· == '=') ['='] = [] from rfl]
    simp only [List.cons_append, List.replicate_succ]
    rw [a2b_0 (by omega), a2b_1 (by omega), a2b_2 (by omega)]
    simp [a2bGo, Except.map]; omega
  | case4 a b c t ih =>
    have ha := h a (by simp)
    have hb := h b (by simp)
    have hc := h c (by simp)
    have ih := ih (fun x hx => h x (by simp [hx]))
    rw [b64encode, dropRight_b64 (by omega), dropRight_b64 (by omega), dropRight_b64 (by omega), dropRight_b64 (by omega)]
    simp only [List.cons_append]
    rw [a2b_0 (by omega), a2b_1 (by omega), a2b_2 (by omega), a2b_3 (by omega), ih]
    simp [Except.map]; omega

theorem dropRight_append_pads (s : Str) : ∀ k, dropRightWhile (· == '=') (s ++ List.replicate k '=') = dropRightWhile (· == '=') s
  | 0 => by simp
  | k + 1 => by
    rw [List.replicate_succ', ← List.append_assoc]
    have e : dropRightWhile (· == '=') (s ++ List.replicate k '=' ++ ['=']) = dropRightWhile (· == '=') (s ++ List.replicate k '=') := by
      unfold dropRightWhile
      rw [List.reverse_append]
      simp
    rw [e, dropRight_append_pads s k]

theorem dropRight_split (s : Str) : ∃ j, s = dropRightWhile (· == '=') s ++ List.replicate j '=' := by
  refine ⟨(s.reverse.takeWhile (· == '=')).length, ?_⟩
  have h1 : s.reverse = s.reverse.takeWhile (· == '=') ++ s.reverse.dropWhile (· == '=') := by
    rw [List.takeWhile_append_dropWhile]
  have h2 : s.reverse.takeWhile (· == '=') = List.replicate (s.reverse.takeWhile (· == '=')).length '=' := by
    rw [List.eq_replicate_iff]
    refine ⟨rfl, fun b hb => ?_⟩
    have := List.all_eq_true.1 (List.all_takeWhile (p := (· == '=')) (l := s.reverse)) b hb
    simpa using this
  have h3 := congrArg List.reverse h1
  rw [List.reverse_reverse, List.reverse_append] at h3
  refine h3.trans ?_
  unfold dropRightWhile
  congr 1
  rw [h2, List.reverse_replicate]
  simp

theorem base64ToHex_pads {bs : List Nat} (h : ∀ b ∈ bs, b < 256) {s : Str} {k : Nat}
    (e : b64encode bs = s ++ List.replicate k '=') : base64ToHex s = .ok (bytesHex bs) := by
  obtain ⟨j, hj⟩ := dropRight_split s
  have e2 : dropRightWhile (· == '=') s = dropRightWhile (· == '=') (b64encode bs) := by rw [e, dropRight_append_pads]
  have e3 : s ++ py "==" = dropRightWhile (· == '=') (b64encode bs) ++ List.replicate (j + 2) '=' := by
    rw [← e2, ← List.replicate_append_replicate, ← List.append_assoc, ← hj]; rfl
  unfold base64ToHex b64decode
  rw [if_pos, e3, a2b_encode_pads bs h, ok_bind, pure_ok]
  rw [List.all_append, Bool.and_eq_true]
  refine ⟨?_, by decide⟩
  rw [List.all_eq_true]
  intro c hc
  have := b64encode_ascii bs h c (by rw [e]; simp [hc])
  simpa using this

/-- `base64` of an encoded object; any number of pad characters may be dropped from the text. -/
theorem BinOk.base64_pads {α : Type} {n : Nat} {x : α} {enc : Fin n → Except Err Str} {dec : Str → Except Err α} {hd : Str}
    {fb : Fin n → Str} {rest : Str} (H : BinOk x enc dec hd fb rest) (hb : Bits hd) (fbb : ∀ f, Bits (fb f))
    (h8 : hd.length = 8) (hz : hd.take 4 ≠ py "0000") (f : Fin n) :
    ∃ s, base64Of (enc f) = .ok s ∧ ∀ s' k, s = s' ++ List.replicate k '=' → fromBase64With dec s' = .ok x := by
  obtain ⟨b, h, _, e, e2, e3, _, e5⟩ := H.hex hb fbb h8 hz f
  have hh := HexDigits_of_upper e2
  have hl : h.length % 2 = 0 := by rw [e3]; omega
  obtain ⟨bs, eb, hbs, hx⟩ := hexToBase64_eq hh hl
  refine ⟨b64encode bs, ?_, fun s' k hs => ?_⟩
  · unfold base64Of; rw [e, ok_bind]; exact eb
  · unfold fromBase64With
    rw [base64ToHex_pads hbs hs, ok_bind, hx, fromHexWith_lower hh]; exact e5

end Epc
