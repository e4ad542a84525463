/-
The six-bit string codec on component/part references.
-/
import Verif.Lemmas.Seven

namespace Epc
open Spec

/-- The six-bit code of a text. -/
def code6 (raw : Str) : Str := raw.flatMap (fun c => bin 6 (c.toNat % 64))

theorem code6_cons (c : Char) (raw : Str) : code6 (c :: raw) = bin 6 (c.toNat % 64) ++ code6 raw := rfl

theorem length_bin6 (c : Char) : (bin 6 (c.toNat % 64)).length = 6 := length_bin (by decide) (by omega)

theorem length_code6 (raw : Str) : (code6 raw).length = 6 * raw.length := by
  induction raw with
  | nil => rfl
  | cons c raw ih => rw [code6_cons, List.length_append, length_bin6, ih]; simp; omega

theorem Bits_code6 (raw : Str) : Bits (code6 raw) := by
  intro c hc
  obtain ⟨x, _, hx⟩ := List.mem_flatMap.1 hc
  exact Bits_bin 6 _ c hx

theorem code6_append (a b : Str) : code6 (a ++ b) = code6 a ++ code6 b := by simp [code6]

/-- Characters that may appear unescaped and are not a dash. -/
def isSixPlain (c : Char) : Bool := isDigitA c || (decide ('A' ≤ c) && decide (c ≤ 'Z'))

theorem gs39_cases {c : Char} (h : c ∈ gs39) : c = '#' ∨ c = '/' ∨ c = '-' ∨ isSixPlain c = true := by
  have : ∀ c ∈ gs39, c = '#' ∨ c = '/' ∨ c = '-' ∨ isSixPlain c = true := by decide +kernel
  exact this c h

theorem isSixPlain_lt {c : Char} (h : isSixPlain c = true) : c.toNat < 128 := by
  simp only [isSixPlain, Bool.or_eq_true, isDigitA_iff, Bool.and_eq_true, decide_eq_true_eq, char_le_iff] at h
  have e2 : 'Z'.toNat = 90 := by decide
  omega

theorem sixPlain_facts {c : Char} (h : isSixPlain c = true) :
    c ≠ '%' ∧ c ≠ '-' ∧ c ≠ '#' ∧ c ≠ '/' ∧ encodeSixChar c = .ok (bin 6 (c.toNat % 64)) := by
  exact ascii_forall (P := fun c => isSixPlain c = true →
    c ≠ '%' ∧ c ≠ '-' ∧ c ≠ '#' ∧ c ≠ '/' ∧ encodeSixChar c = .ok (bin 6 (c.toNat % 64))) (by decide +kernel) c (isSixPlain_lt h) h

theorem encodeSixPiece_plain {h : Str} (hh : ∀ c ∈ h, isSixPlain c = true) : encodeSixPiece h = .ok (code6 h) := by
  cases h with
  | nil => rfl
  | cons c t =>
    have hc := sixPlain_facts (hh c (by simp))
    unfold encodeSixPiece
    simp only [if_pos hc.1]
    rw [if_neg (by simp [hc.2.1]), mapM_map_ok (g := fun c : Char => bin 6 (c.toNat % 64)) (fun a ha => (sixPlain_facts (hh a ha)).2.2.2.2)]
    rfl

theorem encodeSix_pieces {raw : Str} (hr : ∀ c ∈ raw, c ∈ gs39) :
    ∃ h t ps, splitCap escapeOrDashLen (escape39 raw) = h :: t ∧ (∀ c ∈ h, isSixPlain c = true) ∧
    t.mapM encodeSixPiece = .ok ps ∧ code6 h ++ ps.flatten = code6 raw := by
  induction raw with
  | nil => exact ⟨[], [], [], rfl, by simp, rfl, rfl⟩
  | cons c raw ih =>
    obtain ⟨h, t, ps, h1, h2, h3, h4⟩ := ih (fun x hx => hr x (by simp [hx]))
    have e : escape39 (c :: raw) = escChar39 c ++ escape39 raw := rfl
    rcases gs39_cases (hr c (by simp)) with rfl | rfl | rfl | hc
    · refine ⟨[], py "%23" :: splitCap escapeOrDashLen (escape39 raw), bin 6 35 :: code6 h :: ps, ?_, by simp, ?_, ?_⟩
      · rw [e]
        exact splitCap_three (by simp [escapeOrDashLen, escapeLen, fixedLen, fixedMatch, show isHexA '2' = true from by decide, show isHexA '3' = true from by decide])
      · rw [h1]
        exact mapM_cons_ok (by decide +kernel) (mapM_cons_ok (encodeSixPiece_plain h2) h3)
      · rw [code6_cons, ← h4]; simp [code6]
    · refine ⟨[], py "%2F" :: splitCap escapeOrDashLen (escape39 raw), bin 6 47 :: code6 h :: ps, ?_, by simp, ?_, ?_⟩
      · rw [e]
        exact splitCap_three (by simp [escapeOrDashLen, escapeLen, fixedLen, fixedMatch, show isHexA '2' = true from by decide, show isHexA 'F' = true from by decide])
      · rw [h1]
        exact mapM_cons_ok (by decide +kernel) (mapM_cons_ok (encodeSixPiece_plain h2) h3)
      · rw [code6_cons, ← h4]; simp [code6]
    · refine ⟨[], py "-" :: splitCap escapeOrDashLen (escape39 raw), bin 6 45 :: code6 h :: ps, ?_, by simp, ?_, ?_⟩
      · rw [e]
        exact splitCap_one (by simp [escapeOrDashLen, escapeLen, fixedLen, fixedMatch])
      · rw [h1]
        exact mapM_cons_ok (by decide +kernel) (mapM_cons_ok (encodeSixPiece_plain h2) h3)
      · rw [code6_cons, ← h4]; simp [code6]
    · have hf := sixPlain_facts hc
      refine ⟨c :: h, t, ps, ?_, ?_, h3, ?_⟩
      · rw [e, escChar39, if_neg hf.2.2.1, if_neg hf.2.2.2.1]
        exact splitCap_none (by simp [escapeOrDashLen, escapeLen, fixedLen, fixedMatch, hf]) h1
      · intro x hx
        rcases List.mem_cons.1 hx with rfl | hx
        · exact hc
        · exact h2 x hx
      · rw [code6_cons, code6_cons, List.append_assoc, h4]

theorem encodeSix_escape {raw : Str} (hr : ∀ c ∈ raw, c ∈ gs39) :
    encodeStringSixBits (escape39 raw) = .ok (code6 raw ++ py "000000") := by
  obtain ⟨h, t, ps, h1, h2, h3, h4⟩ := encodeSix_pieces hr
  unfold encodeStringSixBits
  rw [h1, mapM_cons_ok (encodeSixPiece_plain h2) h3]
  show Except.ok _ = _
  rw [List.flatten_cons, h4]

/-! ### decoding -/

theorem fixedMatch_prefix {p : Char → Bool} {a : Str} (h : ∀ c ∈ a, p c = true) (b : Str) :
    fixedMatch (List.replicate a.length p) (a ++ b) = true := by
  induction a with
  | nil => simp [fixedMatch]
  | cons x a ih =>
    rw [List.length_cons, List.replicate_succ, List.cons_append, fixedMatch, h x (by simp), ih (fun c hc => h c (by simp [hc]))]
    rfl

theorem fixedMatch_short {p : Char → Bool} {a : Str} {k : Nat} (h : a.length < k) :
    fixedMatch (List.replicate k p) a = false := by
  induction a generalizing k with
  | nil => cases k with
    | zero => simp at h
    | succ k => rfl
  | cons x a ih => cases k with
    | zero => simp at h
    | succ k =>
      simp only [List.length_cons] at h
      rw [List.replicate_succ, fixedMatch, ih (by omega)]; simp

theorem splitCapGo_skip (m : Str → Option Nat) (a b : Str) : splitCapGo m a.length (a ++ b) = splitCapGo m 0 b := by
  induction a with
  | nil => rfl
  | cons x a ih => rw [List.length_cons, List.cons_append, splitCapGo, ih]

/-- A chunk of bits is split off. -/
theorem splitCap_chunk {a : Str} {k : Nat} (ha : a.length = k + 1) (hb : ∀ c ∈ a, isBit c = true) (b : Str) :
    splitCap (bitsLen (k + 1)) (a ++ b) = [] :: a :: splitCap (bitsLen (k + 1)) b := by
  cases a with
  | nil => simp at ha
  | cons x a =>
    have hm : bitsLen (k + 1) (x :: (a ++ b)) = some (k + 1) := by
      unfold bitsLen fixedLen
      have := fixedMatch_prefix hb b
      rw [ha] at this
      rw [← List.cons_append, if_pos this]; simp
    simp only [List.length_cons, Nat.add_right_cancel_iff] at ha
    rw [List.cons_append, splitCap, splitCapGo, hm]
    simp only [Nat.add_sub_cancel]
    rw [← ha, splitCapGo_skip]
    simp [splitCap]

theorem splitCap_short {a : Str} {k : Nat} (ha : a.length < k) : splitCap (bitsLen k) a = [a] := by
  induction a with
  | nil => rfl
  | cons x a ih =>
    apply splitCap_none _ (ih (by simp at ha; omega))
    unfold bitsLen fixedLen
    rw [fixedMatch_short ha]; rfl

theorem isBit_of_Bits {a : Str} (h : Bits a) : ∀ c ∈ a, isBit c = true := by
  intro c hc
  rcases h c hc with rfl | rfl <;> decide

theorem decodeSix_char {c : Char} (h : c ∈ gs39) (gs : List Str) :
    decodeSixLoop ([] :: bin 6 (c.toNat % 64) :: gs) = (decodeSixLoop gs).map (c :: ·) := by
  rw [decodeSixLoop, if_neg (by decide), if_pos (by decide), decodeSixLoop]
  have key : ∀ c ∈ gs39, bin 6 (c.toNat % 64) ≠ py "000000" ∧
      (if startsWith (bin 6 (c.toNat % 64)) (py "10") || startsWith (bin 6 (c.toNat % 64)) (py "11") then
        c.toNat = c.toNat % 64 else c.toNat = 64 + c.toNat % 64) := by decide +kernel
  obtain ⟨k1, k2⟩ := key c h
  have hchr : chr (c.toNat : Int) = .ok c := by
    have : ∀ c ∈ gs39, chr (c.toNat : Int) = .ok c := by decide +kernel
    exact this c h
  rw [if_neg k1, if_neg (by rw [length_bin6]; decide)]
  split at k2
  · next hs =>
    rw [if_pos hs, pyInt_bin]
    show (chr ((c.toNat % 64 : Nat) : Int) >>= _) = _
    rw [← k2, hchr]
    cases decodeSixLoop gs <;> rfl
  · next hs =>
    rw [if_neg hs, pyInt_bin]
    show (chr (64 + ((c.toNat % 64 : Nat) : Int)) >>= _) = _
    rw [show (64 + ((c.toNat % 64 : Nat) : Int)) = ((64 + c.toNat % 64 : Nat) : Int) by simp, ← k2, hchr]
    cases decodeSixLoop gs <;> rfl

theorem decodeSixLoop_code {raw : Str} (hr : ∀ c ∈ raw, c ∈ gs39) {tail : Str}
    (ht : decodeSixLoop (splitCap (bitsLen 6) tail) = .ok []) :
    decodeSixLoop (splitCap (bitsLen 6) (code6 raw ++ tail)) = .ok raw := by
  induction raw with
  | nil => exact ht
  | cons c raw ih =>
    rw [code6_cons, List.append_assoc, splitCap_chunk (length_bin6 c) (isBit_of_Bits (Bits_bin _ _)),
      decodeSix_char (hr c (by simp)), ih (fun x hx => hr x (by simp [hx]))]
    rfl

theorem decodeSixLoop_term (tail : Str) : decodeSixLoop (splitCap (bitsLen 6) (py "000000" ++ tail)) = .ok [] := by
  rw [splitCap_chunk (by decide) (by decide)]
  rw [decodeSixLoop, if_neg (by decide), if_pos (by decide), decodeSixLoop, if_pos rfl]

theorem decodeSixLoop_short {tail : Str} (h : tail.length < 6) : decodeSixLoop (splitCap (bitsLen 6) tail) = .ok [] := by
  rw [splitCap_short h, decodeSixLoop, if_neg (by intro e; rw [e] at h; simp at h), if_pos h]; rfl

theorem replace39 (raw : Str) :
    replaceAll (py "/") (py "%2F") (replaceAll (py "#") (py "%23") raw) = escape39 raw := by
  unfold escape39
  simp only [replaceAll_char, List.flatMap_assoc]
  congr 1
  funext x
  by_cases h1 : x = '#'
  · subst h1; decide
  by_cases h2 : x = '/'
  · subst h2; decide
  simp [escChar39, h1, h2]

theorem decodeSix_of_loop {b raw : Str} {m : Nat} (h : decodeSixLoop (splitCap (bitsLen 6) b) = .ok raw) (hm : raw.length ≤ m) :
    decodeStringSixBits b m = .ok (escape39 raw) := by
  unfold decodeStringSixBits
  rw [h]
  show (if raw.length > m then _ else _) = _
  rw [if_neg (by omega), replace39]; rfl

theorem decodeSix_code {raw : Str} (hr : ∀ c ∈ raw, c ∈ gs39) {m : Nat} (hm : raw.length ≤ m) (tail : Str) :
    decodeStringSixBits (code6 raw ++ (py "000000" ++ tail)) m = .ok (escape39 raw) :=
  decodeSix_of_loop (decodeSixLoop_code hr (decodeSixLoop_term tail)) hm

theorem decodeSix_code_long {raw : Str} (hr : ∀ c ∈ raw, c ∈ gs39) {m : Nat} (hm : m < raw.length) (tail : Str) :
    decodeStringSixBits (code6 raw ++ (py "000000" ++ tail)) m = .error .convert := by
  unfold decodeStringSixBits
  rw [decodeSixLoop_code hr (decodeSixLoop_term tail)]
  show (if raw.length > m then _ else _) = _
  rw [if_pos (by omega)]

end Epc
