/-
What the binary encoding of every scheme has in common, and what follows from it.
-/
import Verif.Lemmas.Frame

namespace Epc
open Spec Re

/-- `enc f` is the header `hd`, the filter bits `fb f` and the bits `rest`, which do not depend on the filter value; decoding it, even
with something appended, gives `x`. -/
structure BinOk {α : Type} {n : Nat} (x : α) (enc : Fin n → Except Err Str) (dec : Str → Except Err α) (hd : Str)
    (fb : Fin n → Str) (rest : Str) : Prop where
  bits : Bits rest
  enc_eq : ∀ f, enc f = .ok (hd ++ (fb f ++ rest))
  dec_eq : ∀ f tail, dec ((hd ++ (fb f ++ rest)) ++ tail) = .ok x

theorem BinOk.roundtrip {α : Type} {n : Nat} {x : α} {enc : Fin n → Except Err Str} {dec : Str → Except Err α} {hd : Str}
    {fb : Fin n → Str} {rest : Str} (h : BinOk x enc dec hd fb rest) (f : Fin n) : (enc f).bind dec = .ok x := by
  have := h.dec_eq f []
  rw [List.append_nil] at this
  rw [h.enc_eq f]
  exact this

theorem parseHeader_frame {κ : Type} {headers : List (Str × κ)} {value : κ → Str} {cs : κ} {hd body p sz : Str} {n : Nat}
    (h8 : hd.length = 8) (hl : headers.lookup hd = some cs) (hs : split '-' (value cs) = [p, sz])
    (hn : isNumeric sz = true) (hi : pyInt 10 sz = .ok (n : Int)) (hlen : 8 + body.length = n) (tail : Str) :
    parseHeader headers value ((hd ++ body) ++ tail) = .ok (cs, hd ++ body) := by
  rw [parseHeader_fixed (h := hd) (by rw [List.append_assoc]; exact take_append_eq h8) hl hs hn hi (by simp; omega)]
  rw [take_append_eq (by simp; omega)]

theorem parseHeader_frame_var {κ : Type} {headers : List (Str × κ)} {value : κ → Str} {cs : κ} {hd body p sz : Str}
    (h8 : hd.length = 8) (hl : headers.lookup hd = some cs) (hs : split '-' (value cs) = [p, sz])
    (hn : isNumeric sz = false) (tail : Str) :
    parseHeader headers value ((hd ++ body) ++ tail) = .ok (cs, (hd ++ body) ++ tail) :=
  parseHeader_var (h := hd) (by rw [List.append_assoc]; exact take_append_eq h8) hl hs hn

theorem length_le_escape (raw : Str) : raw.length ≤ (escape raw).length := by
  induction raw with
  | nil => simp
  | cons c t ih =>
    rw [escape_cons, List.length_append, List.length_cons]
    have := List.length_pos_iff.2 (escChar_ne_nil c)
    omega

/-- A two-digit piece or total below 99 in seven bits. -/
theorem fixed_ok {A : Str} (hA : Digits A) (hl : A.length = 2) (hlt : number A < 99) :
    encodeFixedWidthInteger A 7 = .ok (bin 7 (number A)) ∧ (bin 7 (number A)).length = 7 ∧
      decodeFixedWidthInteger (bin 7 (number A)) = .ok A := by
  have hne : A ≠ [] := by intro h; rw [h] at hl; simp at hl
  have h7 : (bin 7 (number A)).length = 7 := length_bin (by omega) (by omega)
  have hd : fixedDigits 7 = 2 := by decide
  refine ⟨?_, h7, ?_⟩
  · unfold encodeFixedWidthInteger
    rw [pyInt_Digits hA hne, ok_bind, hd, if_neg (by omega), strToBinary_decimal (isDecimal_of_Digits hA) hne, decVal_Digits hA]
  · unfold decodeFixedWidthInteger
    rw [h7, hd]
    dsimp only
    rw [pyInt_bin, ok_bind, if_neg (by omega), intStr_ofNat, natStr_number_pad hA hl (by omega), pure_ok]

/-- The eight-bit code of a text. -/
def code8 (s : Str) : Str := s.flatMap (fun c => bin 8 c.toNat)

theorem encodeCage_eq (s : Str) : encodeCageCode s = code8 s := by
  unfold encodeCageCode code8 bin
  rw [List.flatMap_def]

theorem length_code8 {s : Str} (h : ∀ c ∈ s, c.toNat < 128) : (code8 s).length = 8 * s.length := by
  induction s with
  | nil => rfl
  | cons c t ih =>
    have := h c (by simp)
    have hb : (bin 8 c.toNat).length = 8 := length_bin (by omega) (by omega)
    show (bin 8 c.toNat ++ code8 t).length = _
    rw [List.length_append, hb, ih (fun d hd => h d (by simp [hd])), List.length_cons]
    omega

theorem Bits_code8 (s : Str) : Bits (code8 s) := by
  intro c hc
  obtain ⟨d, _, h⟩ := List.mem_flatMap.1 hc
  exact Bits_bin _ _ c h

theorem chr_ascii {c : Char} (h : c.toNat < 128) : chr (c.toNat : Int) = .ok c :=
  ascii_forall (P := fun c => chr (c.toNat : Int) = .ok c) (by decide +kernel) c h

theorem decodeCage_loop {s : Str} (h : ∀ c ∈ s, c.toNat < 128) :
    ∃ ps : List Str, (splitCap (bitsLen 8) (code8 s)).mapM (fun g =>
      if g = [] then (.ok [] : Except Err Str) else do
        let i ← pyInt 2 g
        let c ← chr i
        return [c]) = .ok ps ∧ ps.flatten = s := by
  induction s with
  | nil => exact ⟨[[]], by decide, rfl⟩
  | cons c t ih =>
    obtain ⟨ps, e1, e2⟩ := ih (fun d hd => h d (by simp [hd]))
    have hc := h c (by simp)
    have hb : (bin 8 c.toNat).length = 7 + 1 := length_bin (by omega) (by omega)
    refine ⟨[] :: [c] :: ps, ?_, by simp [e2]⟩
    show (splitCap (bitsLen 8) (bin 8 c.toNat ++ code8 t)).mapM _ = _
    rw [splitCap_chunk hb (isBit_of_Bits (Bits_bin _ _))]
    refine mapM_cons_ok (if_pos rfl) (mapM_cons_ok ?_ e1)
    rw [if_neg (bin_ne_nil _ _), pyInt_bin, ok_bind, chr_ascii hc, ok_bind, pure_ok]

theorem cage_bin {C : Str} (h : Lang Rx.cage C) : ∃ b, encodeCageCode (padLeft ' ' 6 C) = b ∧ Bits b ∧ b.length = 48 ∧
    decodeCageCode b = .ok C := by
  obtain ⟨hl, hc⟩ := (lang_cage C).1 h
  have ha : ∀ c ∈ padLeft ' ' 6 C, c.toNat < 128 := by
    intro c hm
    rcases mem_padLeft hm with rfl | hm
    · decide
    · exact (isCage_facts (hc c hm)).2.2.2.2
  refine ⟨_, encodeCage_eq _, Bits_code8 _, by rw [length_code8 ha, length_padLeft]; omega, ?_⟩
  obtain ⟨ps, e1, e2⟩ := decodeCage_loop ha
  unfold decodeCageCode
  rw [e1, ok_bind, e2, pure_ok, Except.ok.injEq, show py " " = [' '] from rfl, replaceAll_char]
  unfold padLeft
  rw [List.flatMap_append]
  have h1 : (List.replicate (6 - C.length) ' ').flatMap (fun x => if x = ' ' then ([] : Str) else [x]) = [] := by
    rw [List.flatMap_eq_nil_iff]
    intro x hx
    rw [List.eq_of_mem_replicate hx]; rfl
  have h2 : ∀ C : Str, (∀ c ∈ C, c ≠ ' ') → C.flatMap (fun x => if x = ' ' then ([] : Str) else [x]) = C := by
    intro C hC
    induction C with
    | nil => rfl
    | cons c t ih =>
      rw [List.flatMap_cons, if_neg (hC c (by simp)), ih (fun d hd => hC d (by simp [hd]))]
      rfl
  rw [h1, h2 C ?_]
  · rfl
  · intro c hm e
    rw [e] at hm
    exact absurd (hc _ hm) (by decide)

end Epc
