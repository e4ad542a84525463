/-
Decoding of text fields.
-/
import Verif.Lemmas.Layout
import Verif.Lemmas.Elem

namespace Epc
open Spec Re

theorem decodeString_spec {b : Str} (hB : Bits b) (k : Nat) : ∀ lo n, lo + n ≤ b.length → 7 * k ≤ n → n < 7 * k + 7 →
    decodeString ((b.drop lo).take n) = .ok (escape (sevenText b lo k)) := by
  induction k with
  | zero =>
    intro lo n hl _ h2
    unfold decodeString
    rw [findAll_short (by rw [field_length hl]; omega) (bits_take (bits_drop hB lo) n)]
    rfl
  | succ k ih =>
    intro lo n hl h1 h2
    have e := ih (lo + 7) (n - 7) (by omega) (by omega) (by omega)
    have hb : ((b.drop lo).take 7).length = 6 + 1 := field_length (by omega)
    have hbits : Bits ((b.drop lo).take 7) := bits_take (bits_drop hB lo) 7
    have hlt := bitField_lt hB (lo := lo) (k := 7) (by omega)
    have hsp : (b.drop lo).take n = (b.drop lo).take 7 ++ (b.drop (lo + 7)).take (n - 7) := by
      rw [show n = 7 + (n - 7) by omega, List.take_add, List.drop_drop, show 7 + (n - 7) - 7 = n - 7 by omega]
    have key : ∀ n : Fin 128, decodeBinaryChar (bin 7 n) = .ok (if n.val = 0 then [] else escChar (Char.ofNat n)) := by decide +kernel
    have k1 := key ⟨bitField b lo 7, hlt⟩
    dsimp only at k1
    rw [show bin 7 (bitField b lo 7) = (b.drop lo).take 7 from bin_bitsNumber hbits hb (by decide)] at k1
    have hall : Bits ((b.drop lo).take 7 ++ (b.drop (lo + 7)).take (n - 7)) := by rw [← hsp]; exact bits_take (bits_drop hB lo) n
    unfold decodeString at *
    rw [hsp, findAll_chunk hb hall]
    cases hq : (findAll (fixedLen (List.replicate (6 + 1) anyChar)) ((b.drop (lo + 7)).take (n - 7))).mapM decodeBinaryChar with
    | error e' => rw [hq] at e; cases e
    | ok r =>
      rw [hq] at e
      have e : Except.ok r.flatten = Except.ok (ε := Err) (escape (sevenText b (lo + 7) k)) := e
      injection e with e
      rw [mapM_cons_ok k1 hq]
      show Except.ok _ = _
      rw [List.flatten_cons, e, sevenText]
      by_cases h0 : bitField b lo 7 = 0
      · rw [if_pos h0, if_pos h0]; rfl
      · rw [if_neg h0, if_neg h0]; rfl

theorem sevenText_length (b : Str) (k : Nat) : ∀ lo, (sevenText b lo k).length ≤ k := by
  induction k with
  | zero => intro lo; exact Nat.le_refl 0
  | succ k ih =>
    intro lo
    rw [sevenText]
    have := ih (lo + 7)
    split
    · omega
    · rw [List.length_cons]; omega

theorem gs82_of_lang {raw : Str} (h : Lang Rx.gs3a3 (escape raw)) : (∀ c ∈ raw, c ∈ gs82) ∧ raw ≠ [] := by
  refine ⟨fun c hc => Classical.byContradiction fun hn => ?_, ?_⟩
  · have hmem : c ∈ escape raw := by
      refine List.mem_flatMap.2 ⟨c, hc, ?_⟩
      have hall : ∀ d ∈ py "\"%&/<>?", d ∈ gs82 := by decide
      unfold escChar
      repeat' split
      all_goals first
        | exact List.mem_singleton_self c
        | (exact absurd (hall c (by subst_vars; decide)) hn)
    exact hn (gs3a3_gs82 h c hmem)
  · rintro rfl
    exact gs3a3_ne_nil h rfl

/-- What decoding does after the fields have been read. -/
theorem text_outcome {α : Type} {fb n : Except Err α} {m : Bool} {uri : α → Str} {u raw head : Str} {L : Prop}
    (e : fb = if m = true then n else .error .convert)
    (hok : (∀ c ∈ raw, c ∈ gs82) → head ≠ [] → LoneLetterEscapes head → L → ∃ x, fb = .ok x ∧ uri x = u)
    (hraw : (∀ c ∈ raw, c ∈ gs82) → ∀ c ∈ head, c ∈ gs82)
    (hinv : ∀ x, n = .ok x → Lang Rx.gs3a3 (escape raw) ∧ verifyGs3a3 (escape head) = .ok () ∧ L)
    (herr : ∀ e, n = .error e → e = .convert ∨ (Lang Rx.gs3a3 (escape raw) ∧ verifyGs3a3 (escape head) = .error e)) :
    ((∀ c ∈ raw, c ∈ gs82) → head ≠ [] → LoneLetterEscapes head → L → ∃ x, fb = .ok x ∧ uri x = u) ∧
    (¬ ((∀ c ∈ raw, c ∈ gs82) ∧ head ≠ [] ∧ (LoneLetterEscapes head → L)) → fb = .error .convert) ∧
    (¬ LoneLetterEscapes head → ∃ e, fb = .error e ∧ (e = .convert ∨ e = .value ∨ e = .overflow)) := by
  have hnil : ∀ {r}, verifyGs3a3 [] = r → r = .error .convert := fun h => by rw [← h]; decide
  refine ⟨hok, fun hno => ?_, fun hlone => ?_⟩
  · rw [e]
    split
    · cases hn : n with
      | ok x =>
        exfalso
        obtain ⟨h1, h2, h3⟩ := hinv x hn
        refine hno ⟨(gs82_of_lang h1).1, ?_, fun _ => h3⟩
        rintro rfl
        exact absurd (hnil h2) (by decide)
      | error e' =>
        rcases herr e' hn with rfl | ⟨h1, h2⟩
        · rfl
        · by_cases hh : head = []
          · subst hh
            have := hnil h2
            injection this with this
            rw [this]
          · have hl : LoneLetterEscapes head ∧ ¬ L := by
              refine Classical.byContradiction fun hc => hno ⟨(gs82_of_lang h1).1, hh, fun hlone => ?_⟩
              exact Classical.byContradiction fun hL => hc ⟨hlone, hL⟩
            have := (verify_escape_iff (hraw (gs82_of_lang h1).1) hh).2 hl.1
            rw [this] at h2
            cases h2
    · rfl
  · rw [e]
    split
    · cases hn : n with
      | ok x =>
        exfalso
        obtain ⟨h1, h2, h3⟩ := hinv x hn
        have hh : head ≠ [] := by rintro rfl; exact absurd (hnil h2) (by decide)
        exact hlone ((verify_escape_iff (hraw (gs82_of_lang h1).1) hh).1 h2)
      | error e' =>
        refine ⟨e', rfl, ?_⟩
        rcases herr e' hn with rfl | ⟨h1, h2⟩
        · exact .inl rfl
        · exact verify_error h2
    · exact ⟨_, rfl, .inl rfl⟩

theorem escChar_no_colon {c : Char} (h : c ≠ ':') : ':' ∉ escChar c := by
  unfold escChar
  repeat' split
  all_goals first
    | decide
    | (intro hm; exact h (List.mem_singleton.1 hm).symm)

theorem split_escape_colon (raw : Str) : (split ':' (escape raw)).headD [] = escape (raw.takeWhile (· ≠ ':')) := by
  have hno : ∀ s : Str, (∀ c ∈ s, c ≠ ':') → ':' ∉ escape s := by
    intro s hs hm
    obtain ⟨c, hc, h⟩ := List.mem_flatMap.1 hm
    exact escChar_no_colon (hs c hc) h
  have h1 : ':' ∉ escape (raw.takeWhile (· ≠ ':')) := hno _ fun c hc => by
    have := List.all_takeWhile (p := (· ≠ ':')) (l := raw)
    rw [List.all_eq_true] at this
    simpa using this c hc
  have e : escape raw = escape (raw.takeWhile (· ≠ ':')) ++ escape (raw.dropWhile (· ≠ ':')) := by
    have := congrArg escape (List.takeWhile_append_dropWhile (p := (· ≠ ':')) (l := raw))
    rw [← this]
    unfold escape
    rw [List.flatMap_append]
  rw [e]
  cases hd : raw.dropWhile (· ≠ ':') with
  | nil => 
    rw [show escape [] = [] from rfl, List.append_nil, split_notMem h1]; rfl
  | cons c t =>
    have hc : c = ':' := by
      have := List.head?_dropWhile_not (fun x => decide (x ≠ ':')) raw
      rw [hd] at this
      simpa using this
    subst hc
    have h2 : (split ':' (':' :: escape t)).headD [] = [] := by rw [split_cons_sep]; rfl
    rw [show escape (':' :: t) = ':' :: escape t from rfl, split_append_of_notMem h1, h2, List.append_nil]; rfl

theorem textFields_decode {t : List Row} {W : Nat} (ht : StdTable t) (hK : ∀ r ∈ t, 3 + r.M + r.N = W)
    {b : Str} (hB : Bits b) (hl : 11 + W ≤ b.length) (hW : 3 ≤ W) :
    (∀ C raw, TextFields b W C raw → decodePartitionTable ((b.drop 11).take W) t .string = .ok (C ++ '.' :: escape raw)) ∧
    ((¬ ∃ C raw, TextFields b W C raw) → decodePartitionTable ((b.drop 11).take W) t .string = .error .convert) := by
  have hF : Bits ((b.drop 11).take W) := bits_take (bits_drop hB 11) W
  have hFl : ((b.drop 11).take W).length = W := field_length (by omega)
  have hf3 : ((b.drop 11).take W).take 3 = (b.drop 11).take 3 := field_take hW
  have main : ∀ p ≤ 6, bitField b 11 3 = p → decodePartitionTable ((b.drop 11).take W) t .string =
      if 10 ^ (12 - p) ≤ bitField b 14 (prefixBits (12 - p)) then .error .convert
      else .ok (padLeft '0' (12 - p) (natStr (bitField b 14 (prefixBits (12 - p)))) ++ '.' ::
        escape (sevenText b (14 + prefixBits (12 - p)) ((W - 3 - prefixBits (12 - p)) / 7))) := by
    intro p hp6 hp
    obtain ⟨r, hr, rfl⟩ := ht.row hp6
    obtain ⟨e1, e2⟩ := ht.2.2.1 r hr
    have e4 := hK r hr
    have hN : W - 3 - r.M = r.N := by omega
    rw [decodePartition_start ht.1 hr hF (by omega) (by rw [hf3]; exact hp), ← e2, ← e1, hN]
    rw [field_field (by omega), field_field (by omega), ← Nat.add_assoc, decodeRef]
    rw [decodeString_spec hB (r.N / 7) (14 + r.M) r.N (by omega) (by omega) (by omega), ok_bind]
    show (if 10 ^ r.L ≤ bitField b 14 r.M then _ else _) = _
    split
    · rfl
    · show (refTooLarge _ r false >>= _) = _
      have : ∀ D, refTooLarge D r false = .ok false := fun D => by
        unfold refTooLarge
        simp
      rw [this, ok_bind]
      simp only [Bool.false_eq_true, if_false]
      rw [if_neg (by decide), show ∀ s : Str, padLeft (Char.ofNat 48) 0 s = s from fun s => by unfold padLeft; rw [Nat.zero_sub]; rfl]
      rfl
  constructor
  · rintro C raw ⟨p, hp6, hp, hC, rfl⟩
    rw [main p hp6 hp]
    obtain ⟨hC1, rfl⟩ := (padded_iff (by omega)).1 hC
    rw [if_neg (by omega)]
  · intro hno
    by_cases h7 : bitField b 11 3 ≤ 6
    · rw [main _ h7 rfl]
      by_cases hc : 10 ^ (12 - bitField b 11 3) ≤ bitField b 14 (prefixBits (12 - bitField b 11 3))
      · rw [if_pos hc]
      · exact absurd ⟨_, _, _, h7, rfl, (padded_iff (by omega)).2 ⟨by omega, rfl⟩, rfl⟩ hno
    · have h8 : bitField b 11 3 < 2 ^ 3 := bitField_lt hB (by omega)
      exact reject7 ht hF (by omega) (by rw [hf3]; show bitField b 11 3 = 7; omega)

end Epc
