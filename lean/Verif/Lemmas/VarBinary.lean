/-
The variable-length binary encodings (CPI-var and ADI-var): form, decoding, and when decoding an ADI goes wrong.
-/
import Verif.Lemmas.BinOk
import Verif.Lemmas.NewMore
import Verif.Spec.Six

namespace Epc
open Spec Re

/-! ### `re.split` with a group loses no character -/

theorem splitCapGo_skip_le {m : Str → Option Nat} : ∀ (k : Nat) (s : Str), k ≤ s.length → splitCapGo m k s = splitCapGo m 0 (s.drop k)
  | 0, s, _ => by simp
  | k + 1, [], h => by simp at h
  | k + 1, x :: s, h => by
    rw [splitCapGo, List.drop_succ_cons]
    exact splitCapGo_skip_le k s (by simpa using h)

theorem flatten_splitCapGo {m : Str → Option Nat} (hm : ∀ s n, m s = some n → 0 < n ∧ n ≤ s.length) :
    ∀ (l : Nat) (s : Str), s.length ≤ l → (splitCapGo m 0 s).flatten = s
  | l, [], _ => by simp [splitCapGo]
  | 0, x :: s, h => by simp at h
  | l + 1, x :: s, h => by
    have hl : s.length ≤ l := by simpa using h
    rw [splitCapGo]
    cases hmm : m (x :: s) with
    | none =>
      dsimp only
      have ih := flatten_splitCapGo hm l s hl
      cases hs : splitCapGo m 0 s with
      | nil => rw [hs] at ih; simp at ih; simp [← ih]
      | cons a t => rw [hs] at ih; simp at ih ⊢; exact ih
    | some n =>
      obtain ⟨h0, h1⟩ := hm _ _ hmm
      dsimp only
      simp only [List.length_cons] at h1
      rw [splitCapGo_skip_le _ _ (by omega), List.flatten_cons, List.flatten_cons,
        flatten_splitCapGo hm l _ (by simp; omega)]
      obtain ⟨k, rfl⟩ : ∃ k, n = k + 1 := ⟨n - 1, by omega⟩
      simp

theorem fixedMatch_length : ∀ {ps : List (Char → Bool)} {s : Str}, fixedMatch ps s = true → ps.length ≤ s.length
  | [], _, _ => by simp
  | _ :: _, [], h => by simp [fixedMatch] at h
  | p :: ps, c :: s, h => by
    simp only [fixedMatch, Bool.and_eq_true] at h
    have := fixedMatch_length h.2
    simpa using this

theorem flatten_splitCap {p : Char → Bool} {k : Nat} (hk : 0 < k) (s : Str) :
    (splitCap (fixedLen (List.replicate k p)) s).flatten = s := by
  refine flatten_splitCapGo ?_ _ s (Nat.le_refl _)
  intro s n h
  unfold fixedLen at h
  split at h
  · next hm =>
    have := fixedMatch_length hm
    simp at h this
    omega
  · cases h

/-! ### CPI-var -/

theorem CPI.serialLoop_true : ∀ l : List Str, CPI.serialLoop true l = l.flatten
  | [] => rfl
  | g :: gs => by simp [CPI.serialLoop, CPI.serialLoop_true gs]

theorem code6_ne_zero {c : Char} (h : c ∈ gs39) : bin 6 (c.toNat % 64) ≠ py "000000" :=
  (by decide +kernel : ∀ c ∈ gs39, bin 6 (c.toNat % 64) ≠ py "000000") c h

theorem CPI.serialLoop_code {raw : Str} (hr : ∀ c ∈ raw, c ∈ gs39) (tail : Str) :
    CPI.serialLoop false (splitCap (bitsLen 6) (code6 raw ++ (py "000000" ++ tail))) = tail := by
  induction raw with
  | nil =>
    show CPI.serialLoop false (splitCap (bitsLen 6) (py "000000" ++ tail)) = tail
    rw [splitCap_chunk (k := 5) rfl (by decide)]
    simp only [CPI.serialLoop, Bool.false_or]
    simp only [List.nil_append, decide_true, Bool.false_eq_true, if_false]
    rw [show decide (([] : Str) = py "000000") = false by decide]
    simp only [Bool.false_or, Bool.false_eq_true, if_false, List.nil_append]
    rw [CPI.serialLoop_true]
    exact flatten_splitCap (by decide) tail
  | cons c raw ih =>
    have hc := hr c (.head _)
    rw [code6_cons, List.append_assoc, splitCap_chunk (k := 5) (length_bin6 c) (isBit_of_Bits (Bits_bin _ _))]
    simp only [CPI.serialLoop]
    rw [show decide (([] : Str) = py "000000") = false by decide, decide_eq_false (code6_ne_zero hc)]
    simp only [Bool.or_false, Bool.false_eq_true, if_false, List.nil_append]
    exact ih fun c h => hr c (.tail _ h)

theorem length_le_escape39 (raw : Str) : raw.length ≤ (escape39 raw).length := by
  induction raw with
  | nil => simp
  | cons c raw ih =>
    rw [escape39_cons, List.length_append, List.length_cons]
    have := List.length_pos_iff.2 (escChar39_ne_nil c)
    omega

theorem rowByP_ok {t : List Row} (ht : TableOk t) {r : Row} (hr : r ∈ t) : rowByP t r.P = .ok r := by
  have h3 := (ht r hr).2.2
  cases hp : rowByP t r.P with
  | ok r' => rw [hp] at h3; exact h3
  | error e => rw [hp] at h3; cases e <;> cases h3

theorem CPI.binOk_cpiVar {u : Str} {x : CPI} (ha : Ascii u) (hu : CPI.new u = .ok x) :
    ∃ rest, 50 ≤ rest.length ∧
      BinOk x (x.binary .cpiVar) CPI.fromBinary (Coding.header .cpiVar) (fun f : Fin 8 => bin 3 f) rest := by
  obtain ⟨C, D, S, ⟨hC, hD, hS⟩, hlen, e, rfl⟩ := CPI.new_iff.1 hu
  obtain ⟨aC, aD, aS⟩ := ascii_uri3 (e ▸ ha)
  obtain ⟨raw, hne, hraw, rfl⟩ := (lang_cpref D).1 hD
  have hl := length_le_escape39 raw
  obtain ⟨r, hr, hrow, hL, _⟩ := rowByL_ok (t := CPI.tableVar) hlen.2.2.1 hlen.2.2.2 (by decide)
  have hall : ∀ r ∈ CPI.tableVar, r.K = 30 - r.L ∧ r.N = 6 * r.K + 6 ∧ r.L ≤ 12 := by decide
  have hr2 := hall r hr
  obtain ⟨p, p1, p2, p3, p5, p4⟩ := partition_sixBit (t := CPI.tableVar) (r := r) (raw := raw) (by decide) hr
    (digits_of_dec_ascii hC.2 aC) hL.symm hraw (by omega) hr2.2.1
  have nS := numeral_of_num hS aS
  obtain ⟨s1, s2⟩ := numeral_bin nS 40
  have hlt : number S < 2 ^ 40 := by
    refine Nat.lt_of_lt_of_le (number_lt nS.1) (Nat.le_trans (Nat.pow_le_pow_right (by decide) hlen.2.1) (by decide))
  have s3 : (bin 40 (number S)).length = 40 := length_bin (by omega) hlt
  refine ⟨p ++ bin 40 (number S), ?_, Bits_append.2 ⟨p2, Bits_bin _ _⟩, fun f => ?_, fun f tail => ?_⟩
  · have := List.length_pos_iff.2 hne
    simp; omega
  · unfold CPI.binary
    rw [filter_ok, ok_bind, if_neg (by decide)]
    dsimp only
    rw [p1, ok_bind, if_neg (by decide), s1, ok_bind, pure_ok]
    simp
  · have hf := length_bin3 f
    have hh : (Coding.header .cpiVar).length = 8 := rfl
    unfold CPI.fromBinary
    rw [parseHeader_frame_var (cs := Coding.cpiVar) (p := py "cpi") (sz := py "var") rfl (by decide) (by decide) (by decide),
      ok_bind]
    dsimp only
    simp only [List.append_assoc]
    have hdp : CPI.decodeParts .cpiVar (Coding.header .cpiVar ++ (bin 3 f ++ (p ++ (bin 40 (number S) ++ tail)))) =
        .ok (C ++ '.' :: escape39 raw, bin 40 (number S)) := by
      have l3 : (bin 3 r.P).length = 3 := (length_partition ((by decide : TableOk CPI.tableVar) r hr).1
        (digits_of_dec_ascii hC.2 aC) hL.symm).1
      have lM : (bin r.M (number C)).length = r.M := (length_partition ((by decide : TableOk CPI.tableVar) r hr).1
        (digits_of_dec_ascii hC.2 aC) hL.symm).2
      unfold CPI.decodeParts
      rw [if_neg (by decide)]
      dsimp only
      rw [drop_append2 (by omega), p4, ok_bind]
      have e1 : (p ++ (bin 40 (number S) ++ tail)).take 3 = bin 3 r.P := by
        rw [p5]; simp only [List.append_assoc]; exact take_append_eq l3
      have e2 : (Coding.header .cpiVar ++ (bin 3 f ++ (p ++ (bin 40 (number S) ++ tail)))).drop (11 + 3 + r.M) =
          code6 raw ++ (py "000000" ++ (bin 40 (number S) ++ tail)) := by
        rw [show 11 + 3 + r.M = 11 + (3 + r.M) by omega, ← List.drop_drop, drop_append2 (by omega), p5]
        simp only [List.append_assoc]
        exact drop_append2 (by omega)
      rw [e1, binaryToInt_bin, ok_bind, rowByP_ok (by decide) hr, ok_bind, e2, CPI.serialLoop_code hraw, pure_ok,
        if_pos (by simp; omega), take_append_eq s3]
    rw [hdp, ok_bind]
    dsimp only
    rw [slice_append (by omega) (by omega), binaryToInt_bin, ok_bind, s2, ok_bind, intStr_ofNat]
    refine Eq.trans (congrArg _ ?_) (CPI.fromTagUri_of_new (cs := .cpiVar) (f := natStr f)
      (b := C ++ '.' :: (escape39 raw ++ '.' :: S)) (num_natStr _) (by rw [← hu, e]; rfl))
    simp

/-! ### ADI-var -/

theorem sliceToI_neg (s : Str) (k : Nat) (hk : 0 < k) (h : k ≤ s.length) : sliceToI s (-(k : Int)) = s.take (s.length - k) := by
  unfold sliceToI clampIdx
  rw [if_pos (by omega)]
  congr 1
  omega

theorem cage_six {C : Str} (h : Lang Rx.cage C) :
    ∃ b, encodeCageCodeSixBits C = .ok b ∧ Bits b ∧ b.length = 36 ∧ decodeCageCodeSixBits b = .ok C := by
  obtain ⟨hl, hc⟩ := (lang_cage C).1 h
  have hg : ∀ c ∈ C, c ∈ gs39 := fun c h => (isCage_facts (hc c h)).1
  have he := encodeSix_escape hg
  rw [escape39_cage hc] at he
  have h6 : (py "000000").length = 6 := rfl
  have ht : sliceToI (code6 C ++ py "000000") (-6) = code6 C := by
    rw [show (-6 : Int) = -((6 : Nat) : Int) from rfl, sliceToI_neg _ _ (by decide) (by simp)]
    exact take_append_eq (by simp)
  have hd : decodeStringSixBits (code6 C) 6 = .ok C := by
    have := decodeSixLoop_code (tail := []) hg (decodeSixLoop_short (by decide))
    rw [List.append_nil] at this
    rw [decodeSix_of_loop this hl.2, escape39_cage hc]
  have hlc := length_code6 C
  have henc : encodeCageCodeSixBits C = .ok (if (code6 C).length = 30 then py "100000" ++ code6 C else code6 C) := by
    unfold encodeCageCodeSixBits
    rw [he, ok_bind, ht, pure_ok]
  by_cases h5 : C.length = 5
  · rw [if_pos (by omega)] at henc
    refine ⟨_, henc, Bits_append.2 ⟨by unfold Bits; decide, Bits_code6 _⟩, by simp; omega, ?_⟩
    unfold decodeCageCodeSixBits
    rw [if_pos (by unfold startsWith; simp), drop_append_eq (by rfl)]
    exact hd
  · rw [if_neg (by omega)] at henc
    refine ⟨_, henc, Bits_code6 _, by omega, ?_⟩
    unfold decodeCageCodeSixBits
    rw [if_neg]
    · exact hd
    · cases C with
      | nil => simp at hl
      | cons c C =>
        have : ∀ c ∈ gs39, c ≠ '#' → bin 6 (c.toNat % 64) ≠ py "100000" := by decide +kernel
        have h1 := this c (hg c (.head _)) (isCage_facts (hc c (.head _))).2.1
        intro hs
        unfold startsWith at hs
        rw [List.isPrefixOf_iff_prefix, code6_cons] at hs
        obtain ⟨t, ht⟩ := hs
        have := congrArg (List.take 6) ht
        rw [take_append_eq (by rfl), take_append_eq (length_bin6 c)] at this
        exact h1 this.symm

/-- Six consecutive zeros occur in the string. -/
abbrev SixZeros (s : Str) : Prop := py "000000" <:+: s

theorem fixedMatch_replicate_iff {p : Char → Bool} : ∀ {k : Nat} {s : Str},
    fixedMatch (List.replicate k p) s = true ↔ k ≤ s.length ∧ ∀ c ∈ s.take k, p c = true
  | 0, s => by simp [fixedMatch]
  | k + 1, [] => by simp [fixedMatch, List.replicate_succ]
  | k + 1, c :: s => by
    rw [List.replicate_succ, fixedMatch, Bool.and_eq_true, fixedMatch_replicate_iff]
    simp
    constructor <;> (rintro ⟨a, b, c⟩; exact ⟨b, a, c⟩)

theorem zeros_eq : ∀ {s : Str} {k : Nat}, s.length = k → (∀ c ∈ s, (c == '0') = true) → s = List.replicate k '0'
  | [], k, h, _ => by simp at h; subst h; rfl
  | c :: s, k, h, hc => by
    have h0 : c = '0' := by simpa using hc c (.head _)
    cases k with
    | zero => simp at h
    | succ k => rw [List.replicate_succ, h0, zeros_eq (s := s) (k := k) (by simpa using h) fun c h => hc c (.tail _ h)]

theorem ADI.zerosLen_some {s : Str} : ADI.zerosLen s = (if py "000000" <+: s then some 6 else Option.none) := by
  unfold ADI.zerosLen fixedLen
  by_cases h : fixedMatch (List.replicate 6 (· == '0')) s = true
  · rw [if_pos h, if_pos]
    · simp
    · obtain ⟨h1, h2⟩ := fixedMatch_replicate_iff.1 h
      rw [List.prefix_iff_eq_take]
      exact (zeros_eq (k := 6) (by simp; omega) h2).symm
  · rw [if_neg h, if_neg]
    rintro ⟨t, rfl⟩
    exact h (fixedMatch_replicate_iff.2 ⟨by simp, by intro c hc; rw [take_append_eq (by rfl)] at hc; revert c; decide⟩)

/-- Splitting at the first six zeros. -/
theorem ADI.split_first {a t : Str} (h : ¬ SixZeros (a ++ py "00000")) :
    splitCap ADI.zerosLen (a ++ (py "000000" ++ t)) = a :: py "000000" :: splitCap ADI.zerosLen t := by
  induction a with
  | nil =>
    show splitCapGo _ 0 ('0' :: (py "00000" ++ t)) = _
    rw [splitCapGo, ADI.zerosLen_some, if_pos ⟨t, rfl⟩]
    dsimp only
    rw [splitCapGo_skip_le _ _ (by simp)]
    rfl
  | cons x a ih =>
    have h' : ¬ SixZeros (a ++ py "00000") := fun hh => h (by
      obtain ⟨p, q, e⟩ := hh
      exact ⟨x :: p, q, by rw [List.cons_append, List.cons_append, List.cons_append, e]⟩)
    have hn : ¬ (py "000000" <+: x :: (a ++ (py "000000" ++ t))) := by
      intro hp
      apply h
      have hlen : (py "000000").length ≤ (x :: a ++ py "00000").length := by simp
      have hp2 : (x :: a ++ py "00000") <+: x :: (a ++ (py "000000" ++ t)) := ⟨'0' :: t, by simp⟩
      exact (List.prefix_of_prefix_length_le hp hp2 hlen).isInfix
    show splitCapGo _ 0 (x :: (a ++ (py "000000" ++ t))) = _
    have ih' := ih h'
    unfold splitCap at ih'
    rw [splitCapGo, ADI.zerosLen_some, if_neg hn]
    dsimp only
    rw [ih']
    rfl

theorem bits_any {a : Str} (h : Bits a) : ∀ c ∈ a, anyChar c = true := by
  intro c hc
  have := h c hc
  unfold anyChar
  rcases this with rfl | rfl <;> decide

theorem ADI.hasTerminator_of {a t : Str} (h : Bits a) : ADI.hasTerminator (a ++ (py "000000" ++ t)) = true := by
  unfold ADI.hasTerminator
  rw [matchPrefix_iff]
  refine ⟨a ++ py "000000", t, by simp, ?_⟩
  simp only [Re.seqs, Lang]
  refine ⟨a, py "000000", rfl, (lang_cls_star _ _).2 (bits_any h), py "000000", [], by simp, ?_, ?_⟩
  · rw [lang_plus]
    refine ⟨py "000000", [], by simp, ?_, .nil⟩
    exact (lang_rep_cls (· == '0') 6 (py "000000")).2 (by decide)
  · first | exact (lang_cls_star _ _).2 (by simp) | skip

/-- The form of an ADI binary and of its decoding. -/
theorem code6_sixBits {raw : Str} (h : ∀ c ∈ raw, c ∈ gs39) : code6 raw = sixBits raw := by
  have hall : ∀ c ∈ gs39, bin 6 (c.toNat % 64) = sixBit c := by decide +kernel
  induction raw with
  | nil => rfl
  | cons c raw ih =>
    rw [code6_cons, ih fun c h' => h c (.tail _ h'), hall c (h c (.head _))]
    rfl

/-- Six zeros too early make the first text of the split a proper prefix. -/
theorem ADI.split_early {a t : Str} (h : SixZeros (a ++ py "00000")) :
    ∃ k r, k < a.length ∧ splitCap ADI.zerosLen (a ++ (py "000000" ++ t)) = a.take k :: r ∧ r ≠ [] := by
  induction a with
  | nil => exact absurd h (by decide)
  | cons x a ih =>
    by_cases hp : py "000000" <+: x :: (a ++ (py "000000" ++ t))
    · have e : splitCapGo ADI.zerosLen 0 (x :: (a ++ (py "000000" ++ t))) = [] :: (x :: (a ++ (py "000000" ++ t))).take 6 ::
          splitCapGo ADI.zerosLen (6 - 1) (a ++ (py "000000" ++ t)) := by
        rw [splitCapGo, ADI.zerosLen_some, if_pos hp]
      exact ⟨0, _, by simp, e, by simp⟩
    · have hp2 : (x :: a ++ py "00000") <+: x :: (a ++ (py "000000" ++ t)) := ⟨'0' :: t, by simp⟩
      have h' : SixZeros (a ++ py "00000") := by
        rw [SixZeros, List.cons_append, List.infix_cons_iff] at h
        rcases h with h | h
        · exact absurd (h.trans hp2) hp
        · exact h
      obtain ⟨k, r, hk, e, hr⟩ := ih h'
      refine ⟨k + 1, r, by simp; omega, ?_, hr⟩
      show splitCapGo _ 0 (x :: (a ++ (py "000000" ++ t))) = _
      unfold splitCap at e
      rw [splitCapGo, ADI.zerosLen_some, if_neg hp, e]
      rfl

theorem take_code6 (raw : Str) (k : Nat) (hk : k ≤ 6 * raw.length) :
    ∃ s, (code6 raw).take k = code6 (raw.take (k / 6)) ++ s ∧ s.length < 6 := by
  induction raw generalizing k with
  | nil => simp at hk; subst hk; exact ⟨[], rfl, by decide⟩
  | cons c raw ih =>
    by_cases h6 : k < 6
    · refine ⟨(code6 (c :: raw)).take k, ?_, by simp; omega⟩
      rw [Nat.div_eq_of_lt h6]; rfl
    · obtain ⟨s, e, hs⟩ := ih (k - 6) (by simp at hk; omega)
      refine ⟨s, ?_, hs⟩
      obtain ⟨j, rfl⟩ : ∃ j, k = j + 6 := ⟨k - 6, by omega⟩
      rw [show (j + 6) / 6 = j / 6 + 1 by omega, List.take_succ_cons, code6_cons, code6_cons, List.append_assoc]
      rw [Nat.add_sub_cancel] at e
      rw [← e]
      have := slice_take_append (a := bin 6 (c.toNat % 64)) (b := code6 raw) (n := j + 6) (by rw [length_bin6]; omega)
      rw [this, length_bin6, Nat.add_sub_cancel]

theorem ADI.parts {u : Str} {x : ADI} (hu : ADI.new u = .ok x) : ∃ rp rs, (∀ c ∈ rp, c ∈ gs39 ∧ c ≠ '#') ∧ (∀ c ∈ rs, c ∈ gs39) ∧
    Lang Rx.cage x.cage ∧ x.partNumber = escape39 rp ∧ x.serial = escape39 rs ∧ rp.length ≤ 32 ∧ 1 ≤ rs.length ∧ rs.length ≤ 30 ∧
    u = py "urn:epc:id:adi:" ++ (x.cage ++ '.' :: (x.partNumber ++ '.' :: x.serial)) ∧ x.epcUri = u := by
  obtain ⟨C, D, S, ⟨hC, hD, hS⟩, hlen, e, rfl⟩ := ADI.new_iff.1 hu
  obtain ⟨rp, hrp, rfl⟩ := (lang_adiPart D).1 hD
  obtain ⟨rs, _, hrs, _, rfl⟩ := (lang_adiSerial S).1 hS
  have g : ∀ c ∈ rp, c ∈ gs39 := fun c h => (hrp c h).1
  rw [replace_2F g, flatMap_escHash_of_no_hash fun h => (hrp _ h).2 rfl, replace_2F hrs, replace_23 hrs] at hlen
  exact ⟨rp, rs, hrp, hrs, hC, rfl, rfl, hlen.1, hlen.2.1, hlen.2.2, by rw [e]; rfl, rfl⟩

/-- Decoding of the trimmed serial, whatever follows the encoding. -/
theorem ADI.decode_serial {rs : Str} (hrs : ∀ c ∈ rs, c ∈ gs39) (hl : rs.length ≤ 30) (tail : Str) :
    decodeStringSixBits (sliceToI (code6 rs ++ (py "000000" ++ tail)) (-6)) 30 = .ok (escape39 rs) := by
  have e : sliceToI (code6 rs ++ (py "000000" ++ tail)) (-6) = code6 rs ++ (py "000000" ++ tail).take tail.length := by
    have h6 : (py "000000").length = 6 := rfl
    rw [show (-6 : Int) = -((6 : Nat) : Int) from rfl, sliceToI_neg _ _ (by decide) (by simp; omega), slice_take_append (by simp; omega)]
    congr 2
    simp
    omega
  rw [e]
  refine decodeSix_of_loop (decodeSixLoop_code hrs ?_) hl
  by_cases h : tail.length < 6
  · exact decodeSixLoop_short (by simp; omega)
  · rw [slice_take_append (by simp; omega)]
    exact decodeSixLoop_term _

theorem ADI.binary_form {u : Str} {x : ADI} (hu : ADI.new u = .ok x) {rp rs : Str} (hrp : ∀ c ∈ rp, c ∈ gs39) (hrs : ∀ c ∈ rs, c ∈ gs39)
    (ep : x.partNumber = escape39 rp) (es : x.serial = escape39 rs) :
    ∃ cb, Bits cb ∧ cb.length = 36 ∧ decodeCageCodeSixBits cb = .ok x.cage ∧ ∀ f, x.binary .adiVar f =
      .ok (Coding.header .adiVar ++ (bin 6 f ++ (cb ++ (code6 rp ++ (py "000000" ++ (code6 rs ++ py "000000")))))) := by
  obtain ⟨_, _, _, _, hC, _⟩ := ADI.parts hu
  obtain ⟨cb, c1, c2, c3, c4⟩ := cage_six hC
  refine ⟨cb, c2, c3, c4, fun f => ?_⟩
  unfold ADI.binary
  rw [filter_ok, ok_bind, c1, ok_bind, ep, encodeSix_escape hrp, ok_bind, es, encodeSix_escape hrs, ok_bind, pure_ok]
  simp

theorem ADI.binOk_adiVar {u : Str} {x : ADI} (hu : ADI.new u = .ok x) {rp : Str} (hp : ∀ c ∈ rp, c ∈ gs39)
    (ep : x.partNumber = escape39 rp) (hz : ¬ EarlyTerminator rp) :
    ∃ rest, 54 ≤ rest.length ∧
      BinOk x (x.binary .adiVar) ADI.fromBinary (Coding.header .adiVar) (fun f : Fin 64 => bin 6 f) rest := by
  obtain ⟨_, rs, _, hrs, hC, _, es, _, hs1, hs2, e, ex⟩ := ADI.parts hu
  obtain ⟨cb, c2, c3, c4, c1⟩ := ADI.binary_form hu hp hrs ep es
  have hz' : ¬ SixZeros (code6 rp ++ py "00000") := by rw [code6_sixBits hp]; exact hz
  have hb6 : Bits (py "000000") := by unfold Bits; decide
  have l1 := length_code6 rp
  have l2 := length_code6 rs
  have hplen : rp.length ≤ 32 := by
    obtain ⟨rp', _, h1, _, _, h2, _, h3, _⟩ := ADI.parts hu
    have g : ∀ c ∈ rp', c ∈ gs39 := fun c h => (h1 c h).1
    have := replace_2F g
    have h4 := replace_23 g
    rw [← this, ← h2, ep, replace_2F hp, replace_23 hp] at h4
    rw [h4]; exact h3
  refine ⟨cb ++ (code6 rp ++ (py "000000" ++ (code6 rs ++ py "000000"))), by simp; omega,
    Bits_append.2 ⟨c2, Bits_append.2 ⟨Bits_code6 _, Bits_append.2 ⟨hb6, Bits_append.2 ⟨Bits_code6 _, hb6⟩⟩⟩⟩, c1, fun f tail => ?_⟩
  have hf : (bin 6 f).length = 6 := length_bin (by omega) (by have := f.isLt; omega)
  have hh : (Coding.header .adiVar).length = 8 := rfl
  unfold ADI.fromBinary
  rw [parseHeader_frame_var (cs := Coding.adiVar) (p := py "adi") (sz := py "var") rfl (by decide) (by decide) (by decide),
    ok_bind]
  dsimp only
  simp only [List.append_assoc]
  rw [drop_append3 (by omega), guard_true (ADI.hasTerminator_of (Bits_code6 _)), ok_bind, ADI.split_first hz']
  simp only [unpack2s, ok_bind]
  have hfl : (splitCap ADI.zerosLen (code6 rs ++ (py "000000" ++ tail))).flatten = code6 rs ++ (py "000000" ++ tail) :=
    flatten_splitCap (by decide) _
  rw [hfl, slice_append (by omega) (by omega), binaryToInt_bin, ok_bind, slice_append2 (by omega) (by omega), c4, ok_bind]
  have hdp := decodeSixLoop_code (tail := []) hp (decodeSixLoop_short (by decide))
  rw [List.append_nil] at hdp
  rw [decodeSix_of_loop hdp hplen, ok_bind, ADI.decode_serial hrs hs2, ok_bind, intStr_ofNat]
  refine Eq.trans (congrArg _ ?_) (ADI.fromTagUri_of_new (cs := .adiVar) (f := natStr f)
    (b := x.cage ++ '.' :: (x.partNumber ++ '.' :: x.serial)) (num_natStr _) (by rw [← hu, e]))
  simp [ep, es]

/-- Six zeros too early: decoding never gives the identifier back. -/
theorem ADI.fromBinary_early {u : Str} {x : ADI} (hu : ADI.new u = .ok x) {rp : Str} (hp : ∀ c ∈ rp, c ∈ gs39)
    (ep : x.partNumber = escape39 rp) (hz : EarlyTerminator rp) (f : Fin 64) (tail : Str) {b : Str}
    (hb : x.binary .adiVar f = .ok b) : ADI.fromBinary (b ++ tail) ≠ .ok x := by
  obtain ⟨_, rs, _, hrs, hC, _, es, _, hs1, hs2, e, ex⟩ := ADI.parts hu
  obtain ⟨cb, c2, c3, c4, c1⟩ := ADI.binary_form hu hp hrs ep es
  rw [c1] at hb
  injection hb with hb
  subst hb
  have hz' : SixZeros (code6 rp ++ py "00000") := by rw [code6_sixBits hp]; exact hz
  have hf : (bin 6 f).length = 6 := length_bin (by omega) (by have := f.isLt; omega)
  have hh : (Coding.header .adiVar).length = 8 := rfl
  unfold ADI.fromBinary
  rw [parseHeader_frame_var (cs := Coding.adiVar) (p := py "adi") (sz := py "var") rfl (by decide) (by decide) (by decide),
    ok_bind]
  dsimp only
  simp only [List.append_assoc]
  obtain ⟨k, r, hk, hsp, hr⟩ := ADI.split_early (t := code6 rs ++ (py "000000" ++ tail)) hz'
  rw [length_code6] at hk
  rw [drop_append3 (by omega), guard_true (ADI.hasTerminator_of (Bits_code6 _)), ok_bind, hsp]
  cases r with
  | nil => exact absurd rfl hr
  | cons r0 r =>
    simp only [unpack2s, ok_bind]
    rw [slice_append (by omega) (by omega), binaryToInt_bin, ok_bind, slice_append2 (by omega) (by omega), c4, ok_bind]
    obtain ⟨s, es', hs⟩ := take_code6 rp k (by omega)
    rw [es']
    have hp' : ∀ c ∈ rp.take (k / 6), c ∈ gs39 := fun c h => hp c (List.mem_of_mem_take h)
    have hdp := decodeSixLoop_code (tail := s) hp' (decodeSixLoop_short hs)
    intro hc
    cases hd1 : decodeStringSixBits (code6 (rp.take (k / 6)) ++ s) 32 with
    | error er => rw [hd1] at hc; cases hc
    | ok part =>
      rw [hd1, ok_bind] at hc
      have hpart : part = escape39 (rp.take (k / 6)) := by
        unfold decodeStringSixBits at hd1
        rw [hdp, ok_bind] at hd1
        split at hd1
        · cases hd1
        · rw [pure_ok, replace39] at hd1
          injection hd1 with h; exact h.symm
      cases hd2 : decodeStringSixBits (sliceToI r.flatten (-6)) 30 with
      | error er => rw [hd2] at hc; cases hc
      | ok ser =>
        rw [hd2, ok_bind] at hc
        obtain ⟨cs, g, b, hg, ht, hx⟩ := ADI.fromTagUri_iff.1 hc
        cases cs
        have hb : b = x.cage ++ '.' :: (x.partNumber ++ '.' :: x.serial) := by
          have h1 := (ADI.uri_of_new hx).1
          rw [ex, e] at h1
          exact (List.append_cancel_left h1).symm
        have hcd : '.' ∉ x.cage := fun h => by
          have := (isCage_facts (((lang_cage _).1 hC).2 _ h)).1
          revert this; decide
        rw [intStr_ofNat] at ht
        simp only [List.append_assoc, List.cons_append] at ht
        have ht1 := List.append_cancel_left (List.append_cancel_left ht)
        injection ht1 with _ ht2
        obtain ⟨_, ht3⟩ := append_sep_inj (num_natStr _).dec.no_dot hg.dec.no_dot ht2
        rw [hb] at ht3
        obtain ⟨_, ht4⟩ := append_sep_inj hcd hcd ht3
        obtain ⟨ht5, _⟩ := append_sep_inj (hpart ▸ escape39_no_dot hp') (ep ▸ escape39_no_dot hp) ht4
        rw [hpart, ep] at ht5
        have h6 := congrArg (fun s => replaceAll (py "%23") (py "#") (replaceAll (py "%2F") (py "/") s)) ht5
        rw [replace_2F hp', replace_23 hp', replace_2F hp, replace_23 hp] at h6
        have := congrArg List.length h6
        simp at this
        omega

end Epc
