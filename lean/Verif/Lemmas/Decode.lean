/-
Decoding arbitrary bit strings.
-/
import Verif.Lemmas.Frame
import Verif.Lemmas.Shape

namespace Epc
open Spec

theorem bits_take {b : Str} (h : Bits b) (n : Nat) : Bits (b.take n) := fun c hc => h c (List.mem_of_mem_take hc)
theorem bits_drop {b : Str} (h : Bits b) (n : Nat) : Bits (b.drop n) := fun c hc => h c (List.mem_of_mem_drop hc)

theorem slice_eq (b : Str) (lo hi : Nat) : slice b lo hi = (b.drop lo).take (hi - lo) := by
  unfold slice; rw [List.drop_take]

theorem slice_of_take {b : Str} {lo hi n : Nat} (h : hi ≤ n) : slice (b.take n) lo hi = (b.drop lo).take (hi - lo) := by
  unfold slice; rw [List.take_take, Nat.min_eq_left h, List.drop_take]

theorem field_take {b : Str} {lo k j : Nat} (h : j ≤ k) : ((b.drop lo).take k).take j = (b.drop lo).take j := by
  rw [List.take_take, Nat.min_eq_left h]

theorem field_field {b : Str} {lo k i j : Nat} (h : i + j ≤ k) : ((((b.drop lo).take k).drop i).take j) = (b.drop (lo + i)).take j := by
  rw [List.drop_take, List.drop_drop, List.take_take, Nat.min_eq_left (by omega)]

theorem binaryToInt_bits {s : Str} (h : Bits s) (hne : s ≠ []) : binaryToInt s = .ok (bitsNumber s : Int) := by
  unfold binaryToInt
  rw [pyInt_bits ((bits_iff s).1 h) hne, bitsNumber_eq h]

theorem bin_bitsNumber {s : Str} (h : Bits s) {w : Nat} (hw : s.length = w) (hne : 0 < w) : bin w (bitsNumber s) = s := by
  subst hw
  rw [bitsNumber_eq h]
  exact bin_digVal ((bits_iff s).1 h) (List.length_pos_iff.1 hne)

theorem bitsNumber_lt {s : Str} (h : Bits s) : bitsNumber s < 2 ^ s.length := by
  rw [bitsNumber_eq h]
  exact digVal_lt (CanonDigits.digitsIn (by decide) ((bits_iff s).1 h))

theorem field_length {b : Str} {lo k : Nat} (h : lo + k ≤ b.length) : ((b.drop lo).take k).length = k := by
  rw [List.length_take, List.length_drop]; omega

theorem ne_nil_of_length {s : Str} {n : Nat} (h : s.length = n) (hn : 0 < n) : s ≠ [] := List.length_pos_iff.1 (by omega)

/-- The unused partition value. -/
theorem decodePartition_p7 {t : List Row} {b : Str} {mode : PartMode} (h7 : rowByP t 7 = .error .key) (hB : Bits b) (hl : 3 ≤ b.length)
    (hp : bitsNumber (b.take 3) = 7) : decodePartitionTable b t mode = .error .convert := by
  unfold decodePartitionTable
  rw [binaryToInt_bits (bits_take hB 3) (ne_nil_of_length (n := 3) (by rw [List.length_take]; omega) (by decide)), ok_bind, hp]
  show (keyToConvert (rowByP t 7) >>= _) = _
  rw [h7]
  rfl

theorem decodePartition_start {t : List Row} {r : Row} (ht : TableOk t) (hr : r ∈ t) {b : Str} {mode : PartMode} (hB : Bits b)
    (hl : 3 + r.M ≤ b.length) (hp : bitsNumber (b.take 3) = r.P) :
    decodePartitionTable b t mode = (decodeRef ((b.drop (3 + r.M)).take r.N) r mode >>= fun D =>
      if 10 ^ r.L ≤ bitsNumber ((b.drop 3).take r.M) then .error .convert else
      refTooLarge D r (mode == .plain) >>= fun large => if large then .error .convert else
        return padLeft '0' r.L (natStr (bitsNumber ((b.drop 3).take r.M))) ++ '.' :: padLeft '0' (if mode == .plain then r.K else 0) D) := by
  obtain ⟨⟨h1, hM, hL, h4, hN⟩, _, h3⟩ := ht r hr
  unfold decodePartitionTable
  rw [binaryToInt_bits (bits_take hB 3) (ne_nil_of_length (n := 3) (by rw [List.length_take]; omega) (by decide)), ok_bind, hp, h3]
  show (binaryToInt (slice _ 3 (3 + r.M)) >>= _) = _
  rw [slice_eq, show 3 + r.M - 3 = r.M by omega,
    binaryToInt_bits (bits_take (bits_drop hB 3) r.M) (ne_nil_of_length (field_length (by omega)) hM), ok_bind]
  dsimp only
  rw [slice_eq, show 3 + r.M + r.N - (3 + r.M) = r.N by omega]
  refine congrArg _ (funext fun D => ?_)
  rw [intStr_ofNat]
  by_cases hc : 10 ^ r.L ≤ bitsNumber ((b.drop 3).take r.M)
  · rw [if_pos (by omega), if_pos hc]
  · rw [if_neg (by omega), if_neg hc]

/-- A company prefix that has too many digits. -/
theorem decodePartition_prefix {t : List Row} {r : Row} (ht : TableOk t) (hr : r ∈ t) {b : Str} {mode : PartMode} (hB : Bits b)
    (hl : 3 + r.M ≤ b.length) (hp : bitsNumber (b.take 3) = r.P)
    (hd : ∀ e, decodeRef ((b.drop (3 + r.M)).take r.N) r mode = .error e → e = .convert)
    (hc : 10 ^ r.L ≤ bitsNumber ((b.drop 3).take r.M)) : decodePartitionTable b t mode = .error .convert := by
  rw [decodePartition_start ht hr hB hl hp]
  cases h : decodeRef ((b.drop (3 + r.M)).take r.N) r mode with
  | error e => rw [error_bind, hd e h]
  | ok D => rw [ok_bind, if_pos hc]

theorem decodeRef_number {r : Row} {d : Str} {mode : PartMode} (hm : mode = .plain ∨ mode = .unpadded) (hB : Bits d) (hl : d.length = r.N) (hN : 0 < r.N) :
    decodeRef d r mode = .ok (if r.K = 0 then [] else natStr (bitsNumber d)) := by
  rcases hm with rfl | rfl
  all_goals
    unfold decodeRef
    by_cases hK : r.K = 0
    · rw [if_neg (by simpa using hK), if_pos hK]
    · rw [if_pos hK, if_neg hK, binaryToInt_bits hB (ne_nil_of_length hl hN), ok_bind, intStr_ofNat, pure_ok]

theorem refTooLarge_nil (r : Row) (b : Bool) : refTooLarge [] r b = .ok false := by
  unfold refTooLarge; rw [if_neg (by simp)]

theorem refTooLarge_natStr (n : Nat) (r : Row) : refTooLarge (natStr n) r true = .ok (decide (10 ^ r.K ≤ n)) := by
  unfold refTooLarge
  rw [if_pos ⟨natStr_ne_nil _, rfl⟩, pyInt_natStr, ok_bind, pure_ok]
  by_cases h : 10 ^ r.K ≤ n
  · rw [decide_eq_true h, decide_eq_true (by omega)]
  · rw [decide_eq_false h, decide_eq_false (by omega)]

/-- What the decoder makes of an arbitrary bit string, plain mode. -/
theorem decodePartition_bits {t : List Row} {r : Row} (ht : TableOk t) (hr : r ∈ t) {b : Str} (hB : Bits b)
    (hl : 3 + r.M + r.N ≤ b.length) (hp : bitsNumber (b.take 3) = r.P) :
    decodePartitionTable b t =
      if 10 ^ r.L ≤ bitsNumber ((b.drop 3).take r.M) then .error .convert
      else if r.K ≠ 0 ∧ 10 ^ r.K ≤ bitsNumber ((b.drop (3 + r.M)).take r.N) then .error .convert
      else .ok (padLeft '0' r.L (natStr (bitsNumber ((b.drop 3).take r.M))) ++ '.' ::
        (if r.K = 0 then [] else padLeft '0' r.K (natStr (bitsNumber ((b.drop (3 + r.M)).take r.N))))) := by
  obtain ⟨⟨h1, hM, hL, h4, hN⟩, _, h3⟩ := ht r hr
  rw [decodePartition_start ht hr hB (by omega) hp, decodeRef_number (.inl rfl) (bits_take (bits_drop hB _) _) (field_length (by omega)) hN, ok_bind]
  by_cases hc : 10 ^ r.L ≤ bitsNumber ((b.drop 3).take r.M)
  · rw [if_pos hc, if_pos hc]
  · rw [if_neg hc, if_neg hc]
    simp only [show (PartMode.plain == PartMode.plain) = true from rfl, if_true]
    by_cases hK : r.K = 0
    · simp only [if_pos hK, refTooLarge_nil, ok_bind, pure_ok]
      rw [if_neg (by decide), if_neg (fun h => h.1 hK), hK]
      rfl
    · simp only [if_neg hK, refTooLarge_natStr, ok_bind, pure_ok]
      by_cases hd : 10 ^ r.K ≤ bitsNumber ((b.drop (3 + r.M)).take r.N)
      · rw [if_pos (decide_eq_true hd), if_pos ⟨hK, hd⟩]
      · rw [if_neg (by rw [decide_eq_false hd]; decide), if_neg (fun h => hd h.2)]

/-- Unpadded mode. -/
theorem decodePartition_bits_unpadded {t : List Row} {r : Row} (ht : TableOk t) (hr : r ∈ t) (hK : r.K ≠ 0) {b : Str} (hB : Bits b)
    (hl : 3 + r.M + r.N ≤ b.length) (hp : bitsNumber (b.take 3) = r.P) :
    decodePartitionTable b t .unpadded =
      if 10 ^ r.L ≤ bitsNumber ((b.drop 3).take r.M) then .error .convert
      else .ok (padLeft '0' r.L (natStr (bitsNumber ((b.drop 3).take r.M))) ++ '.' :: natStr (bitsNumber ((b.drop (3 + r.M)).take r.N))) := by
  obtain ⟨⟨h1, hM, hL, h4, hN⟩, _, h3⟩ := ht r hr
  rw [decodePartition_start ht hr hB (by omega) hp, decodeRef_number (.inr rfl) (bits_take (bits_drop hB _) _) (field_length (by omega)) hN, ok_bind, if_neg hK,
    show (PartMode.unpadded == PartMode.plain) = false from rfl, refTooLarge_nocheck rfl, ok_bind]
  simp only [reduceCtorEq, if_false, pure_ok, padLeft_of_le (Nat.zero_le _)]

/-- Every partition value below 7 has a row. -/
theorem row_of_p {t : List Row} (hP : t.map (·.P) = [0, 1, 2, 3, 4, 5, 6]) {b : Str} (hB : Bits b) (hl : b.length = 3)
    (h7 : bitsNumber b ≠ 7) : ∃ r ∈ t, bitsNumber b = r.P := by
  have := bitsNumber_lt hB
  rw [hl] at this
  have hm : bitsNumber b ∈ t.map (·.P) := by
    rw [hP]
    simp; omega
  obtain ⟨r, hr, e⟩ := List.mem_map.1 hm
  exact ⟨r, hr, e.symm⟩


/-- What all partition tables have in common. -/
def StdTable (t : List Row) : Prop :=
  TableOk t ∧ t.map (·.P) = [0, 1, 2, 3, 4, 5, 6] ∧ (∀ r ∈ t, r.L = 12 - r.P ∧ r.M = prefixBits (12 - r.P)) ∧ rowByP t 7 = .error .key

instance (t : List Row) : Decidable (StdTable t) := by unfold StdTable; infer_instance

theorem StdTable.row {t : List Row} (h : StdTable t) {p : Nat} (hp : p ≤ 6) : ∃ r ∈ t, r.P = p := by
  have : p ∈ t.map (·.P) := by rw [h.2.1]; simp; omega
  obtain ⟨r, hr, e⟩ := List.mem_map.1 this
  exact ⟨r, hr, e⟩

/-- Decoding seven-bit characters never fails, and the result is an escaped text. -/
theorem decodeString_total {b : Str} (h : Bits b) :
    ∃ raw, decodeString b = .ok (escape raw) ∧ (∀ c ∈ raw, 0 < c.toNat ∧ c.toNat < 128) ∧ 7 * raw.length ≤ b.length := by
  generalize hk : b.length = k
  induction k using Nat.strongRecOn generalizing b with
  | ind k ih =>
    by_cases h7 : k < 7
    · refine ⟨[], ?_, by simp, by simp⟩
      unfold decodeString
      rw [findAll_short (by omega) h]
      rfl
    · have ha : (b.take 7).length = 6 + 1 := by rw [List.length_take]; omega
      obtain ⟨raw, e, hr, hlen⟩ := ih (k - 7) (by omega) (bits_drop h 7) (by rw [List.length_drop, hk])
      obtain ⟨n, hn, hbn⟩ : ∃ n, n < 128 ∧ bin 7 n = b.take 7 :=
        ⟨bitsNumber (b.take 7), by have := bitsNumber_lt (bits_take h 7); rw [ha] at this; exact this,
          bin_bitsNumber (bits_take h 7) ha (by decide)⟩
      have key : ∀ n : Fin 128, decodeBinaryChar (bin 7 n) = .ok (if n.val = 0 then [] else escChar (Char.ofNat n)) ∧ (Char.ofNat n).toNat = n := by
        decide +kernel
      obtain ⟨k1, k2⟩ := key ⟨n, hn⟩
      dsimp only at k1 k2
      rw [hbn] at k1
      unfold decodeString at *
      rw [← List.take_append_drop 7 b, findAll_chunk ha (by rw [List.take_append_drop]; exact h)]
      cases hq : (findAll (fixedLen (List.replicate (6 + 1) anyChar)) (b.drop 7)).mapM decodeBinaryChar with
      | error e' => rw [hq] at e; cases e
      | ok r =>
        rw [hq] at e
        have e : Except.ok r.flatten = Except.ok (ε := Err) (escape raw) := e
        injection e with e
        rw [mapM_cons_ok k1 hq]
        by_cases h0 : n = 0
        · refine ⟨raw, ?_, hr, by omega⟩
          show Except.ok _ = _
          rw [List.flatten_cons, if_pos h0, e]; rfl
        · refine ⟨Char.ofNat n :: raw, ?_, ?_, ?_⟩
          · show Except.ok _ = _
            rw [List.flatten_cons, if_neg h0, e]; rfl
          · intro c hc
            rcases List.mem_cons.1 hc with rfl | hc
            · rw [k2]; omega
            · exact hr c hc
          · rw [List.length_cons]; omega

theorem decodeSixLoop_total {b : Str} (h : Bits b) : ∃ raw, decodeSixLoop (splitCap (bitsLen 6) b) = .ok raw ∧
    ∀ c ∈ raw, 32 ≤ c.toNat ∧ c.toNat < 96 ∧ c.toNat ≠ 64 := by
  generalize hk : b.length = k
  induction k using Nat.strongRecOn generalizing b with
  | ind k ih =>
    by_cases h7 : k < 6
    · exact ⟨[], decodeSixLoop_short (by omega), by simp⟩
    · have ha : (b.take 6).length = 6 := by rw [List.length_take]; omega
      obtain ⟨raw, e, hr⟩ := ih (k - 6) (by omega) (bits_drop h 6) (by rw [List.length_drop, hk])
      obtain ⟨n, hn, hbn⟩ : ∃ n, n < 64 ∧ bin 6 n = b.take 6 :=
        ⟨bitsNumber (b.take 6), by have := bitsNumber_lt (bits_take h 6); rw [ha] at this; exact this,
          bin_bitsNumber (bits_take h 6) ha (by decide)⟩
      have key : ∀ n : Fin 64, n.val ≠ 0 → bin 6 n ≠ py "000000" ∧ (bin 6 n).length = 6 ∧
          (if startsWith (bin 6 n) (py "10") || startsWith (bin 6 n) (py "11") then
            32 ≤ n.val ∧ chr (n.val : Int) = .ok (Char.ofNat n) ∧ (Char.ofNat n).toNat = n
          else n.val < 32 ∧ chr (64 + (n.val : Int)) = .ok (Char.ofNat (64 + n)) ∧ (Char.ofNat (64 + n)).toNat = 64 + n) := by
        decide +kernel
      rw [← List.take_append_drop 6 b, splitCap_chunk ha (isBit_of_Bits (bits_take h 6)), decodeSixLoop, if_neg (by decide), if_pos (by decide),
        decodeSixLoop]
      by_cases h0 : n = 0
      · refine ⟨[], ?_, by simp⟩
        rw [if_pos (by rw [← hbn, h0]; decide)]
      · obtain ⟨k1, k2, k3⟩ := key ⟨n, hn⟩ h0
        dsimp only at k1 k2 k3
        rw [hbn] at k1 k2 k3
        rw [if_neg k1, if_neg (by omega)]
        have hpy : pyInt 2 (b.take 6) = .ok (n : Int) := by rw [← hbn]; exact pyInt_bin 6 n
        split at k3
        · next hs =>
          refine ⟨Char.ofNat n :: raw, ?_, ?_⟩
          · rw [if_pos hs, hpy, ok_bind, k3.2.1, ok_bind, e, ok_bind, pure_ok]
          · intro c hc
            rcases List.mem_cons.1 hc with rfl | hc
            · rw [k3.2.2]; omega
            · exact hr c hc
        · next hs =>
          refine ⟨Char.ofNat (64 + n) :: raw, ?_, ?_⟩
          · rw [if_neg hs, hpy, ok_bind, k3.2.1, ok_bind, e, ok_bind, pure_ok]
          · intro c hc
            rcases List.mem_cons.1 hc with rfl | hc
            · rw [k3.2.2]; omega
            · exact hr c hc

/-- Decoding six-bit characters fails only when there are too many. -/
theorem decodeSix_total {b : Str} (h : Bits b) (m : Nat) : ∃ raw, (∀ c ∈ raw, 32 ≤ c.toNat ∧ c.toNat < 96 ∧ c.toNat ≠ 64) ∧
    decodeStringSixBits b m = if raw.length > m then .error .convert else .ok (escape39 raw) := by
  obtain ⟨raw, e, hr⟩ := decodeSixLoop_total h
  refine ⟨raw, hr, ?_⟩
  unfold decodeStringSixBits
  rw [e, ok_bind, replace39, pure_ok]

theorem decodeRef_string_err {r : Row} {d : Str} (hB : Bits d) {e : Err} (h : decodeRef d r .string = .error e) : e = .convert := by
  obtain ⟨raw, e', _⟩ := decodeString_total hB
  rw [decodeRef, e'] at h
  cases h

theorem decodeRef_six_err {r : Row} {d : Str} (hB : Bits d) {e : Err} (h : decodeRef d r .sixBit = .error e) : e = .convert := by
  obtain ⟨raw, _, e'⟩ := decodeSix_total hB r.K
  rw [decodeRef, e'] at h
  split at h
  · cases h; rfl
  · cases h

theorem reject7 {t : List Row} (ht : StdTable t) {f : Str} (hB : Bits f) (hl : 3 ≤ f.length) {mode : PartMode}
    (hp : bitsNumber (f.take 3) = 7) : decodePartitionTable f t mode = .error .convert :=
  decodePartition_p7 ht.2.2.2 hB hl hp

theorem rejectPrefix {t : List Row} (ht : StdTable t) {f : Str} (hB : Bits f) {mode : PartMode} {p : Nat} (hp6 : p ≤ 6)
    (hl : 3 + prefixBits (12 - p) ≤ f.length) (hp : bitsNumber (f.take 3) = p)
    (hd : ∀ r ∈ t, ∀ e, r.P = p → decodeRef ((f.drop (3 + prefixBits (12 - p))).take r.N) r mode = .error e → e = .convert)
    (hc : 10 ^ (12 - p) ≤ bitsNumber ((f.drop 3).take (prefixBits (12 - p)))) : decodePartitionTable f t mode = .error .convert := by
  obtain ⟨r, hr, rfl⟩ := ht.row hp6
  obtain ⟨e1, e2⟩ := ht.2.2.1 r hr
  rw [← e2] at hl hc hd
  rw [← e1] at hc
  exact decodePartition_prefix ht.1 hr hB hl hp (fun e he => hd r hr e rfl he) hc

theorem rejectRef {t : List Row} (ht : StdTable t) {K N : Nat → Nat} (hK : ∀ r ∈ t, r.K = K r.P ∧ r.N = N r.P) {f : Str} (hB : Bits f) {p : Nat}
    (hp6 : p ≤ 6) (hl : 3 + prefixBits (12 - p) + N p ≤ f.length) (hp : bitsNumber (f.take 3) = p) (hk : K p ≠ 0)
    (hd : 10 ^ K p ≤ bitsNumber ((f.drop (3 + prefixBits (12 - p))).take (N p))) : decodePartitionTable f t = .error .convert := by
  obtain ⟨r, hr, rfl⟩ := ht.row hp6
  obtain ⟨e1, e2⟩ := ht.2.2.1 r hr
  obtain ⟨e3, e4⟩ := hK r hr
  rw [← e2, ← e4] at hl hd
  rw [← e3] at hd hk
  rw [decodePartition_bits ht.1 hr hB hl hp]
  by_cases hc : 10 ^ r.L ≤ bitsNumber ((f.drop 3).take r.M)
  · rw [if_pos hc]
  · rw [if_neg hc, if_pos ⟨hk, hd⟩]

theorem digits_padLeft {s : Str} (h : Digits s) (w : Nat) : Digits (padLeft '0' w s) := by
  intro c hc
  rcases mem_padLeft hc with rfl | hc
  · decide
  · exact h c hc

theorem number_padLeft (n w : Nat) : number (padLeft '0' w (natStr n)) = n := by
  rw [number_eq (digits_padLeft (Digits_natStr n) w), digVal_padLeft]
  exact digVal_toDigits (by decide) (by decide)

theorem length_pad_natStr {n w : Nat} (hw : 0 < w) (h : n < 10 ^ w) : (padLeft '0' w (natStr n)).length = w := by
  have : (natStr n).length ≤ w := length_toDigits_le (by decide) hw h
  rw [length_padLeft]; omega

/-- The three fields of a partition field. -/
theorem fields {f : Str} (hB : Bits f) {r : Row} (hM : 0 < r.M) (hl : 3 + r.M ≤ f.length) (hp : bitsNumber (f.take 3) = r.P) :
    bin 3 r.P ++ (bin r.M (bitsNumber ((f.drop 3).take r.M)) ++ f.drop (3 + r.M)) = f := by
  rw [← hp, bin_bitsNumber (bits_take hB 3) (by rw [List.length_take]; omega) (by decide),
    bin_bitsNumber (bits_take (bits_drop hB 3) r.M) (field_length (by omega)) hM]
  conv => rhs; rw [← List.take_append_drop 3 f, ← List.take_append_drop r.M (f.drop 3), List.drop_drop]

/-- What was decoded is encoded by the bits it was decoded from. -/
theorem reencode {t : List Row} (ht : StdTable t) {f s : Str} (hB : Bits f) {W : Nat} (hW : ∀ r ∈ t, 3 + r.M + r.N = W) (hl : f.length = W)
    (h : decodePartitionTable f t = .ok s)
    (hz : ∀ r ∈ t, r.K = 0 → bitsNumber (f.take 3) = r.P → bitsNumber (f.drop (3 + r.M)) = 0) :
    ∃ C D, s = C ++ '.' :: D ∧ Digits C ∧ Digits D ∧ C ≠ [] ∧ ((∀ r ∈ t, r.K ≠ 0) → D ≠ []) ∧ encodePartitionTable C D t = .ok f := by
  have h3 : (f.take 3).length = 3 := by
    obtain ⟨r, hr, _⟩ := ht.row (p := 0) (by decide)
    have := hW r hr
    rw [List.length_take]; omega
  by_cases h7 : bitsNumber (f.take 3) = 7
  · rw [reject7 ht hB (by rw [List.length_take] at h3; omega) h7] at h
    cases h
  obtain ⟨r, hr, hp⟩ := row_of_p ht.2.1 (bits_take hB 3) h3 h7
  have hWr := hW r hr
  obtain ⟨⟨h1, hM, hL, h4, hN⟩, _, _⟩ := ht.1 r hr
  rw [decodePartition_bits ht.1 hr hB (by omega) hp] at h
  split at h
  · cases h
  next hc =>
  split at h
  · cases h
  next hd =>
  injection h with h
  have hCl := length_pad_natStr hL (Nat.lt_of_not_le hc)
  have hrest : (f.drop (3 + r.M)).take r.N = f.drop (3 + r.M) := List.take_of_length_le (by rw [List.length_drop]; omega)
  refine ⟨_, _, h.symm, digits_padLeft (Digits_natStr _) _, ?_, ne_nil_of_length hCl hL, ?_, ?_⟩
  · split
    · intro c hc; cases hc
    · exact digits_padLeft (Digits_natStr _) _
  · intro hk
    rw [if_neg (hk r hr)]
    have := hk r hr
    exact ne_nil_of_length (length_padLeft ..) (by omega)
  · by_cases hK : r.K = 0
    · rw [if_pos hK, encodePartition_eq ht.1 hr (dBin := List.replicate r.N '0') (digits_padLeft (Digits_natStr _) _) hCl (by
        unfold encodeRef; rw [if_neg (by simpa using hK)]), number_padLeft]
      have : List.replicate r.N '0' = f.drop (3 + r.M) := by
        rw [← bin_bitsNumber (bits_drop hB (3 + r.M)) (w := r.N) (by rw [List.length_drop]; omega) hN, hz r hr hK hp, bin_zero hN]
      rw [this, fields hB hM (by omega) hp]
    · rw [if_neg hK]
      rw [encodePartition_eq ht.1 hr (dBin := f.drop (3 + r.M)) (digits_padLeft (Digits_natStr _) _) hCl, number_padLeft, fields hB hM (by omega) hp]
      unfold encodeRef
      rw [if_pos hK, strToBinary_decimal (isDecimal_of_Digits (digits_padLeft (Digits_natStr _) _)) (ne_nil_of_length (length_padLeft ..) (by omega)),
        decVal_Digits (digits_padLeft (Digits_natStr _) _), number_padLeft, hrest,
        bin_bitsNumber (bits_drop hB (3 + r.M)) (w := r.N) (by rw [List.length_drop]; omega) hN]

/-- The unpadded mode. -/
theorem reencode_unpadded {t : List Row} (ht : StdTable t) (hK : ∀ r ∈ t, r.K ≠ 0) {f s : Str} (hB : Bits f) {W : Nat} (hW : ∀ r ∈ t, 3 + r.M + r.N = W)
    (hl : f.length = W) (h : decodePartitionTable f t .unpadded = .ok s) :
    ∃ C d, s = C ++ '.' :: natStr d ∧ Digits C ∧ C ≠ [] ∧ ∀ mode, mode = .plain ∨ mode = .unpadded → encodePartitionTable C (natStr d) t mode = .ok f := by
  have h3 : (f.take 3).length = 3 := by
    obtain ⟨r, hr, _⟩ := ht.row (p := 0) (by decide)
    have := hW r hr
    rw [List.length_take]; omega
  by_cases h7 : bitsNumber (f.take 3) = 7
  · rw [reject7 ht hB (by rw [List.length_take] at h3; omega) h7] at h
    cases h
  obtain ⟨r, hr, hp⟩ := row_of_p ht.2.1 (bits_take hB 3) h3 h7
  have hWr := hW r hr
  obtain ⟨⟨h1, hM, hL, h4, hN⟩, _, _⟩ := ht.1 r hr
  rw [decodePartition_bits_unpadded ht.1 hr (hK r hr) hB (by omega) hp] at h
  split at h
  · cases h
  next hc =>
  injection h with h
  have hCl := length_pad_natStr hL (Nat.lt_of_not_le hc)
  have hrest : (f.drop (3 + r.M)).take r.N = f.drop (3 + r.M) := List.take_of_length_le (by rw [List.length_drop]; omega)
  refine ⟨_, _, h.symm, digits_padLeft (Digits_natStr _) _, ne_nil_of_length hCl hL, fun mode hm => ?_⟩
  rw [encodePartition_eq ht.1 hr (dBin := f.drop (3 + r.M)) (digits_padLeft (Digits_natStr _) _) hCl, number_padLeft, fields hB hM (by omega) hp]
  rcases hm with rfl | rfl <;>
    rw [encodeRef, if_pos (hK r hr), strToBinary_natStr, hrest, bin_bitsNumber (bits_drop hB (3 + r.M)) (w := r.N) (by rw [List.length_drop]; omega) hN]
  all_goals simp

end Epc
