/-
Partition tables.
-/
import Verif.Lemmas.Six

namespace Epc
open Spec

/-- The facts about a row that the codec needs. -/
def RowOk (r : Row) : Prop :=
  r.P < 7 ∧ 0 < r.M ∧ 0 < r.L ∧ 10 ^ r.L ≤ 2 ^ r.M ∧ 0 < r.N

instance (r : Row) : Decidable (RowOk r) := by unfold RowOk; infer_instance

/-- Rows are found by prefix length and by partition value. -/
def TableOk (t : List Row) : Prop :=
  ∀ r ∈ t, RowOk r ∧ rowByL t r.L = .ok r ∧ rowByP t r.P = .ok r

instance (t : List Row) : Decidable (TableOk t) := by unfold TableOk; infer_instance

/-- The reference fits its field. -/
def RefOk (t : List Row) : Prop := ∀ r ∈ t, 10 ^ r.K ≤ 2 ^ r.N

instance (t : List Row) : Decidable (RefOk t) := by unfold RefOk; infer_instance

theorem binaryToInt_bin (w n : Nat) : binaryToInt (bin w n) = .ok (n : Int) := pyInt_bin w n

/-- The three fields of the encoding. -/
theorem encodePartition_eq {t : List Row} {r : Row} (ht : TableOk t) (hr : r ∈ t) {C D dBin : Str} {mode : PartMode}
    (hC : Digits C) (hl : C.length = r.L) (hd : encodeRef D r mode = .ok dBin) :
    encodePartitionTable C D t mode = .ok (bin 3 r.P ++ (bin r.M (number C) ++ dBin)) := by
  obtain ⟨⟨_, _, hL, _⟩, h2, _⟩ := ht r hr
  have hne : C ≠ [] := by intro h; rw [h] at hl; simp at hl; omega
  unfold encodePartitionTable
  rw [hl, h2]
  show (strToBinary C r.M >>= _) = _
  rw [strToBinary_decimal (isDecimal_of_Digits hC) hne, decVal_Digits hC]
  show (encodeRef D r mode >>= _) = _
  rw [hd, intToBinary_ofNat]
  show Except.ok _ = _
  rw [List.append_assoc]

theorem length_partition {r : Row} (h : RowOk r) {C : Str} (hC : Digits C) (hl : C.length = r.L) :
    (bin 3 r.P).length = 3 ∧ (bin r.M (number C)).length = r.M := by
  obtain ⟨h1, h2, h3, h4, _⟩ := h
  have := number_lt hC
  rw [hl] at this
  exact ⟨length_bin (by decide) (by omega), length_bin h2 (by omega)⟩

/-- The beginning of the decoder on the three fields. -/
theorem decodePartition_eq {t : List Row} {r : Row} (ht : TableOk t) (hr : r ∈ t) {c : Nat} {dBin tail D : Str}
    {mode : PartMode} (hc : c < 10 ^ r.L) (hdl : dBin.length = r.N) (hd : decodeRef dBin r mode = .ok D)
    (hlarge : refTooLarge D r (mode == .plain) = .ok false) :
    decodePartitionTable (bin 3 r.P ++ (bin r.M c ++ (dBin ++ tail))) t mode =
      .ok (padLeft '0' r.L (natStr c) ++ '.' :: padLeft '0' (if mode == .plain then r.K else 0) D) := by
  obtain ⟨⟨h1, hM, hL, h4, _⟩, _, h3⟩ := ht r hr
  have l3 : (bin 3 r.P).length = 3 := length_bin (by decide) (by omega)
  have lM : (bin r.M c).length = r.M := length_bin hM (by omega)
  unfold decodePartitionTable
  rw [take_append_eq l3, binaryToInt_bin]
  show (keyToConvert (rowByP t r.P) >>= _) = _
  rw [h3]
  show (binaryToInt (slice _ 3 (3 + r.M)) >>= _) = _
  rw [slice_append l3 (by rw [l3, lM]), binaryToInt_bin]
  have e : slice (bin 3 r.P ++ (bin r.M c ++ (dBin ++ tail))) (3 + r.M) (3 + r.M + r.N) = dBin := by
    rw [← List.append_assoc]
    exact slice_append (by rw [List.length_append, l3, lM]) (by rw [List.length_append, l3, lM, hdl])
  show (decodeRef (slice _ (3 + r.M) (3 + r.M + r.N)) r mode >>= _) = _
  rw [e, hd]
  show (if ¬ ((c : Int) < ((10 ^ r.L : Nat) : Int)) then _ else _) = _
  rw [if_neg (by omega)]
  show (refTooLarge D r (mode == .plain) >>= _) = _
  rw [hlarge, intStr_ofNat]
  rfl

theorem natStr_number_pad {s : Str} (h : Digits s) {n : Nat} (hn : s.length = n) (hpos : 0 < n) :
    padLeft '0' n (natStr (number s)) = s := by
  subst hn
  exact natStr_number h (List.length_pos_iff.1 hpos)

/-- The reference field in plain mode. -/
def refBits (r : Row) (D : Str) : Str := if r.K ≠ 0 then bin r.N (number D) else List.replicate r.N '0'

theorem encodeRef_plain {r : Row} {D : Str} (hD : Digits D) (hl : D.length = r.K) :
    encodeRef D r .plain = .ok (refBits r D) := by
  unfold encodeRef refBits
  by_cases hk : r.K = 0
  · rw [if_neg (by simpa using hk), if_neg (by simpa using hk)]
  · have hne : D ≠ [] := by intro h; rw [h] at hl; simp at hl; omega
    rw [if_pos hk, if_pos hk, strToBinary_decimal (isDecimal_of_Digits hD) hne, decVal_Digits hD]

theorem length_refBits {r : Row} {D : Str} (hN : 0 < r.N) (hk : 10 ^ r.K ≤ 2 ^ r.N) (hD : Digits D) (hl : D.length = r.K) :
    (refBits r D).length = r.N := by
  unfold refBits
  split
  · have := number_lt hD
    rw [hl] at this
    exact length_bin hN (by omega)
  · simp

theorem Bits_refBits (r : Row) (D : Str) : Bits (refBits r D) := by
  unfold refBits
  split
  · exact Bits_bin _ _
  · intro c hc; exact .inl (List.mem_replicate.1 hc).2

theorem decodeRef_refBits {r : Row} {D : Str} (hD : Digits D) (hl : D.length = r.K) :
    ∃ D', decodeRef (refBits r D) r .plain = .ok D' ∧ refTooLarge D' r true = .ok false ∧ padLeft '0' r.K D' = D := by
  by_cases hk : r.K = 0
  · refine ⟨[], ?_, ?_, ?_⟩
    · unfold decodeRef; rw [if_neg (by simpa using hk)]
    · unfold refTooLarge; rw [if_neg (by simp)]
    · rw [hk] at hl ⊢
      rw [List.length_eq_zero_iff] at hl
      rw [hl]; rfl
  · refine ⟨natStr (number D), ?_, ?_, ?_⟩
    · unfold decodeRef refBits
      rw [if_pos hk, if_pos hk, binaryToInt_bin]
      show Except.ok _ = _
      rw [intStr_ofNat]
    · unfold refTooLarge
      rw [if_pos ⟨natStr_ne_nil _, rfl⟩, pyInt_natStr]
      show Except.ok _ = _
      have := number_lt hD
      rw [hl] at this
      congr 1
      rw [decide_eq_false_iff_not]; omega
    · exact natStr_number_pad hD hl (by omega)

/-- Plain partition tables round-trip. -/
theorem partition_plain {t : List Row} {r : Row} (ht : TableOk t) (hk : RefOk t) (hr : r ∈ t) {C D : Str}
    (hC : Digits C) (hCl : C.length = r.L) (hD : Digits D) (hDl : D.length = r.K) :
    ∃ b, encodePartitionTable C D t .plain = .ok b ∧ Bits b ∧ b.length = 3 + r.M + r.N ∧
      ∀ tail, decodePartitionTable (b ++ tail) t .plain = .ok (C ++ '.' :: D) := by
  have hrow := (ht r hr).1
  refine ⟨_, encodePartition_eq ht hr hC hCl (encodeRef_plain hD hDl), ?_, ?_, ?_⟩
  · rw [Bits_append, Bits_append]; exact ⟨Bits_bin _ _, Bits_bin _ _, Bits_refBits _ _⟩
  · obtain ⟨l1, l2⟩ := length_partition hrow hC hCl
    rw [List.length_append, List.length_append, l1, l2, length_refBits hrow.2.2.2.2 (hk r hr) hD hDl]; omega
  · intro tail
    obtain ⟨D', h1, h2, h3⟩ := decodeRef_refBits hD hDl
    rw [List.append_assoc, List.append_assoc,
      decodePartition_eq ht hr (by rw [← hCl]; exact number_lt hC)
        (length_refBits hrow.2.2.2.2 (hk r hr) hD hDl) h1 h2, natStr_number_pad hC hCl hrow.2.2.1]
    rw [if_pos (by rfl), h3]

theorem refTooLarge_nocheck {D : Str} {r : Row} {b : Bool} (hb : b = false) : refTooLarge D r b = .ok false := by
  subst hb; unfold refTooLarge; rw [if_neg (by simp)]

/-- The unpadded mode: the reference is a number without leading zero. -/
theorem partition_unpadded {t : List Row} {r : Row} (ht : TableOk t) (hr : r ∈ t) (hK : r.K ≠ 0) {C D : Str}
    (hC : Digits C) (hCl : C.length = r.L) (hD : Digits D) (hDne : D ≠ [])
    (hz : ¬ (D.length > 1 ∧ D.head? = some '0')) (hlt : number D < 2 ^ r.N) :
    ∃ b, encodePartitionTable C D t .unpadded = .ok b ∧ Bits b ∧ b.length = 3 + r.M + r.N ∧
      ∀ tail, decodePartitionTable (b ++ tail) t .unpadded = .ok (C ++ '.' :: D) := by
  have hrow := (ht r hr).1
  have he : encodeRef D r .unpadded = .ok (bin r.N (number D)) := by
    unfold encodeRef
    rw [if_pos hK, strToBinary_decimal (isDecimal_of_Digits hD) hDne, decVal_Digits hD]
  refine ⟨_, encodePartition_eq ht hr hC hCl he, ?_, ?_, ?_⟩
  · rw [Bits_append, Bits_append]; exact ⟨Bits_bin _ _, Bits_bin _ _, Bits_bin _ _⟩
  · obtain ⟨l1, l2⟩ := length_partition hrow hC hCl
    rw [List.length_append, List.length_append, l1, l2, length_bin hrow.2.2.2.2 hlt]; omega
  · intro tail
    have hd : decodeRef (bin r.N (number D)) r .unpadded = .ok (natStr (number D)) := by
      unfold decodeRef
      rw [if_pos hK, binaryToInt_bin]
      show Except.ok _ = _
      rw [intStr_ofNat]
    rw [List.append_assoc, List.append_assoc,
      decodePartition_eq ht hr (by rw [← hCl]; exact number_lt hC) (length_bin hrow.2.2.2.2 hlt) hd
        (refTooLarge_nocheck rfl), natStr_number_pad hC hCl hrow.2.2.1,
      natStr_number_of_no_zero hD hDne hz]
    rw [if_neg (by decide), padLeft_of_le (Nat.zero_le _)]

/-- The string mode: the reference is a canonical text. -/
theorem partition_string {t : List Row} {r : Row} (ht : TableOk t) (hr : r ∈ t) {C raw : Str}
    (hC : Digits C) (hCl : C.length = r.L) (hraw : ∀ c ∈ raw, c ∈ gs82) (hl : 7 * raw.length ≤ r.N) :
    ∃ b, encodePartitionTable C (escape raw) t .string = .ok b ∧ Bits b ∧ b.length = 3 + r.M + r.N ∧
      ∀ tail, decodePartitionTable (b ++ tail) t .string = .ok (C ++ '.' :: escape raw) := by
  have hrow := (ht r hr).1
  have hlen : (padRight '0' r.N (code7 raw)).length = r.N := by
    rw [length_padRight, length_code7 (fun c hc => gs82_lt (hraw c hc))]; omega
  refine ⟨_, encodePartition_eq ht hr hC hCl (encodeString_escape raw r.N), ?_, ?_, ?_⟩
  · rw [Bits_append, Bits_append]
    refine ⟨Bits_bin _ _, Bits_bin _ _, ?_⟩
    unfold padRight; rw [Bits_append]
    exact ⟨Bits_code7 _, fun c hc => .inl (List.mem_replicate.1 hc).2⟩
  · obtain ⟨l1, l2⟩ := length_partition hrow hC hCl
    rw [List.length_append, List.length_append, l1, l2, hlen]; omega
  · intro tail
    rw [List.append_assoc, List.append_assoc,
      decodePartition_eq ht hr (by rw [← hCl]; exact number_lt hC) hlen
        (mode := .string) (decode_encode7 hraw _)
        (refTooLarge_nocheck rfl), natStr_number_pad hC hCl hrow.2.2.1]
    rw [if_neg (by decide), padLeft_of_le (Nat.zero_le _)]

theorem slice_take_append {a b : Str} {n : Nat} (h : a.length ≤ n) : (a ++ b).take n = a ++ b.take (n - a.length) := by
  rw [List.take_append, List.take_of_length_le h]

/-- The six-bit mode of CPI-var: the field ends with the terminator, the decoder reads up to `N` bits. -/
theorem partition_sixBit {t : List Row} {r : Row} (ht : TableOk t) (hr : r ∈ t) {C raw : Str}
    (hC : Digits C) (hCl : C.length = r.L) (hraw : ∀ c ∈ raw, c ∈ gs39) (hk : raw.length ≤ r.K) (hN : r.N = 6 * r.K + 6) :
    ∃ b, encodePartitionTable C (escape39 raw) t .sixBit = .ok b ∧ Bits b ∧ b.length = 3 + r.M + (6 * raw.length + 6) ∧
      b = (bin 3 r.P ++ bin r.M (number C)) ++ (code6 raw ++ py "000000") ∧
      ∀ tail, decodePartitionTable (b ++ tail) t .sixBit = .ok (C ++ '.' :: escape39 raw) := by
  obtain ⟨hrow, _, h3⟩ := ht r hr
  obtain ⟨l3, lM⟩ := length_partition hrow hC hCl
  refine ⟨_, encodePartition_eq ht hr hC hCl (encodeSix_escape hraw), ?_, ?_, by rw [List.append_assoc], ?_⟩
  · rw [Bits_append, Bits_append, Bits_append]
    exact ⟨Bits_bin _ _, Bits_bin _ _, Bits_code6 _, by unfold Bits; decide⟩
  · rw [List.length_append, List.length_append, l3, lM, List.length_append, length_code6]; simp; omega
  · intro tail
    have hc := number_lt hC
    rw [hCl] at hc
    unfold decodePartitionTable
    simp only [List.append_assoc]
    rw [take_append_eq l3, binaryToInt_bin]
    show (keyToConvert (rowByP t r.P) >>= _) = _
    rw [h3]
    show (binaryToInt (slice _ 3 (3 + r.M)) >>= _) = _
    rw [slice_append l3 (by rw [l3, lM]), binaryToInt_bin]
    have e : slice (bin 3 r.P ++ (bin r.M (number C) ++ (code6 raw ++ (py "000000" ++ tail)))) (3 + r.M) (3 + r.M + r.N) =
        code6 raw ++ (py "000000" ++ tail.take (r.N - (6 * raw.length + 6))) := by
      unfold slice
      rw [← List.append_assoc (bin 3 r.P)]
      have e1 : (bin 3 r.P ++ bin r.M (number C)).length = 3 + r.M := by rw [List.length_append, l3, lM]
      have e6 : (py "000000").length = 6 := rfl
      rw [slice_take_append (by rw [e1]; omega), drop_append_eq e1, e1, show 3 + r.M + r.N - (3 + r.M) = r.N by omega,
        slice_take_append (by rw [length_code6]; omega), length_code6, slice_take_append (by rw [e6]; omega), e6]
      rw [show r.N - 6 * raw.length - 6 = r.N - (6 * raw.length + 6) by omega]
    show (decodeRef (slice _ (3 + r.M) (3 + r.M + r.N)) r .sixBit >>= _) = _
    rw [e]
    show (decodeStringSixBits _ _ >>= _) = _
    rw [decodeSix_code hraw hk]
    show (if ¬ ((number C : Int) < ((10 ^ r.L : Nat) : Int)) then _ else _) = _
    rw [if_neg (by omega)]
    show (refTooLarge _ r false >>= _) = _
    unfold refTooLarge
    rw [if_neg (by simp)]
    show Except.ok _ = _
    rw [intStr_ofNat, natStr_number_pad hC hCl hrow.2.2.1, if_neg (by decide), padLeft_of_le (Nat.zero_le _)]

end Epc
