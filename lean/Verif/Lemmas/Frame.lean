/-
Facts shared by the binary encodings of all schemes: the header, cutting the fields out of the encoding, serial fields.
-/
import Verif.Lemmas.Serial
import Verif.Lemmas.TagForm
import Verif.Lemmas.Partition
import Verif.Lemmas.Numeric

namespace Epc
open Spec Re

theorem sliceToI_nat (s : Str) (n : Nat) : sliceToI s (n : Int) = s.take n := by
  have : s.take (clampIdx s.length (n : Int)) = s.take (min n s.length) := by
    congr 1
  rw [sliceToI, this, List.take_eq_take_iff]
  simp

/-- `parse_header_and_truncate_binary` on a binary that starts with a header of a fixed size scheme. -/
theorem parseHeader_fixed {κ : Type} {headers : List (Str × κ)} {value : κ → Str} {cs : κ} {b h p sz : Str} {n : Nat}
    (hb : b.take 8 = h) (hl : headers.lookup h = some cs) (hs : split '-' (value cs) = [p, sz])
    (hn : isNumeric sz = true) (hi : pyInt 10 sz = .ok (n : Int)) (hle : n ≤ b.length) :
    parseHeader headers value b = .ok (cs, b.take n) := by
  unfold parseHeader
  rw [hb, hl]
  dsimp only
  rw [hs]
  dsimp only
  rw [if_pos hn, hi, ok_bind, if_neg (by omega), sliceToI_nat, pure_ok]

/-- ... and is too short. -/
theorem parseHeader_short {κ : Type} {headers : List (Str × κ)} {value : κ → Str} {cs : κ} {b h p sz : Str} {n : Nat}
    (hb : b.take 8 = h) (hl : headers.lookup h = some cs) (hs : split '-' (value cs) = [p, sz])
    (hn : isNumeric sz = true) (hi : pyInt 10 sz = .ok (n : Int)) (hle : b.length < n) :
    parseHeader headers value b = .error .convert := by
  unfold parseHeader
  rw [hb, hl]
  dsimp only
  rw [hs]
  dsimp only
  rw [if_pos hn, hi, ok_bind, if_pos (by omega)]

/-- `parse_header_and_truncate_binary` on a binary that starts with a header of a variable size scheme. -/
theorem parseHeader_var {κ : Type} {headers : List (Str × κ)} {value : κ → Str} {cs : κ} {b h p sz : Str}
    (hb : b.take 8 = h) (hl : headers.lookup h = some cs) (hs : split '-' (value cs) = [p, sz])
    (hn : isNumeric sz = false) : parseHeader headers value b = .ok (cs, b) := by
  unfold parseHeader
  rw [hb, hl]
  dsimp only
  rw [hs]
  dsimp only
  rw [if_neg (by simp [hn])]

theorem slice_append2 {a b c d : Str} {lo hi : Nat} (hl : a.length + b.length = lo) (hh : lo + c.length = hi) :
    slice (a ++ (b ++ (c ++ d))) lo hi = c := by
  rw [← List.append_assoc]
  exact slice_append (by simpa using hl) (by simp; omega)

theorem drop_append3 {a b c d : Str} {n : Nat} (h : a.length + b.length + c.length = n) :
    (a ++ (b ++ (c ++ d))).drop n = d := by
  rw [← List.append_assoc, ← List.append_assoc]
  exact drop_append_eq (by simp; omega)

theorem drop_append2 {a b c : Str} {n : Nat} (h : a.length + b.length = n) : (a ++ (b ++ c)).drop n = c := by
  rw [← List.append_assoc]
  exact drop_append_eq (by simpa using h)

theorem filter_ok (n w : Nat) : strToBinary (filterStr n) w = .ok (bin w n) := strToBinary_natStr n w

theorem length_bin3 (f : Fin 8) : (bin 3 f).length = 3 := length_bin (by omega) (by have := f.isLt; omega)

/-- A company prefix and a reference of the right total length fit the partition table. -/
theorem part_ok {t : List Row} {W T : Nat} (ht : TableOk t) (hk : RefOk t)
    (hrows : t.map (fun r => (r.M, r.L)) = (mkTable (List.replicate 7 (0, 0))).map (fun r => (r.M, r.L)))
    (hW : ∀ r ∈ t, 3 + r.M + r.N = W ∧ r.L + r.K = T)
    {C D : Str} (hC : Digits C) (hD : Digits D) (h1 : 6 ≤ C.length) (h2 : C.length ≤ 12) (hT : C.length + D.length = T) :
    ∃ b, encodePartitionTable C D t = .ok b ∧ Bits b ∧ b.length = W ∧
      ∀ tail, decodePartitionTable (b ++ tail) t = .ok (C ++ '.' :: D) := by
  obtain ⟨r, hr, _, hL, _⟩ := rowByL_ok h1 h2 hrows
  have h := hW r hr
  obtain ⟨b, e1, e2, e3, e4⟩ := partition_plain ht hk hr hC hL.symm hD (by omega)
  exact ⟨b, e1, e2, by omega, e4⟩

theorem numeral_bin {S : Str} (h : Numeral S) (w : Nat) :
    strToBinary S w = .ok (bin w (number S)) ∧ binIntStr (bin w (number S)) = .ok S := by
  obtain ⟨h1, h2, h3⟩ := h
  constructor
  · rw [strToBinary_decimal (isDecimal_of_Digits h1) h2, decVal_Digits h1]
  · unfold binIntStr
    rw [binaryToInt_bin, ok_bind, intStr_ofNat, natStr_number_of_no_zero h1 h2 (by simpa using h3), pure_ok]

theorem canonical_bin {raw : Str} (h : ∀ c ∈ raw, c ∈ gs82) {w : Nat} (hl : 7 * raw.length ≤ w) :
    ∃ b, encodeString (escape raw) w = .ok b ∧ Bits b ∧ b.length = w ∧ decodeString b = .ok (escape raw) := by
  refine ⟨_, encodeString_escape raw w, ?_, ?_, decode_encode7 h w⟩
  · unfold padRight
    exact Bits_append.2 ⟨Bits_code7 raw, fun c hc => .inl (List.eq_of_mem_replicate hc)⟩
  · rw [length_padRight, length_code7 (fun c hc => gs82_lt (h c hc))]
    omega

end Epc
