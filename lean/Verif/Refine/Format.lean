/-
The format specifications of the source, and slices and indices with natural numbers.
-/
import Verif.Src.Lookup
import Verif.Lemmas.Bridge
import Verif.Lemmas.Frame
import Verif.Lemmas.VarBinary

namespace Epc.Src
open Epc.Spec

theorem intStr_nat (n : Nat) : intStr (n : Int) = natStr n := by
  unfold intStr
  rw [if_neg (by omega)]
  simp

theorem digit_natStr (n : Nat) : ∀ c ∈ natStr n, isDigitA c = true := by
  intro c hc
  exact isDigitA_natStr n c hc

theorem takeWhile_all {p : Char → Bool} {s t : Str} (h : ∀ c ∈ s, p c = true) (ht : ∀ c ∈ t.head?, p c = false) :
    (s ++ t).takeWhile p = s ∧ (s ++ t).dropWhile p = t := by
  induction s with
  | nil =>
    cases t with
    | nil => simp
    | cons c t => simp [ht c (by simp)]
  | cons a s ih =>
    have ha := h a (by simp)
    have := ih (fun c hc => h c (by simp [hc]))
    simp [ha, this.1, this.2]

theorem parseWidth_nat (fill : Char) (al : Option Char) (w : Nat) : parseWidth fill al (natStr w) = some ⟨fill, al, w, .none⟩ := by
  have h := takeWhile_all (t := []) (digit_natStr w) (by simp)
  rw [List.append_nil] at h
  unfold parseWidth
  rw [h.1, h.2]
  show some (Fmt.mk fill al (number (natStr w)) .none) = _
  rw [number_natStr]

theorem parseWidth_nat_ty (fill : Char) (al : Option Char) (w : Nat) (c : Char) (hc : isDigitA c = false) :
    parseWidth fill al (natStr w ++ [c]) = some ⟨fill, al, w, some c⟩ := by
  have h := takeWhile_all (t := [c]) (digit_natStr w) (by simpa using hc)
  unfold parseWidth
  rw [h.1, h.2]
  show some (Fmt.mk fill al (number (natStr w)) (some c)) = _
  rw [number_natStr]

theorem natStr_cons (w : Nat) : ∃ a t, natStr w = a :: t ∧ isAlign a = false := by
  cases h : natStr w with
  | nil => exact absurd h (natStr_ne_nil w)
  | cons a t =>
    refine ⟨a, t, rfl, ?_⟩
    have := digit_natStr w a (by rw [h]; simp)
    cases hh : isAlign a with
    | false => rfl
    | true =>
      simp only [isAlign, Bool.or_eq_true, beq_iff_eq] at hh
      rcases hh with ((rfl | rfl) | rfl) | rfl <;> revert this <;> decide

/-- `f"{i:0{w}b}"` -/
@[src] theorem format_bin (i : Int) (w : Nat) : format (.int i) ('0' :: (intStr (w : Int) ++ ['b'])) = .ok (.str (fmtBin i w)) := by
  rw [intStr_nat]
  obtain ⟨a, t, h, ha⟩ := natStr_cons w
  have hp : parseFmt ('0' :: (natStr w ++ ['b'])) = some ⟨'0', some '=', w, some 'b'⟩ := by
    have h2 := parseWidth_nat_ty '0' (some '=') w 'b' (by decide)
    rw [h] at h2 ⊢
    simp only [parseFmt, List.cons_append, ha]
    exact h2
  unfold format
  split
  · next h => cases h
  · rw [hp]
    simp only [formatWith, padNumber]
    unfold fmtBin
    by_cases hi : i < 0
    · simp [hi]
    · simp [hi]

/-- `f"{s:<0{w}}"` for a text -/
@[src] theorem format_padRight (s : Str) (w : Nat) : format (.str s) ('<' :: '0' :: intStr (w : Int)) = .ok (.str (padRight '0' w s)) := by
  rw [intStr_nat]
  have hp : parseFmt ('<' :: '0' :: natStr w) = some ⟨'0', some '<', w, .none⟩ := by
    simp only [parseFmt]
    exact parseWidth_nat '0' (some '<') w
  unfold format
  split
  · next h => cases h
  · rw [hp]; rfl

theorem parse_padLeft (w : Nat) : parseFmt ('>' :: '0' :: natStr w) = some ⟨'0', some '>', w, .none⟩ := by
  simp only [parseFmt]
  exact parseWidth_nat '0' (some '>') w

/-- `f"{s:>0{w}}"` for a text -/
@[src] theorem format_padLeft (s : Str) (w : Nat) : format (.str s) ('>' :: '0' :: intStr (w : Int)) = .ok (.str (padLeft '0' w s)) := by
  rw [intStr_nat]
  unfold format
  split
  · next h => cases h
  · rw [parse_padLeft]; rfl

theorem sign_digits (i : Int) : ((if decide (i < 0) = true then ['-'] else []) ++ Nat.toDigits 10 i.natAbs) = intStr i := by
  unfold intStr natStr
  by_cases h : i < 0 <;> simp [h]

/-- `f"{i:>0{w}}"` for an integer -/
@[src] theorem format_padLeft_int (i : Int) (w : Nat) : format (.int i) ('>' :: '0' :: intStr (w : Int)) = .ok (.str (padLeft '0' w (intStr i))) := by
  rw [intStr_nat]
  unfold format
  split
  · next h => cases h
  · rw [parse_padLeft]
    simp only [formatWith, padNumber, sign_digits]

/-- `f"{i:0>{w}}"` for an integer -/
@[src] theorem format_fill_int (i : Int) (w : Nat) : format (.int i) ('0' :: '>' :: intStr (w : Int)) = .ok (.str (padLeft '0' w (intStr i))) := by
  rw [intStr_nat]
  have hp : parseFmt ('0' :: '>' :: natStr w) = some ⟨'0', some '>', w, .none⟩ := by
    simp only [parseFmt]
    exact parseWidth_nat '0' (some '>') w
  unfold format
  split
  · next h => cases h
  · rw [hp]
    simp only [formatWith, padNumber, sign_digits]

@[src] theorem format_str (s : Str) : format (.str s) [] = .ok (.str s) := rfl
@[src] theorem format_int (i : Int) : format (.int i) [] = .ok (.str (intStr i)) := rfl
/-- `f"{i:X}"` -/
@[src] theorem format_X (i : Int) : format (.int i) ['X'] = .ok (.str (fmtHexUpper i)) := by
  show (match (some (padLeft ' ' 0 (_ ++ _)) : Option Str) with | some s => Except.ok (Val.str s) | .none => Except.error Exn.unsupported) = _
  unfold fmtHexUpper padLeft
  by_cases h : i < 0 <;> simp [h]
/-- `f"{i:x}"` -/
@[src] theorem format_x (i : Int) : format (.int i) ['x'] = .ok (.str (if i < 0 then '-' :: Nat.toDigits 16 i.natAbs else Nat.toDigits 16 i.natAbs)) := by
  show (match (some (padLeft ' ' 0 (_ ++ _)) : Option Str) with | some s => Except.ok (Val.str s) | .none => Except.error Exn.unsupported) = _
  unfold padLeft
  by_cases h : i < 0 <;> simp [h]
/-- `f"{i:04b}"` -/
@[src] theorem format_04b (i : Int) : format (.int i) ['0', '4', 'b'] = .ok (.str (fmtBin i 4)) := format_bin i 4
/-- `f"{i:06b}"` -/
@[src] theorem format_06b (i : Int) : format (.int i) ['0', '6', 'b'] = .ok (.str (fmtBin i 6)) := format_bin i 6
/-- `f"{n:0>8b}"` -/
@[src] theorem format_fill8b (n : Nat) : format (.int (n : Int)) ['0', '>', '8', 'b'] = .ok (.str (padLeft '0' 8 (Nat.toDigits 2 n))) := by
  show (match (some (padLeft '0' 8 (_ ++ _)) : Option Str) with | some s => Except.ok (Val.str s) | .none => Except.error Exn.unsupported) = _
  have : ¬ ((n : Int) < 0) := by omega
  simp [this]
/-- `f"{s:>6}"` -/
@[src] theorem format_pad6 (s : Str) : format (.str s) ['>', '6'] = .ok (.str (padLeft ' ' 6 s)) := rfl

/-! ### Slices and indices -/

@[src] theorem slice_from (s : Str) (lo : Nat) : getSlice (.str s) (.int (lo : Int)) .none .none = .ok (.str (s.drop lo)) := by
  show Except.ok (Val.str (s.drop (clampIdx s.length (lo : Int)))) = _
  unfold clampIdx
  rw [if_neg (by omega)]
  congr 2
  simp only [Int.toNat_natCast]
  by_cases h : lo ≤ s.length
  · rw [Nat.min_eq_left h]
  · rw [Nat.min_eq_right (by omega), List.drop_length, List.drop_eq_nil_of_le (by omega)]

@[src] theorem slice_to (s : Str) (hi : Nat) : getSlice (.str s) .none (.int (hi : Int)) .none = .ok (.str (s.take hi)) := by
  show Except.ok (Val.str (sliceToI s (hi : Int))) = _
  rw [sliceToI_nat]

@[src] theorem slice_full (s : Str) : getSlice (.str s) .none .none .none = .ok (.str s) := rfl

@[src] theorem slice_neg (s : Str) (i : Int) : getSlice (.str s) .none (.int (-i)) .none = .ok (.str (sliceToI s (-i))) := rfl

theorem slice_int (s : Str) (lo hi : Int) : getSlice (.str s) (.int lo) (.int hi) .none = .ok (.str (sliceI s lo hi)) := rfl
theorem slice_from_int (s : Str) (lo : Int) : getSlice (.str s) (.int lo) .none .none = .ok (.str (sliceFromI s lo)) := rfl
theorem slice_to_int (s : Str) (hi : Int) : getSlice (.str s) .none (.int hi) .none = .ok (.str (sliceToI s hi)) := rfl

theorem sliceI_natCast (s : Str) (lo hi : Nat) : sliceI s (lo : Int) (hi : Int) = slice s lo hi := by
  unfold sliceI slice clampIdx
  rw [if_neg (by omega), if_neg (by omega)]
  simp only [Int.toNat_natCast]
  have h1 : s.take (min hi s.length) = s.take hi := by
    by_cases h : hi ≤ s.length
    · rw [Nat.min_eq_left h]
    · rw [Nat.min_eq_right (by omega), List.take_length, List.take_of_length_le (by omega)]
  rw [h1]
  by_cases h : lo ≤ s.length
  · rw [Nat.min_eq_left h]
  · rw [Nat.min_eq_right (by omega), List.drop_eq_nil_of_le (by simp; omega), List.drop_eq_nil_of_le (by simp; omega)]

@[src] theorem slice_nat (s : Str) (lo hi : Nat) : getSlice (.str s) (.int (lo : Int)) (.int (hi : Int)) .none = .ok (.str (slice s lo hi)) := by
  rw [slice_int, sliceI_natCast]

@[src] theorem slice_list (l : List Val) (lo : Nat) : getSlice (.list l) (.int (lo : Int)) .none .none = .ok (.list (l.drop lo)) := by
  show Except.ok (Val.list (l.drop (clampIdx l.length (lo : Int)))) = _
  unfold clampIdx
  rw [if_neg (by omega)]
  congr 2
  simp only [Int.toNat_natCast]
  by_cases h : lo ≤ l.length
  · rw [Nat.min_eq_left h]
  · rw [Nat.min_eq_right (by omega), List.drop_length, List.drop_eq_nil_of_le (by omega)]

@[src] theorem item_str (s : Str) (k : Nat) : getItem (.str s) (.int (k : Int)) = lift (getIdx s k) >>= fun c => .ok (.str [c]) := by
  simp only [getItem, position, Int.natCast_nonneg, if_true, Int.toNat_natCast, getIdx]
  cases s[k]? <;> rfl

/-- `l[k]` of a list of texts -/
@[src] theorem item_strs (l : List Str) (k : Nat) : getItem (.list (l.map .str)) (.int (k : Int)) = lift (getPart l k) >>= fun s => .ok (.str s) := by
  simp only [getItem, position, Int.natCast_nonneg, if_true, Int.toNat_natCast, getPart, List.getElem?_map]
  cases l[k]? <;> rfl

@[src] theorem item_dict (d : List (Val × Val)) (k : Val) : getItem (.dict d) k = match dictGet k d with
    | some v => .ok v
    | .none => .error (.err .key) := by
  cases k <;> rfl

@[src] theorem strsOf_map (l : List Str) : strsOf (l.map .str) = .ok l := by
  induction l with
  | nil => rfl
  | cons a l ih => simp only [List.map_cons, strsOf, ih]

theorem repeat_char (c : Char) (n : Nat) : repeatStr [c] (n : Int) = List.replicate n c := by
  unfold repeatStr
  rw [Int.toNat_natCast]
  induction n with
  | zero => rfl
  | succ n ih => simp [List.replicate_succ, ih]

end Epc.Src
