/-
C65: what `SGTIN.from_gtin_plus_serial(gtin, serial, n)` does, completely, for every GTIN text without a dot, every serial and every
company prefix length (an integer, negative ones included).

* A GTIN of at most 14 digits is filled with zeros on the left to 14; the first digit is the indicator, the next `n` (6 to 12) are the
  company prefix, the rest but the last is the item reference, and the result is that of the constructor on the URI of these parts
  (`C65_returns`).  Which serials the constructor accepts is C48.
* The last character is not looked at at all: it need not be the check digit, nor a digit (`C65_last_ignored`).
* Everything else raises ConvertException whatever the serial is: more than 14 characters, a character that is no digit before the last,
  a prefix length out of range (`C65_refused`).
* Negative lengths are not refused, they count from the end (`C65_negative`).
* A dot in the GTIN moves the borders: the last `example` has a GTIN part in the serial number.
-/
import Verif.Lemmas.ElemParse
import Verif.Lemmas.LayoutText

namespace Epc
open Spec Re

private theorem zfill_length (w : Nat) (g : Str) : (zfill w g).length = max w g.length := by
  unfold zfill
  split
  · simp only [padLeft, List.length_cons, List.length_append, List.length_replicate]; omega
  · simp only [padLeft, List.length_cons, List.length_append, List.length_replicate]; omega
  · simp only [padLeft, List.length_append, List.length_replicate]; omega

private theorem zfill_mem {w : Nat} {g : Str} {c : Char} (h : c ∈ zfill w g) : c = '0' ∨ c ∈ g := by
  unfold zfill at h
  split at h <;> simp only [padLeft, List.mem_cons, List.mem_append, List.mem_replicate] at h ⊢ <;> grind

private theorem zfill_cons (g : Str) : ∃ i d, zfill 14 g = i :: d := by
  have := zfill_length 14 g
  cases h : zfill 14 g with
  | nil => rw [h] at this; simp at this; omega
  | cons i d => exact ⟨i, d, rfl⟩

private theorem plus_eq {g s : Str} {n : Int} {i : Char} {d : Str} (h : zfill 14 g = i :: d) :
    SGTIN.fromGtinPlusSerial g s n = SGTIN.new (py "urn:epc:id:sgtin" ++ ':' :: (sliceI (i :: d) 1 (1 + n) ++ '.' ::
      ((i :: sliceI (i :: d) (1 + n) (-1)) ++ '.' :: s))) := by
  unfold SGTIN.fromGtinPlusSerial
  dsimp only
  rw [h, show getIdx (i :: d) 0 = .ok i from rfl, ok_bind]
  congr 1
  simp only [List.append_assoc, List.cons_append]
  rfl

/-- Two parts without dots that are no digits of the right number: ConvertException, before the serial is looked at. -/
private theorem new_refuses {C I s : Str} (hC : '.' ∉ C) (hI : '.' ∉ I)
    (h : ¬ (Dec C ∧ Dec I ∧ C.length + I.length = 13 ∧ 6 ≤ C.length ∧ C.length ≤ 12)) :
    SGTIN.new (py "urn:epc:id:sgtin" ++ ':' :: (C ++ '.' :: (I ++ '.' :: s))) = .error .convert := by
  cases hm : Rx.sgtinUri.fullmatch (py "urn:epc:id:sgtin" ++ ':' :: (C ++ '.' :: (I ++ '.' :: s))) with
  | false => exact SGTIN.new_nomatch hm
  | true =>
    obtain ⟨C', I', S', hC', hI', hS', e⟩ := SGTIN.shape.1 hm
    obtain ⟨rfl, rfl, rfl⟩ := uri3_inj hC hI hC'.2.no_dot hI'.2.no_dot e
    rw [SGTIN.new_eq hC' hI' hS', guard_false]
    · rfl
    · rw [decide_eq_false_iff_not, List.length_append]
      exact fun hc => h ⟨hC'.2, hI'.2, hc⟩

private theorem slice_sub {d : Str} {a b : Nat} {c : Char} (h : c ∈ slice d a b) : c ∈ d :=
  List.mem_of_mem_take (List.mem_of_mem_drop h)

/-- A GTIN made of digits: filled to 14 digits and cut at the company prefix length.  (With more than 14 digits or a length out of
6 … 12 the constructor refuses, see `C65_refused`.) -/
theorem C65_returns (g s : Str) (n : Nat) (i k : Char) (C I : Str) (hg : UDigits g)
    (e : List.replicate (14 - g.length) '0' ++ g = i :: (C ++ (I ++ [k]))) (hn : C.length = n) :
    SGTIN.fromGtinPlusSerial g s n = SGTIN.new (py "urn:epc:id:sgtin:" ++ joinWith '.' [C, i :: I, s]) := by
  rw [uDigits_iff] at hg
  have hz : zfill 14 g = i :: (C ++ (I ++ [k])) := by rw [zfill_dec hg]; exact e
  have hlen := congrArg List.length e
  simp only [List.length_append, List.length_replicate, List.length_cons, List.length_nil] at hlen
  have hcut := uncut_key (i := i) (C := C) (D := I) (k := k) (n := n) (by rw [clampIdx_one_add (by omega), hn])
  rw [plus_eq hz, hcut.1, hcut.2]
  rfl

/-- Everything else without a dot raises ConvertException, whatever the serial. -/
theorem C65_refused (g s : Str) (n : Int) (hdot : '.' ∉ g)
    (h : 14 < g.length ∨ ¬ UDigits g.dropLast ∨ g = py "+" ∨ g = py "-" ∨ ¬ ((6 ≤ n ∧ n ≤ 12) ∨ (-8 ≤ n ∧ n ≤ -2))) :
    SGTIN.fromGtinPlusSerial g s n = .error .convert := by
  obtain ⟨i, d, hz⟩ := zfill_cons g
  have hlen := zfill_length 14 g
  have hnd : ∀ c ∈ i :: d, c ≠ '.' := by
    intro c hc
    rw [← hz] at hc
    rcases zfill_mem hc with rfl | hc
    · decide
    · rintro rfl; exact hdot hc
  rw [plus_eq hz]
  refine new_refuses (fun hc => hnd _ (slice_sub hc) rfl) ?_ ?_
  · intro hc
    rcases List.mem_cons.1 hc with e | hc
    · exact hnd i List.mem_cons_self e.symm
    · exact hnd _ (slice_sub hc) rfl
  · rintro ⟨hC, hI, h13, h6, h12⟩
    have hl : (i :: d).length = max 14 g.length := by rw [← hz]; exact hlen
    have l1 : (sliceI (i :: d) 1 (1 + n)).length = clampIdx (i :: d).length (1 + n) - 1 := by
      unfold sliceI
      rw [length_slice (clampIdx_le' _ _)]
      rw [show clampIdx (i :: d).length 1 = 1 from clampIdx_nat (n := 1) (by omega)]
    have l2 : (sliceI (i :: d) (1 + n) (-1)).length = (i :: d).length - 1 - clampIdx (i :: d).length (1 + n) := by
      unfold sliceI
      rw [length_slice (clampIdx_le' _ _), show clampIdx (i :: d).length (-1) = (i :: d).length - 1 from clampIdx_neg (k := 1) (by decide)]
    have hsum := h13
    rw [List.length_cons, l1, l2, hl] at hsum
    rw [l1, hl] at h6 h12
    have hL : max 14 g.length = 14 := by
      have := clampIdx_le' (max 14 g.length) (1 + n)
      omega
    have hn : (6 ≤ n ∧ n ≤ 12) ∨ (-8 ≤ n ∧ n ≤ -2) := by
      rw [hL] at h6 h12
      unfold clampIdx at h6 h12
      by_cases hneg : 1 + n < 0
      · rw [if_pos hneg] at h6 h12; omega
      · rw [if_neg hneg] at h6 h12; omega
    have hdig : Dec (zfill 14 g).dropLast := by
      obtain ⟨⟨k, hk⟩, -⟩ := cut_key (by rw [hl, hL]) (by decide) h13
      rw [hz, hk, ← List.append_assoc, ← List.cons_append, List.dropLast_concat]
      have := Dec.cons.1 hI
      exact Dec.cons.2 ⟨this.1, Dec.append.2 ⟨hC, this.2⟩⟩
    rcases h with h | h | rfl | rfl | h
    · omega
    · apply h
      rw [uDigits_iff]
      intro c hc
      apply hdig c
      unfold zfill
      cases g with
      | nil => simp at hc
      | cons a t =>
        cases t with
        | nil => simp at hc
        | cons b t =>
          split
          · rename_i t' e
            obtain ⟨rfl, rfl⟩ := List.cons.inj e
            rw [padLeft, List.dropLast_cons_of_ne_nil (by simp), List.dropLast_append_of_ne_nil (by simp)]
            rw [List.dropLast_cons_of_ne_nil (by simp)] at hc
            simp only [List.mem_cons, List.mem_append] at hc ⊢
            grind
          · rename_i t' e
            obtain ⟨rfl, rfl⟩ := List.cons.inj e
            rw [padLeft, List.dropLast_cons_of_ne_nil (by simp), List.dropLast_append_of_ne_nil (by simp)]
            rw [List.dropLast_cons_of_ne_nil (by simp)] at hc
            simp only [List.mem_cons, List.mem_append] at hc ⊢
            grind
          · rw [padLeft, List.dropLast_append_of_ne_nil (by simp)]
            exact List.mem_append_right _ hc
    · exact absurd (hdig '+' (by decide)) (by decide)
    · exact absurd (hdig '-' (by decide)) (by decide)
    · exact h hn

private theorem slice_concat {d : Str} {c : Char} {a b : Nat} (h : b ≤ d.length) : slice (d ++ [c]) a b = slice d a b := by
  unfold slice
  rw [List.take_append_of_le_length h]

private theorem zfill_concat {g : Str} (hg : g ≠ []) (w : Nat) (c : Char) :
    ∃ p, zfill w (g ++ [c]) = p ++ [c] ∧ ∀ c', zfill w (g ++ [c']) = p ++ [c'] := by
  cases g with
  | nil => exact absurd rfl hg
  | cons a t =>
    by_cases h1 : a = '+'
    · subst h1
      refine ⟨'+' :: (List.replicate (w - 1 - (t.length + 1)) '0' ++ t), ?_, ?_⟩
      · simp [zfill, padLeft]
      · intro c'; simp [zfill, padLeft]
    · by_cases h2 : a = '-'
      · subst h2
        refine ⟨'-' :: (List.replicate (w - 1 - (t.length + 1)) '0' ++ t), ?_, ?_⟩
        · simp [zfill, padLeft]
        · intro c'; simp [zfill, padLeft]
      · refine ⟨List.replicate (w - (t.length + 2)) '0' ++ a :: t, ?_, ?_⟩
        · simp [zfill, padLeft, h1, h2]
        · intro c'; simp [zfill, padLeft, h1, h2]

/-- The last character of a GTIN (where the check digit belongs) makes no difference. -/
theorem C65_last_ignored (g s : Str) (c c' : Char) (n : Nat) (hg : g ≠ []) (hn : n ≤ 12) :
    SGTIN.fromGtinPlusSerial (g ++ [c]) s n = SGTIN.fromGtinPlusSerial (g ++ [c']) s n := by
  obtain ⟨p, e, e'⟩ := zfill_concat hg 14 c
  have hlen := zfill_length 14 (g ++ [c])
  rw [e] at hlen
  simp only [List.length_append, List.length_cons, List.length_nil] at hlen
  cases p with
  | nil => simp only [List.length_nil] at hlen; omega
  | cons i d =>
    have hd : ∀ a, (i :: (d ++ [a])).length = d.length + 2 := by intro a; simp
    rw [List.length_cons] at hlen
    rw [plus_eq (d := d ++ [c]) e, plus_eq (d := d ++ [c']) (e' c')]
    have key : ∀ a, sliceI (i :: (d ++ [a])) 1 (1 + (n : Int)) = slice (i :: d) 1 (n + 1) ∧
        sliceI (i :: (d ++ [a])) (1 + (n : Int)) (-1) = slice (i :: d) (n + 1) (d.length + 1) := by
      intro a
      unfold sliceI
      rw [hd, clampIdx_one_add (by omega), show clampIdx (d.length + 2) 1 = 1 from clampIdx_nat (n := 1) (by omega),
        show clampIdx (d.length + 2) (-1) = d.length + 1 from clampIdx_neg (k := 1) (by decide), ← List.cons_append]
      exact ⟨slice_concat (by rw [List.length_cons]; omega), slice_concat (by rw [List.length_cons]; omega)⟩
    rw [(key c).1, (key c).2, (key c').1, (key c').2]

/-- A negative length counts from the end of the 14 characters: `-k` means `14 - k`. -/
theorem C65_negative (g s : Str) (k : Nat) (hl : g.length ≤ 14) (h2 : 2 ≤ k) (h14 : k ≤ 14) :
    SGTIN.fromGtinPlusSerial g s (-(k : Int)) = SGTIN.fromGtinPlusSerial g s ((14 - k : Nat) : Int) := by
  obtain ⟨i, d, hz⟩ := zfill_cons g
  have hlen := zfill_length 14 g
  rw [hz, Nat.max_eq_left hl] at hlen
  have e : clampIdx 14 (1 + -(k : Int)) = clampIdx 14 (1 + ((14 - k : Nat) : Int)) := by
    unfold clampIdx
    split <;> split <;> omega
  rw [plus_eq hz, plus_eq hz]
  unfold sliceI
  rw [hlen, e]

/-- A GTIN-13 and a GTIN-14; the check digits are 4. -/
example : SGTIN.fromGtinPlusSerial (py "9521141123454") (py "32a") 7 = SGTIN.new (py "urn:epc:id:sgtin:9521141.012345.32a") ∧
    (SGTIN.new (py "urn:epc:id:sgtin:9521141.012345.32a")).toOption.isSome = true := by decide +kernel
example : SGTIN.fromGtinPlusSerial (py "9521141123454") (py "32a") 7 =
    SGTIN.new (py "urn:epc:id:sgtin:" ++ joinWith '.' [py "9521141", '0' :: py "12345", py "32a"]) :=
  C65_returns _ _ 7 '0' '4' (py "9521141") (py "12345") ((uDigits_iff _).2 (by unfold Dec; decide +kernel)) rfl rfl
/-- A wrong check digit, and a letter in its place. -/
example : SGTIN.fromGtinPlusSerial (py "9521141123450") (py "32a") 7 = SGTIN.fromGtinPlusSerial (py "952114112345X") (py "32a") 7 ∧
    (SGTIN.fromGtinPlusSerial (py "952114112345X") (py "32a") 7).toOption.isSome = true := by decide +kernel
/-- A letter elsewhere, 15 digits, prefix lengths out of range. -/
example : ([(py "95211411X3454", (7 : Int)), (py "009521141123454", 7), (py "9521141123454", 5), (py "9521141123454", 13), (py "9521141123454", -1),
    (py "9521141123454", -9)].map fun p => SGTIN.fromGtinPlusSerial p.1 (py "1") p.2) = List.replicate 6 (.error .convert) := by decide +kernel
example : SGTIN.fromGtinPlusSerial (py "9521141123454") (py "32a") (-7) = SGTIN.fromGtinPlusSerial (py "9521141123454") (py "32a") 7 := by decide +kernel
/-- A dot in the GTIN moves the borders: the serial number is `0.5`, not `5`. -/
example : ((SGTIN.fromGtinPlusSerial (py "09521141.812345X") (py "5") 14).toOption.map fun x => (x.companyPref, x.itemRef, x.serial)) =
    some (py "9521141", py "812345", py "0.5") := by decide +kernel

end Epc
