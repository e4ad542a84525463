/-
C107: mistyped digits.

A GS1 key ends with a check digit.  The keys of two objects never differ in a single digit (`C107_keys`), and if they differ in the order of two
neighbouring digits only, these digits differ by 5, the one case that the check digit does not catch (`C107_interchanged`).  The same holds for
the element strings that the library prints (`C107_elements`).  The readers do not look at the check digit (C36, C65), so a mistyped element
string is read without an error; but then the element string of the object is not the text that was read (`C107_detected`).
-/
import Verif.Spec.Mistype
import Verif.Lemmas.Numeric
import Verif.Props.C33
import Verif.Props.C61
import Verif.Props.C62
import Verif.Props.C38
import Verif.Props.C46
import Verif.Props.C91
import Verif.Props.C92

namespace Epc
open Spec Re

/-- A row of digits with the right check digit. -/
private def Checked (n : Nat) (k : Str) : Prop := k.length = n ∧ UDigits k ∧ UCheckDigitOk k

private theorem Checked.of {n : Nat} {b k : Str} (h : KeyOf n b k) : Checked n k := ⟨h.2.1, h.2.2.1, h.2.2.2.1⟩

private theorem value_lt (c : Char) : (decimalVal c).getD 0 < 10 := by
  cases h : decimalVal c with
  | none => exact Nat.zero_lt_succ 9
  | some d => exact decimalVal_lt h

private theorem sum_replace (l m : List Nat) (v w : Nat) :
    gs1Sum (l ++ v :: m) + (if m.length % 2 = 0 then w else 3 * w) = gs1Sum (l ++ w :: m) + (if m.length % 2 = 0 then v else 3 * v) := by
  induction l with
  | nil => simp only [List.nil_append, gs1Sum_cons]; omega
  | cons a l ih =>
    simp only [List.cons_append, gs1Sum_cons, List.length_append, List.length_cons]
    omega

private theorem one_digit {n n' : Nat} {s t : Str} (hs : Checked n s) (ht : Checked n' t) : ¬ OneDigit s t := by
  rintro ⟨a, d, d', b, rfl, rfl, hd⟩
  obtain ⟨_, u1, c1⟩ := hs
  obtain ⟨_, u2, c2⟩ := ht
  obtain ⟨v, hv⟩ := u1 d (by simp)
  obtain ⟨w, hw⟩ := u2 d' (by simp)
  apply hd
  unfold UCheckDigitOk at c1 c2
  have r := sum_replace (a.map (fun c => (decimalVal c).getD 0)) (b.map (fun c => (decimalVal c).getD 0)) v w
  rw [List.map_append, List.map_cons, hv, Option.getD_some] at c1
  rw [List.map_append, List.map_cons, hw, Option.getD_some] at c2
  have := decimalVal_lt hv
  have := decimalVal_lt hw
  rw [hv, hw]
  split at r <;> (have : v = w := by omega) <;> rw [this]

private theorem interchanged {n n' v w : Nat} {s t : Str} (hs : Checked n s) (ht : Checked n' t) (h : Interchanged v w s t) :
    v = w ∨ v = w + 5 ∨ w = v + 5 := by
  obtain ⟨a, d, e, b, rfl, rfl, hv, hw⟩ := h
  obtain ⟨_, _, c1⟩ := hs
  obtain ⟨_, _, c2⟩ := ht
  unfold UCheckDigitOk at c1 c2
  have r1 := sum_replace (a.map (fun c => (decimalVal c).getD 0)) (w :: b.map (fun c => (decimalVal c).getD 0)) v w
  have r2 := sum_replace (a.map (fun c => (decimalVal c).getD 0) ++ [w]) (b.map (fun c => (decimalVal c).getD 0)) w v
  simp only [List.append_assoc, List.singleton_append, List.length_cons] at r1 r2
  rw [List.map_append, List.map_cons, List.map_cons, hv, hw, Option.getD_some, Option.getD_some] at c1
  rw [List.map_append, List.map_cons, List.map_cons, hv, hw, Option.getD_some, Option.getD_some] at c2
  have := decimalVal_lt hv
  have := decimalVal_lt hw
  split at r1 <;> split at r2 <;> omega

private theorem take_key {n : Nat} {k r : Str} (h : Checked n k) : (k ++ r).take n = k := by
  rw [← h.1, List.take_left]

private theorem drop_take_key {m n : Nat} {p k r : Str} (h : Checked n k) (hp : p.length = m) : Checked n (((p ++ k ++ r).drop m).take n) := by
  rw [List.append_assoc, ← hp, List.drop_left, take_key h]
  exact h

/-- The digits at the start of a key. -/
private theorem key_checked {c : Cls} {n : Nat} {u k : Str} {x : Scheme} (hc : keyDigits c = some n) (hx : c.new u = .ok x)
    (hk : x.gs1Key Option.none = .ok k) : Checked n (k.take n) := by
  cases c <;> try (cases hc; done)
  case gdti =>
    cases hc
    obtain ⟨y, hy, rfl⟩ := map_ok_iff.1 hx
    obtain ⟨k', rest, e, h, _⟩ := C33_gdti u y hy
    cases hk
    rw [e, take_key (.of h)]
    exact .of h
  case grai =>
    cases hc
    obtain ⟨y, hy, rfl⟩ := map_ok_iff.1 hx
    obtain ⟨k', rest, e, h, _⟩ := C33_grai u y hy
    cases hk
    rw [e, take_key (.of h)]
    exact .of h
  case gsin =>
    cases hc
    obtain ⟨y, hy, rfl⟩ := map_ok_iff.1 hx
    have h := C33_gsin u y hy
    cases hk
    rw [List.take_of_length_le (Nat.le_of_eq h.2.1)]
    exact .of h
  case gsrn =>
    cases hc
    obtain ⟨y, hy, rfl⟩ := map_ok_iff.1 hx
    have h := C33_gsrn u y hy
    cases hk
    rw [List.take_of_length_le (Nat.le_of_eq h.2.1)]
    exact .of h
  case gsrnp =>
    cases hc
    obtain ⟨y, hy, rfl⟩ := map_ok_iff.1 hx
    have h := C33_gsrnp u y hy
    cases hk
    rw [List.take_of_length_le (Nat.le_of_eq h.2.1)]
    exact .of h
  case lgtin =>
    cases hc
    obtain ⟨y, hy, rfl⟩ := map_ok_iff.1 hx
    obtain ⟨_, _, k', _, e, h⟩ := C33_lgtin u y hy
    have e' : y.gs1Key = .ok k := hk
    rw [e] at e'
    cases e'
    rw [List.take_of_length_le (Nat.le_of_eq h.2.1)]
    exact .of h
  case pgln =>
    cases hc
    obtain ⟨y, hy, rfl⟩ := map_ok_iff.1 hx
    have h := C33_pgln u y hy
    cases hk
    rw [List.take_of_length_le (Nat.le_of_eq h.2.1)]
    exact .of h
  case sgcn =>
    cases hc
    obtain ⟨y, hy, rfl⟩ := map_ok_iff.1 hx
    obtain ⟨k', e, h⟩ := C33_sgcn u y hy
    cases hk
    rw [e, take_key (.of h)]
    exact .of h
  case sgln =>
    cases hc
    obtain ⟨y, hy, rfl⟩ := map_ok_iff.1 hx
    have h := C33_sgln u y hy
    cases hk
    rw [List.take_of_length_le (Nat.le_of_eq h.2.1)]
    exact .of h
  case sgtin =>
    cases hc
    obtain ⟨y, hy, rfl⟩ := map_ok_iff.1 hx
    obtain ⟨_, _, k', _, e, h⟩ := C33_sgtin u y hy
    have e' : y.gs1Key = .ok k := hk
    rw [e] at e'
    cases e'
    rw [List.take_of_length_le (Nat.le_of_eq h.2.1)]
    exact .of h
  case sscc =>
    cases hc
    obtain ⟨y, hy, rfl⟩ := map_ok_iff.1 hx
    obtain ⟨_, _, _, h⟩ := C33_sscc u y hy
    cases hk
    rw [List.take_of_length_le (Nat.le_of_eq h.2.1)]
    exact .of h

/-- The digits of the key in an element string. -/
private theorem element_checked {c : Cls} {p n : Nat} {u s : Str} {x : Scheme} (hc : keyPlace c = some (p, n)) (hx : c.new u = .ok x)
    (hs : x.gs1ElementString = .ok s) : Checked n ((s.drop p).take n) := by
  cases c <;> try (cases hc; done)
  case gdti =>
    cases hc
    obtain ⟨y, hy, rfl⟩ := map_ok_iff.1 hx
    obtain ⟨C, I, S, ⟨⟨_, hC⟩, hI, _⟩, _, e, _⟩ := GDTI.new_iff.1 hy
    obtain ⟨k, h, f⟩ := C62_gdti C I S y hC.no_dot hI.no_dot (by rw [← hy, e]; simp)
    cases f.symm.trans hs
    exact drop_take_key (.of h) rfl
  case grai =>
    cases hc
    obtain ⟨y, hy, rfl⟩ := map_ok_iff.1 hx
    obtain ⟨C, I, S, ⟨⟨_, hC⟩, hI, _⟩, _, e, _⟩ := GRAI.new_iff.1 hy
    obtain ⟨k, h, f⟩ := C62_grai C I S y hC.no_dot hI.no_dot (by rw [← hy, e]; simp)
    cases f.symm.trans hs
    exact drop_take_key (.of h) rfl
  case gsin =>
    cases hc
    obtain ⟨y, hy, rfl⟩ := map_ok_iff.1 hx
    obtain ⟨C, I, ⟨⟨_, hC⟩, _⟩, _, e, _⟩ := GSIN.new_iff.1 hy
    obtain ⟨k, h, f⟩ := C62_gsin C I y hC.no_dot (by rw [← hy, e]; simp)
    cases f.symm.trans hs
    rw [← List.append_nil (py "(402)" ++ k)]
    exact drop_take_key (.of h) rfl
  case gsrn =>
    cases hc
    obtain ⟨y, hy, rfl⟩ := map_ok_iff.1 hx
    obtain ⟨C, I, ⟨⟨_, hC⟩, _⟩, _, e, _⟩ := GSRN.new_iff.1 hy
    obtain ⟨k, h, f⟩ := C62_gsrn C I y hC.no_dot (by rw [← hy, e]; simp)
    cases f.symm.trans hs
    rw [← List.append_nil (py "(8018)" ++ k)]
    exact drop_take_key (.of h) rfl
  case gsrnp =>
    cases hc
    obtain ⟨y, hy, rfl⟩ := map_ok_iff.1 hx
    obtain ⟨C, I, ⟨⟨_, hC⟩, _⟩, _, e, _⟩ := GSRNP.new_iff.1 hy
    obtain ⟨k, h, f⟩ := C62_gsrnp C I y hC.no_dot (by rw [← hy, e]; simp)
    cases f.symm.trans hs
    rw [← List.append_nil (py "(8017)" ++ k)]
    exact drop_take_key (.of h) rfl
  case lgtin =>
    cases hc
    obtain ⟨y, hy, rfl⟩ := map_ok_iff.1 hx
    obtain ⟨C, I, S, ⟨⟨_, hC⟩, ⟨h0, hI⟩, _⟩, _, e, _⟩ := LGTIN.new_iff.1 hy
    cases I with
    | nil => exact absurd rfl h0
    | cons i I =>
      obtain ⟨k, h, f⟩ := C62_lgtin i C I S y hC.no_dot hI.no_dot (by rw [← hy, e]; simp)
      cases f.symm.trans hs
      rw [List.append_assoc (py "(01)" ++ k)]
      exact drop_take_key (.of h) rfl
  case pgln =>
    cases hc
    obtain ⟨y, hy, rfl⟩ := map_ok_iff.1 hx
    obtain ⟨C, I, ⟨⟨_, hC⟩, _⟩, _, e, _⟩ := PGLN.new_iff.1 hy
    obtain ⟨k, h, f⟩ := C62_pgln C I y hC.no_dot (by rw [← hy, e]; simp)
    cases f.symm.trans hs
    rw [← List.append_nil (py "(417)" ++ k)]
    exact drop_take_key (.of h) rfl
  case sgcn =>
    cases hc
    obtain ⟨y, hy, rfl⟩ := map_ok_iff.1 hx
    obtain ⟨C, I, S, ⟨⟨_, hC⟩, hI, _⟩, _, e, _⟩ := SGCN.new_iff.1 hy
    obtain ⟨k, h, f⟩ := C62_sgcn C I S y hC.no_dot hI.no_dot (by rw [← hy, e]; simp)
    cases f.symm.trans hs
    exact drop_take_key (.of h) rfl
  case sgln =>
    cases hc
    obtain ⟨y, hy, rfl⟩ := map_ok_iff.1 hx
    obtain ⟨C, I, S, ⟨⟨_, hC⟩, hI, _⟩, _, e, _⟩ := SGLN.new_iff.1 hy
    obtain ⟨k, h, f⟩ := C62_sgln C I S y hC.no_dot hI.no_dot (by rw [← hy, e]; simp)
    cases f.symm.trans hs
    rw [List.append_assoc (py "(414)" ++ k)]
    exact drop_take_key (.of h) rfl
  case sgtin =>
    cases hc
    obtain ⟨y, hy, rfl⟩ := map_ok_iff.1 hx
    obtain ⟨C, I, S, ⟨⟨_, hC⟩, ⟨h0, hI⟩, _⟩, _, e, _⟩ := SGTIN.new_iff.1 hy
    cases I with
    | nil => exact absurd rfl h0
    | cons i I =>
      obtain ⟨k, h, f⟩ := C62_sgtin i C I S y hC.no_dot hI.no_dot (by rw [← hy, e]; simp)
      cases f.symm.trans hs
      rw [List.append_assoc (py "(01)" ++ k)]
      exact drop_take_key (.of h) rfl
  case sscc =>
    cases hc
    obtain ⟨y, hy, rfl⟩ := map_ok_iff.1 hx
    obtain ⟨C, I, ⟨⟨_, hC⟩, h0, hI⟩, _, e, _⟩ := SSCC.new_iff.1 hy
    cases I with
    | nil => exact absurd rfl h0
    | cons i I =>
      obtain ⟨k, h, f⟩ := C62_sscc i C I y hC.no_dot (by rw [← hy, e]; simp)
      cases f.symm.trans hs
      rw [← List.append_nil (py "(00)" ++ k)]
      exact drop_take_key (.of h) rfl
  case upui =>
    cases hc
    obtain ⟨y, hy, rfl⟩ := map_ok_iff.1 hx
    obtain ⟨C, I, S, ⟨⟨_, hC⟩, hI, _⟩, _, e, e0⟩ := UPUI.new_iff.1 hy
    cases I with
    | nil => exact nomatch (C46_upui_index u y (by rw [e0]) hy).symm.trans hs
    | cons i I =>
      obtain ⟨k, h, f⟩ := C62_upui i C I S y hC.no_dot hI.no_dot (by rw [← hy, e]; simp)
      cases f.symm.trans hs
      rw [List.append_assoc (py "(01)" ++ k)]
      exact drop_take_key (.of h) rfl

/-- The keys of two objects, of one class or of two classes with keys of the same length, do not differ in one digit only. -/
theorem C107_keys (c c' : Cls) (n : Nat) (u u' k k' : Str) (x x' : Scheme) (hc : keyDigits c = some n) (hc' : keyDigits c' = some n)
    (hx : c.new u = .ok x) (hx' : c'.new u' = .ok x') (hk : x.gs1Key Option.none = .ok k) (hk' : x'.gs1Key Option.none = .ok k') :
    ¬ OneDigit (k.take n) (k'.take n) :=
  one_digit (key_checked hc hx hk) (key_checked hc' hx' hk')

/-- If they differ in the order of two neighbouring digits only, these differ by 5. -/
theorem C107_interchanged (c c' : Cls) (n v w : Nat) (u u' k k' : Str) (x x' : Scheme) (hc : keyDigits c = some n) (hc' : keyDigits c' = some n)
    (hx : c.new u = .ok x) (hx' : c'.new u' = .ok x') (hk : x.gs1Key Option.none = .ok k) (hk' : x'.gs1Key Option.none = .ok k')
    (h : Interchanged v w (k.take n) (k'.take n)) : v = w ∨ v = w + 5 ∨ w = v + 5 :=
  interchanged (key_checked hc hx hk) (key_checked hc' hx' hk') h

/-- The element strings of two objects do not differ in one digit of the key only, and if they differ in the order of two neighbouring digits of
the key only, these differ by 5. -/
theorem C107_elements (c c' : Cls) (p n : Nat) (u u' s s' : Str) (x x' : Scheme) (hc : keyPlace c = some (p, n)) (hc' : keyPlace c' = some (p, n))
    (hx : c.new u = .ok x) (hx' : c'.new u' = .ok x') (hs : x.gs1ElementString = .ok s) (hs' : x'.gs1ElementString = .ok s') :
    ¬ OneDigit ((s.drop p).take n) ((s'.drop p).take n) ∧
    ∀ v w, Interchanged v w ((s.drop p).take n) ((s'.drop p).take n) → v = w ∨ v = w + 5 ∨ w = v + 5 :=
  ⟨one_digit (element_checked hc hx hs) (element_checked hc' hx' hs'),
    fun _ _ h => interchanged (element_checked hc hx hs) (element_checked hc' hx' hs') h⟩

/-- An element string of the library in which one digit of the key was mistyped, read with any company prefix length: the object read has
another element string than the text that was read. -/
theorem C107_detected (c : Cls) (p n : Nat) (m : Int) (u s t : Str) (x y : Scheme) (hc : keyPlace c = some (p, n)) (hx : c.new u = .ok x)
    (hs : x.gs1ElementString = .ok s) (ht : OneDigit ((s.drop p).take n) ((t.drop p).take n)) (hy : c.fromGs1ElementString t m = .ok y) :
    y.gs1ElementString ≠ .ok t := by
  intro h
  exact (C107_elements c c p n u y.epcUri s t x y hc hc hx ((C61_object c y).2.2 t m hy).1 hs h).1 ht

/-! The same, executed from the source. -/

namespace Src

private theorem ok_outcome {α : Type} {sh : α → Val} {r : Except Err α} {v : Val} (h : outcome sh r = .ok v) : ∃ a, r = .ok a ∧ v = sh a := by
  cases r with
  | ok a => exact ⟨a, rfl, (Except.ok.inj h).symm⟩
  | error e => exact nomatch h

private theorem keyed_of_digits {c : Cls} {n : Nat} (h : keyDigits c = some n) : c.isGs1Keyed = true := by
  cases c <;> first | rfl | (cases h; done)

private theorem element_of_place {c : Cls} {p : Nat × Nat} (h : keyPlace c = some p) : c.isGs1Element = true := by
  cases c <;> first | rfl | (cases h; done)

/-- The keys of two objects do not differ in one digit only, nor in the order of two neighbouring digits unless these differ by 5. -/
theorem C107_keys_source (c c' : Cls) (n : Nat) (u u' k k' : Str) (o o' : Val) (hc : keyDigits c = some n) (hc' : keyDigits c' = some n)
    (ho : construct (clOf c) [.str u] = .ok o) (ho' : construct (clOf c') [.str u'] = .ok o')
    (hk : invoke o .gs1_key [] [] = .ok (.str k)) (hk' : invoke o' .gs1_key [] [] = .ok (.str k')) :
    ¬ OneDigit (k.take n) (k'.take n) ∧ ∀ v w, Interchanged v w (k.take n) (k'.take n) → v = w ∨ v = w + 5 ∨ w = v + 5 := by
  obtain ⟨x, hx, rfl⟩ := ok_outcome ((C91_constructors c u).1.symm.trans ho)
  obtain ⟨x', hx', rfl⟩ := ok_outcome ((C91_constructors c' u').1.symm.trans ho')
  have cx := (C38_accepted c u x hx).2.2
  have cx' := (C38_accepted c' u' x' hx').2.2
  obtain ⟨_, e, f⟩ := ok_outcome ((C92_keys x Option.none (cx ▸ keyed_of_digits hc)).symm.trans hk)
  obtain ⟨_, e', f'⟩ := ok_outcome ((C92_keys x' Option.none (cx' ▸ keyed_of_digits hc')).symm.trans hk')
  cases f
  cases f'
  exact ⟨C107_keys c c' n u u' k k' x x' hc hc' hx hx' e e', fun v w h => C107_interchanged c c' n v w u u' k k' x x' hc hc' hx hx' e e' h⟩

/-- An element string in which one digit of the key was mistyped: the object read from it has another element string. -/
theorem C107_detected_source (c : Cls) (p n : Nat) (m : Int) (u s t : Str) (o o' : Val) (hc : keyPlace c = some (p, n))
    (ho : construct (clOf c) [.str u] = .ok o) (hs : invoke o .gs1_element_string [] [] = .ok (.str s))
    (ht : OneDigit ((s.drop p).take n) ((t.drop p).take n))
    (ho' : invoke (.cls (clOf c)) .from_gs1_element_string [.str t, .int m] [] = .ok o') :
    invoke o' .gs1_element_string [] [] ≠ .ok (.str t) := by
  obtain ⟨x, hx, rfl⟩ := ok_outcome ((C91_constructors c u).1.symm.trans ho)
  obtain ⟨y, hy, rfl⟩ := ok_outcome ((C91_element_strings c t m (element_of_place hc)).symm.trans ho')
  have cx := (C38_accepted c u x hx).2.2
  have cy := ((C61_object c y).2.2 t m hy).2
  obtain ⟨_, e, f⟩ := ok_outcome ((C92_element_strings x (cx ▸ element_of_place hc)).symm.trans hs)
  cases f
  intro h
  obtain ⟨_, e', f'⟩ := ok_outcome ((C92_element_strings y (cy ▸ element_of_place hc)).symm.trans h)
  cases f'
  exact C107_detected c p n m u s t x y hc hx e ht hy e'

end Src

/-! Examples -/

/-- Two keys that differ in the order of neighbouring digits: 1 and 6. -/
example : ∃ x y, SGTIN.new (py "urn:epc:id:sgtin:9521141.016345.1") = .ok x ∧ SGTIN.new (py "urn:epc:id:sgtin:9521141.061345.1") = .ok y ∧
    x.gs1Key = .ok (py "09521141163450") ∧ y.gs1Key = .ok (py "09521141613450") ∧
    Interchanged 1 6 (py "09521141163450") (py "09521141613450") :=
  ⟨_, _, by rfl, by rfl, by decide +kernel, by decide +kernel, py "09521141", '1', '6', py "3450", by decide, by decide, by decide +kernel, by decide +kernel⟩

/-- A mistyped element string is read without an error. -/
example : ∃ x y, SGTIN.new (py "urn:epc:id:sgtin:9521141.012345.1") = .ok x ∧ x.gs1ElementString = .ok (py "(01)09521141123454(21)1") ∧
    OneDigit (((py "(01)09521141123454(21)1").drop 4).take 14) (((py "(01)09521141123754(21)1").drop 4).take 14) ∧
    SGTIN.fromGs1ElementString (py "(01)09521141123754(21)1") 7 = .ok y ∧ y.gs1ElementString = .ok (py "(01)09521141123751(21)1") :=
  ⟨_, _, by rfl, by decide +kernel, ⟨py "09521141123", '4', '7', py "54", by decide, by decide, by decide +kernel⟩, by rfl, by decide +kernel⟩

end Epc
