/-
C108: what a GS1 key says.

Two URIs of a class have the same key exactly if their company prefixes and references consist of the same digits in the same order
(`C108_keys`); with company prefixes of the same length exactly if company prefix and reference are the same (`C108_same_length`).  GRAI, GDTI
and SGCN have the serial in the key, the other classes do not.
-/
import Verif.Spec.KeyText
import Verif.Props.C38
import Verif.Props.C40
import Verif.Props.C62
import Verif.Props.C91
import Verif.Props.C92
import Verif.Props.C93
import Verif.Lemmas.Key
import Verif.Lemmas.Unescape
import Verif.Lemmas.SerialText
import Verif.Lemmas.Elem

namespace Epc
open Spec Re

/-- The number of characters in front of the check digit. -/
private def checkAt : Cls → Option Nat
  | .sgtin | .lgtin => some 13
  | .sscc | .gsrn | .gsrnp => some 17
  | .gsin => some 16
  | .giai | .ginc => Option.none
  | _ => some 12

private def checked : Option Nat → Str → Str
  | some n, s => s.take n ++ natStr (uCheck (s.take n)) ++ s.drop n
  | Option.none, s => s

private theorem checked_inj {o : Option Nat} {s t : Str} (hs : ∀ n, o = some n → n ≤ s.length) (ht : ∀ n, o = some n → n ≤ t.length) :
    checked o s = checked o t ↔ s = t := by
  constructor
  · intro h
    cases o with
    | none => exact h
    | some n =>
      have hs := hs n rfl
      have ht := ht n rfl
      change s.take n ++ natStr (uCheck (s.take n)) ++ s.drop n = t.take n ++ natStr (uCheck (t.take n)) ++ t.drop n at h
      rw [List.append_assoc, List.append_assoc] at h
      obtain ⟨e, f⟩ := List.append_inj h (by rw [List.length_take, List.length_take]; omega)
      rw [← e] at f
      rw [← List.take_append_drop n s, ← List.take_append_drop n t, e, List.append_cancel_left f]
  · intro h; rw [h]

private theorem checked_eq {n : Nat} {s r : Str} (h : s.length = n) : checked (some n) (s ++ r) = s ++ natStr (uCheck s) ++ r := by
  show (s ++ r).take n ++ natStr (uCheck ((s ++ r).take n)) ++ (s ++ r).drop n = _
  rw [← h, List.take_left, List.drop_left]

private theorem checked_end {n : Nat} {s : Str} (h : s.length = n) : checked (some n) s = s ++ natStr (uCheck s) := by
  have := checked_eq (r := []) h
  rwa [List.append_nil, List.append_nil] at this

/-- The reference may contain dots only where it is the last component. -/
private theorem shape (c : Cls) (C R S : Str) (x : Scheme) (hc : c.isGs1Keyed = true) (hC : '.' ∉ C) (hR : '.' ∉ R ∨ c = .giai ∨ c = .ginc)
    (hx : c.new (keyedUri c C R S) = .ok x) :
    x.gs1Key Option.none = .ok (checked (checkAt c) (keyText c C R S)) ∧ (∀ n, checkAt c = some n → n ≤ (keyText c C R S).length) ∧
    (∀ n, checkAt c = some n → C.length + R.length = n) := by
  cases c <;> try (cases hc; done)
  case gdti =>
    obtain ⟨y, hy, rfl⟩ := map_ok_iff.1 hx
    have hR : '.' ∉ R := hR.resolve_right (by rintro (h | h) <;> cases h)
    obtain ⟨C', R', S', ⟨⟨_, hC'⟩, hR', _⟩, ⟨hl, _⟩, e, rfl⟩ := GDTI.new_iff.1 hy
    have e' : py "urn:epc:id:gdti" ++ ':' :: (C ++ '.' :: (R ++ '.' :: S)) = py "urn:epc:id:gdti" ++ ':' :: (C' ++ '.' :: (R' ++ '.' :: S')) := by
      rw [← e]; simp [keyedUri, joinWith]
    obtain ⟨rfl, rfl, rfl⟩ := uri3_inj hC hR hC'.no_dot hR'.no_dot e'
    have hb : (C ++ R).length = 12 := by rw [List.length_append]; exact hl
    refine ⟨?_, fun _ h => ?_, fun _ h => ?_⟩
    · show Except.ok (C ++ R ++ natStr (uCheck (C ++ R)) ++ replaceUriEscapes S) = _
      rw [replaceUriEscapes_eq]
      exact congrArg Except.ok (checked_eq hb).symm
    · cases h
      show _ ≤ (C ++ R ++ _).length
      rw [List.length_append, hb]
      exact Nat.le_add_right _ _
    · cases h; exact hl
  case giai =>
    obtain ⟨y, hy, rfl⟩ := map_ok_iff.1 hx
    obtain ⟨C', R', ⟨⟨_, hC'⟩, _⟩, _, e, rfl⟩ := GIAI.new_iff.1 hy
    have e' : py "urn:epc:id:giai" ++ ':' :: (C ++ '.' :: R) = py "urn:epc:id:giai" ++ ':' :: (C' ++ '.' :: R') := by
      rw [← e]; simp [keyedUri, joinWith]
    obtain ⟨rfl, rfl⟩ := uri2_inj hC hC'.no_dot e'
    refine ⟨?_, fun _ h => (by cases h), fun _ h => (by cases h)⟩
    have h := C62_giai C R _ hC (by rw [← hy]; simp [keyedUri, joinWith])
    rw [List.append_assoc] at h
    exact congrArg Except.ok (List.append_cancel_left (Except.ok.inj h))
  case ginc =>
    obtain ⟨y, hy, rfl⟩ := map_ok_iff.1 hx
    obtain ⟨C', R', ⟨⟨_, hC'⟩, _⟩, _, e, rfl⟩ := GINC.new_iff.1 hy
    have e' : py "urn:epc:id:ginc" ++ ':' :: (C ++ '.' :: R) = py "urn:epc:id:ginc" ++ ':' :: (C' ++ '.' :: R') := by
      rw [← e]; simp [keyedUri, joinWith]
    obtain ⟨rfl, rfl⟩ := uri2_inj hC hC'.no_dot e'
    refine ⟨?_, fun _ h => (by cases h), fun _ h => (by cases h)⟩
    show Except.ok (C ++ replaceUriEscapes R) = _
    rw [replaceUriEscapes_eq]
    rfl
  case grai =>
    obtain ⟨y, hy, rfl⟩ := map_ok_iff.1 hx
    have hR : '.' ∉ R := hR.resolve_right (by rintro (h | h) <;> cases h)
    obtain ⟨C', R', S', ⟨⟨_, hC'⟩, hR', _⟩, ⟨hl, _⟩, e, rfl⟩ := GRAI.new_iff.1 hy
    have e' : py "urn:epc:id:grai" ++ ':' :: (C ++ '.' :: (R ++ '.' :: S)) = py "urn:epc:id:grai" ++ ':' :: (C' ++ '.' :: (R' ++ '.' :: S')) := by
      rw [← e]; simp [keyedUri, joinWith]
    obtain ⟨rfl, rfl, rfl⟩ := uri3_inj hC hR hC'.no_dot hR'.no_dot e'
    have hb : (C ++ R).length = 12 := by rw [List.length_append]; exact hl
    refine ⟨?_, fun _ h => ?_, fun _ h => ?_⟩
    · show Except.ok (C ++ R ++ natStr (uCheck (C ++ R)) ++ replaceUriEscapes S) = _
      rw [replaceUriEscapes_eq]
      exact congrArg Except.ok (checked_eq hb).symm
    · cases h
      show _ ≤ (C ++ R ++ _).length
      rw [List.length_append, hb]
      exact Nat.le_add_right _ _
    · cases h; exact hl
  case gsin =>
    obtain ⟨y, hy, rfl⟩ := map_ok_iff.1 hx
    have hR : '.' ∉ R := hR.resolve_right (by rintro (h | h) <;> cases h)
    obtain ⟨C', R', ⟨⟨_, hC'⟩, _⟩, ⟨hl, _⟩, e, rfl⟩ := GSIN.new_iff.1 hy
    have e' : py "urn:epc:id:gsin" ++ ':' :: (C ++ '.' :: R) = py "urn:epc:id:gsin" ++ ':' :: (C' ++ '.' :: R') := by
      rw [← e]; simp [keyedUri, joinWith]
    obtain ⟨rfl, rfl⟩ := uri2_inj hC hC'.no_dot e'
    have hb : (C ++ R).length = 16 := by rw [List.length_append]; exact hl
    refine ⟨?_, fun _ h => ?_, fun _ h => ?_⟩
    · exact congrArg Except.ok (checked_end hb).symm
    · cases h; exact Nat.le_of_eq hb.symm
    · cases h; exact hl
  case gsrn =>
    obtain ⟨y, hy, rfl⟩ := map_ok_iff.1 hx
    have hR : '.' ∉ R := hR.resolve_right (by rintro (h | h) <;> cases h)
    obtain ⟨C', R', ⟨⟨_, hC'⟩, _⟩, ⟨hl, _⟩, e, rfl⟩ := GSRN.new_iff.1 hy
    have e' : py "urn:epc:id:gsrn" ++ ':' :: (C ++ '.' :: R) = py "urn:epc:id:gsrn" ++ ':' :: (C' ++ '.' :: R') := by
      rw [← e]; simp [keyedUri, joinWith]
    obtain ⟨rfl, rfl⟩ := uri2_inj hC hC'.no_dot e'
    have hb : (C ++ R).length = 17 := by rw [List.length_append]; exact hl
    refine ⟨?_, fun _ h => ?_, fun _ h => ?_⟩
    · exact congrArg Except.ok (checked_end hb).symm
    · cases h; exact Nat.le_of_eq hb.symm
    · cases h; exact hl
  case gsrnp =>
    obtain ⟨y, hy, rfl⟩ := map_ok_iff.1 hx
    have hR : '.' ∉ R := hR.resolve_right (by rintro (h | h) <;> cases h)
    obtain ⟨C', R', ⟨⟨_, hC'⟩, _⟩, ⟨hl, _⟩, e, rfl⟩ := GSRNP.new_iff.1 hy
    have e' : py "urn:epc:id:gsrnp" ++ ':' :: (C ++ '.' :: R) = py "urn:epc:id:gsrnp" ++ ':' :: (C' ++ '.' :: R') := by
      rw [← e]; simp [keyedUri, joinWith]
    obtain ⟨rfl, rfl⟩ := uri2_inj hC hC'.no_dot e'
    have hb : (C ++ R).length = 17 := by rw [List.length_append]; exact hl
    refine ⟨?_, fun _ h => ?_, fun _ h => ?_⟩
    · exact congrArg Except.ok (checked_end hb).symm
    · cases h; exact Nat.le_of_eq hb.symm
    · cases h; exact hl
  case lgtin =>
    obtain ⟨y, hy, rfl⟩ := map_ok_iff.1 hx
    have hR : '.' ∉ R := hR.resolve_right (by rintro (h | h) <;> cases h)
    obtain ⟨C', R', S', ⟨⟨_, hC'⟩, ⟨h0, hR'⟩, _⟩, ⟨hl, _⟩, e, rfl⟩ := LGTIN.new_iff.1 hy
    have e' : py "urn:epc:class:lgtin" ++ ':' :: (C ++ '.' :: (R ++ '.' :: S)) = py "urn:epc:class:lgtin" ++ ':' :: (C' ++ '.' :: (R' ++ '.' :: S')) := by
      rw [← e]; simp [keyedUri, joinWith]
    obtain ⟨rfl, rfl, rfl⟩ := uri3_inj hC hR hC'.no_dot hR'.no_dot e'
    cases R with
    | nil => exact absurd rfl h0
    | cons i R =>
      have h13 : (i :: (C ++ R)).length = 13 := by simp only [List.length_cons, List.length_append] at hl ⊢; omega
      refine ⟨?_, fun _ h => ?_, fun _ h => ?_⟩
      · have h14 : (i :: (C ++ R) ++ natStr (uCheck (i :: (C ++ R)))).length = 14 := by
          rw [List.length_append, length_natStr_uCheck, h13]
        show Except.ok ((padLeft '0' 14 (i :: (C ++ R) ++ natStr (uCheck (i :: (C ++ R))))).take 14) = _
        rw [padLeft_of_le (Nat.le_of_eq h14.symm), List.take_of_length_le (Nat.le_of_eq h14)]
        exact congrArg Except.ok (checked_end h13).symm
      · cases h; exact Nat.le_of_eq h13.symm
      · cases h; exact hl
  case pgln =>
    obtain ⟨y, hy, rfl⟩ := map_ok_iff.1 hx
    have hR : '.' ∉ R := hR.resolve_right (by rintro (h | h) <;> cases h)
    obtain ⟨C', R', ⟨⟨_, hC'⟩, _⟩, ⟨hl, _⟩, e, rfl⟩ := PGLN.new_iff.1 hy
    have e' : py "urn:epc:id:pgln" ++ ':' :: (C ++ '.' :: R) = py "urn:epc:id:pgln" ++ ':' :: (C' ++ '.' :: R') := by
      rw [← e]; simp [keyedUri, joinWith]
    obtain ⟨rfl, rfl⟩ := uri2_inj hC hC'.no_dot e'
    have hb : (C ++ R).length = 12 := by rw [List.length_append]; exact hl
    refine ⟨?_, fun _ h => ?_, fun _ h => ?_⟩
    · exact congrArg Except.ok (checked_end hb).symm
    · cases h; exact Nat.le_of_eq hb.symm
    · cases h; exact hl
  case sgcn =>
    obtain ⟨y, hy, rfl⟩ := map_ok_iff.1 hx
    have hR : '.' ∉ R := hR.resolve_right (by rintro (h | h) <;> cases h)
    obtain ⟨C', R', S', ⟨⟨_, hC'⟩, hR', _⟩, ⟨hl, _⟩, e, rfl⟩ := SGCN.new_iff.1 hy
    have e' : py "urn:epc:id:sgcn" ++ ':' :: (C ++ '.' :: (R ++ '.' :: S)) = py "urn:epc:id:sgcn" ++ ':' :: (C' ++ '.' :: (R' ++ '.' :: S')) := by
      rw [← e]; simp [keyedUri, joinWith]
    obtain ⟨rfl, rfl, rfl⟩ := uri3_inj hC hR hC'.no_dot hR'.no_dot e'
    have hb : (C ++ R).length = 12 := by rw [List.length_append]; exact hl
    refine ⟨?_, fun _ h => ?_, fun _ h => ?_⟩
    · exact congrArg Except.ok (checked_eq hb).symm
    · cases h
      show _ ≤ (C ++ R ++ _).length
      rw [List.length_append, hb]
      exact Nat.le_add_right _ _
    · cases h; exact hl
  case sgln =>
    obtain ⟨y, hy, rfl⟩ := map_ok_iff.1 hx
    have hR : '.' ∉ R := hR.resolve_right (by rintro (h | h) <;> cases h)
    obtain ⟨C', R', S', ⟨⟨_, hC'⟩, hR', _⟩, ⟨hl, _⟩, e, rfl⟩ := SGLN.new_iff.1 hy
    have e' : py "urn:epc:id:sgln" ++ ':' :: (C ++ '.' :: (R ++ '.' :: S)) = py "urn:epc:id:sgln" ++ ':' :: (C' ++ '.' :: (R' ++ '.' :: S')) := by
      rw [← e]; simp [keyedUri, joinWith]
    obtain ⟨rfl, rfl, rfl⟩ := uri3_inj hC hR hC'.no_dot hR'.no_dot e'
    have hb : (C ++ R).length = 12 := by rw [List.length_append]; exact hl
    refine ⟨?_, fun _ h => ?_, fun _ h => ?_⟩
    · exact congrArg Except.ok (checked_end hb).symm
    · cases h; exact Nat.le_of_eq hb.symm
    · cases h; exact hl
  case sgtin =>
    obtain ⟨y, hy, rfl⟩ := map_ok_iff.1 hx
    have hR : '.' ∉ R := hR.resolve_right (by rintro (h | h) <;> cases h)
    obtain ⟨C', R', S', ⟨⟨_, hC'⟩, ⟨h0, hR'⟩, _⟩, ⟨hl, _⟩, e, rfl⟩ := SGTIN.new_iff.1 hy
    have e' : py "urn:epc:id:sgtin" ++ ':' :: (C ++ '.' :: (R ++ '.' :: S)) = py "urn:epc:id:sgtin" ++ ':' :: (C' ++ '.' :: (R' ++ '.' :: S')) := by
      rw [← e]; simp [keyedUri, joinWith]
    obtain ⟨rfl, rfl, rfl⟩ := uri3_inj hC hR hC'.no_dot hR'.no_dot e'
    cases R with
    | nil => exact absurd rfl h0
    | cons i R =>
      have h13 : (i :: (C ++ R)).length = 13 := by simp only [List.length_cons, List.length_append] at hl ⊢; omega
      refine ⟨?_, fun _ h => ?_, fun _ h => ?_⟩
      · have h14 : (i :: (C ++ R) ++ natStr (uCheck (i :: (C ++ R)))).length = 14 := by
          rw [List.length_append, length_natStr_uCheck, h13]
        show Except.ok ((padLeft '0' 14 (i :: (C ++ R) ++ natStr (uCheck (i :: (C ++ R))))).take 14) = _
        rw [padLeft_of_le (Nat.le_of_eq h14.symm), List.take_of_length_le (Nat.le_of_eq h14)]
        exact congrArg Except.ok (checked_end h13).symm
      · cases h; exact Nat.le_of_eq h13.symm
      · cases h; exact hl
  case sscc =>
    obtain ⟨y, hy, rfl⟩ := map_ok_iff.1 hx
    have hR : '.' ∉ R := hR.resolve_right (by rintro (h | h) <;> cases h)
    obtain ⟨C', R', ⟨⟨_, hC'⟩, ⟨h0, _⟩⟩, ⟨hl, _⟩, e, rfl⟩ := SSCC.new_iff.1 hy
    have e' : py "urn:epc:id:sscc" ++ ':' :: (C ++ '.' :: R) = py "urn:epc:id:sscc" ++ ':' :: (C' ++ '.' :: R') := by
      rw [← e]; simp [keyedUri, joinWith]
    obtain ⟨rfl, rfl⟩ := uri2_inj hC hC'.no_dot e'
    cases R with
    | nil => exact absurd rfl h0
    | cons i R =>
      have h17 : (i :: (C ++ R)).length = 17 := by simp only [List.length_cons, List.length_append] at hl ⊢; omega
      refine ⟨?_, fun _ h => ?_, fun _ h => ?_⟩
      · exact congrArg Except.ok (checked_end h17).symm
      · cases h; exact Nat.le_of_eq h17.symm
      · cases h; exact hl

/-- Two URIs of a class have the same key exactly if their components have the same text of the key. -/
theorem C108_keys (c : Cls) (C R S C' R' S' : Str) (x y : Scheme) (hc : c.isGs1Keyed = true)
    (hC : '.' ∉ C) (hR : '.' ∉ R ∨ c = .giai ∨ c = .ginc) (hC' : '.' ∉ C') (hR' : '.' ∉ R' ∨ c = .giai ∨ c = .ginc)
    (hx : c.new (keyedUri c C R S) = .ok x) (hy : c.new (keyedUri c C' R' S') = .ok y) :
    x.gs1Key Option.none = y.gs1Key Option.none ↔ keyText c C R S = keyText c C' R' S' := by
  obtain ⟨e1, l1, _⟩ := shape c C R S x hc hC hR hx
  obtain ⟨e2, l2, _⟩ := shape c C' R' S' y hc hC' hR' hy
  rw [e1, e2, Except.ok.injEq]
  exact checked_inj l1 l2

private theorem rest_iff (c : Cls) (C R S C' R' S' : Str) (hc : c.isGs1Keyed = true) (hl : C.length = C'.length)
    (hr : c = .giai ∨ c = .ginc ∨ R.length = R'.length) :
    keyText c C R S = keyText c C' R' S' ↔ C = C' ∧ keyRest c R S = keyRest c R' S' := by
  have two : ∀ a b : Str, C ++ a = C' ++ b ↔ C = C' ∧ a = b := fun a b =>
    ⟨fun h => List.append_inj h hl, fun ⟨h, h'⟩ => by rw [h, h']⟩
  have three : R.length = R'.length → ∀ a b : Str, C ++ R ++ a = C' ++ R' ++ b ↔ C = C' ∧ R = R' ∧ a = b := fun h a b => by
    rw [List.append_assoc, List.append_assoc, two]
    exact and_congr_right fun _ => ⟨fun e => List.append_inj e h, fun ⟨e, e'⟩ => by rw [e, e']⟩
  have first : R.length = R'.length → (R.take 1 ++ C ++ R.drop 1 = R'.take 1 ++ C' ++ R'.drop 1 ↔ C = C' ∧ R = R') := fun h => by
    constructor
    · intro e
      rw [List.append_assoc, List.append_assoc] at e
      obtain ⟨a, e⟩ := List.append_inj e (by rw [List.length_take, List.length_take, h])
      obtain ⟨b, d⟩ := List.append_inj e hl
      exact ⟨b, by rw [← List.take_append_drop 1 R, a, d, List.take_append_drop]⟩
    · rintro ⟨rfl, rfl⟩; rfl
  cases c <;> try (cases hc; done)
  case gdti =>
    have h : R.length = R'.length := (hr.resolve_left (by intro h; cases h)).resolve_left (by intro h; cases h)
    simp only [keyText, keyRest, Prod.mk.injEq]; exact three h _ _
  case giai =>
    simp only [keyText, keyRest, Prod.mk.injEq, and_true]; exact two _ _
  case ginc =>
    simp only [keyText, keyRest, Prod.mk.injEq, and_true]; exact two _ _
  case grai =>
    have h : R.length = R'.length := (hr.resolve_left (by intro h; cases h)).resolve_left (by intro h; cases h)
    simp only [keyText, keyRest, Prod.mk.injEq]; exact three h _ _
  case gsin =>
    have h : R.length = R'.length := (hr.resolve_left (by intro h; cases h)).resolve_left (by intro h; cases h)
    simp only [keyText, keyRest, Prod.mk.injEq, and_true]; exact two _ _
  case gsrn =>
    have h : R.length = R'.length := (hr.resolve_left (by intro h; cases h)).resolve_left (by intro h; cases h)
    simp only [keyText, keyRest, Prod.mk.injEq, and_true]; exact two _ _
  case gsrnp =>
    have h : R.length = R'.length := (hr.resolve_left (by intro h; cases h)).resolve_left (by intro h; cases h)
    simp only [keyText, keyRest, Prod.mk.injEq, and_true]; exact two _ _
  case lgtin =>
    have h : R.length = R'.length := (hr.resolve_left (by intro h; cases h)).resolve_left (by intro h; cases h)
    simp only [keyText, keyRest, Prod.mk.injEq, and_true]; exact first h
  case pgln =>
    have h : R.length = R'.length := (hr.resolve_left (by intro h; cases h)).resolve_left (by intro h; cases h)
    simp only [keyText, keyRest, Prod.mk.injEq, and_true]; exact two _ _
  case sgcn =>
    have h : R.length = R'.length := (hr.resolve_left (by intro h; cases h)).resolve_left (by intro h; cases h)
    simp only [keyText, keyRest, Prod.mk.injEq]; exact three h _ _
  case sgln =>
    have h : R.length = R'.length := (hr.resolve_left (by intro h; cases h)).resolve_left (by intro h; cases h)
    simp only [keyText, keyRest, Prod.mk.injEq, and_true]; exact two _ _
  case sgtin =>
    have h : R.length = R'.length := (hr.resolve_left (by intro h; cases h)).resolve_left (by intro h; cases h)
    simp only [keyText, keyRest, Prod.mk.injEq, and_true]; exact first h
  case sscc =>
    have h : R.length = R'.length := (hr.resolve_left (by intro h; cases h)).resolve_left (by intro h; cases h)
    simp only [keyText, keyRest, Prod.mk.injEq, and_true]; exact first h

/-- With company prefixes of the same length, the keys are the same exactly if company prefix, reference and, if it is in the key, serial are. -/
theorem C108_same_length (c : Cls) (C R S C' R' S' : Str) (x y : Scheme) (hc : c.isGs1Keyed = true)
    (hC : '.' ∉ C) (hR : '.' ∉ R ∨ c = .giai ∨ c = .ginc) (hC' : '.' ∉ C') (hR' : '.' ∉ R' ∨ c = .giai ∨ c = .ginc)
    (hx : c.new (keyedUri c C R S) = .ok x) (hy : c.new (keyedUri c C' R' S') = .ok y) (hl : C.length = C'.length) :
    x.gs1Key Option.none = y.gs1Key Option.none ↔ C = C' ∧ keyRest c R S = keyRest c R' S' := by
  rw [C108_keys c C R S C' R' S' x y hc hC hR hC' hR' hx hy]
  apply rest_iff c C R S C' R' S' hc hl
  have a := (shape c C R S x hc hC hR hx).2.2
  have b := (shape c C' R' S' y hc hC' hR' hy).2.2
  cases hn : checkAt c with
  | none => revert hn; cases c <;> intro hn <;> first | exact Or.inl rfl | exact Or.inr (Or.inl rfl) | exact absurd hn (by decide)
  | some n => have := a n hn; have := b n hn; exact Or.inr (Or.inr (by omega))

/-! The same, executed from the source. -/

namespace Src

private theorem ok_outcome' {α : Type} {sh : α → Val} {r : Except Err α} {v : Val} (h : outcome sh r = .ok v) : ∃ a, r = .ok a ∧ v = sh a := by
  cases r with
  | ok a => exact ⟨a, rfl, (Except.ok.inj h).symm⟩
  | error e => exact nomatch h

private theorem outcome_str_inj {a b : Except Err Str} : outcome Val.str a = outcome Val.str b ↔ a = b := by
  constructor
  · intro h
    cases a <;> cases b
    · cases h; rfl
    · cases h
    · cases h
    · cases h; rfl
  · intro h; rw [h]

/-- `gs1_key` of two objects, and `get_gs1_key` of their URIs, give the same exactly if the texts of the keys are the same. -/
theorem C108_source (c : Cls) (C R S C' R' S' : Str) (v w : Val) (hc : c.isGs1Keyed = true)
    (hC : '.' ∉ C) (hR : '.' ∉ R ∨ c = .giai ∨ c = .ginc) (hC' : '.' ∉ C') (hR' : '.' ∉ R' ∨ c = .giai ∨ c = .ginc)
    (hv : construct (clOf c) [.str (keyedUri c C R S)] = .ok v) (hw : construct (clOf c) [.str (keyedUri c C' R' S')] = .ok w) :
    (invoke v .gs1_key [] [] = invoke w .gs1_key [] [] ↔ keyText c C R S = keyText c C' R' S') ∧
    (function .get_gs1_key [.str (keyedUri c C R S)] [] = function .get_gs1_key [.str (keyedUri c C' R' S')] [] ↔
      keyText c C R S = keyText c C' R' S') ∧
    (C.length = C'.length → (keyText c C R S = keyText c C' R' S' ↔ C = C' ∧ keyRest c R S = keyRest c R' S')) := by
  obtain ⟨x, hx, rfl⟩ := ok_outcome' ((C91_constructors c _).1.symm.trans hv)
  obtain ⟨y, hy, rfl⟩ := ok_outcome' ((C91_constructors c _).1.symm.trans hw)
  have cx := (C38_accepted c _ x hx).2.2
  have cy := (C38_accepted c _ y hy).2.2
  have k := C108_keys c C R S C' R' S' x y hc hC hR hC' hR' hx hy
  have i : ∀ z : Scheme, z.cls.isGs1Keyed = true → invoke (objScheme z) .gs1_key [] [] = outcome .str (z.gs1Key Option.none) :=
    fun z hz => C92_keys z Option.none hz
  have g : ∀ s : Str, function .get_gs1_key [.str s] [] = outcome .str (getGs1Key s Option.none Option.none) :=
    fun s => C93_get_gs1_key s Option.none Option.none
  refine ⟨?_, ?_, fun hl => ?_⟩
  · rw [i x (cx ▸ hc), i y (cy ▸ hc), outcome_str_inj, k]
  · rw [g, g, C40_uri c _ x Option.none Option.none hx hc, C40_uri c _ y Option.none Option.none hy hc, outcome_str_inj, k]
  · rw [← k, C108_same_length c C R S C' R' S' x y hc hC hR hC' hR' hx hy hl]

end Src

/-! Examples -/

/-- The same GTIN with company prefixes of 7 and of 8 digits. -/
example : ∃ x y, Cls.sgtin.new (keyedUri .sgtin (py "9521141") (py "012345") (py "4711")) = .ok x ∧
    Cls.sgtin.new (keyedUri .sgtin (py "95211411") (py "02345") (py "1")) = .ok y ∧
    keyText .sgtin (py "9521141") (py "012345") (py "4711") = keyText .sgtin (py "95211411") (py "02345") (py "1") ∧
    x.gs1Key Option.none = .ok (py "09521141123454") ∧ y.gs1Key Option.none = .ok (py "09521141123454") :=
  ⟨_, _, by rfl, by rfl, by decide, by decide +kernel, by decide +kernel⟩

/-- The same GRAI with a serial written with and without the escape of the percent sign. -/
example : ∃ x y, Cls.grai.new (keyedUri .grai (py "9521141") (py "12345") (py "A%252f")) = .ok x ∧
    Cls.grai.new (keyedUri .grai (py "9521141") (py "12345") (py "A%2f")) = .ok y ∧ x.gs1Key Option.none = y.gs1Key Option.none :=
  ⟨_, _, by rfl, by rfl, by decide +kernel⟩

end Epc
