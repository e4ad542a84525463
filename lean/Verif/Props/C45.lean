/-
C45: GS1 keys do not depend on the serial, and determine company prefix and reference.
Generated by tools/gen_c33.py.
-/
import Verif.Lemmas.Key

namespace Epc
open Spec

/-- SGTIN: same company prefix and item reference, same key, for every GTIN type. -/
theorem C45_sgtin (u v : Str) (x y : SGTIN) (hu : SGTIN.new u = .ok x) (hv : SGTIN.new v = .ok y)
    (hp : x.companyPref = y.companyPref) (hi : x.itemRef = y.itemRef) (t : GtinType) : x.gs1Key t = y.gs1Key t := by
  obtain ⟨C, I, S, _, _, _, rfl⟩ := SGTIN.new_iff.1 hu
  obtain ⟨C', I', S', _, _, _, rfl⟩ := SGTIN.new_iff.1 hv
  dsimp only at hp hi
  subst hp hi
  rfl

/-- SGTIN: equal keys and equally long company prefixes, same company prefix and item reference. -/
theorem C45_sgtin_conv (u v : Str) (x y : SGTIN) (hu : SGTIN.new u = .ok x) (hv : SGTIN.new v = .ok y)
    (hk : x.gs1Key = y.gs1Key) (hl : x.companyPref.length = y.companyPref.length) :
    x.companyPref = y.companyPref ∧ x.itemRef = y.itemRef := by
  obtain ⟨i, I, e, kx⟩ := SGTIN.key hu
  obtain ⟨j, J, e', ky⟩ := SGTIN.key hv
  have h1 : x.gs1Key = .ok x.gtin14 := by
    show Except.ok (x.gtin14.take 14) = _
    rw [List.take_of_length_le (Nat.le_of_eq kx.2.1)]
  have h2 : y.gs1Key = .ok y.gtin14 := by
    show Except.ok (y.gtin14.take 14) = _
    rw [List.take_of_length_le (Nat.le_of_eq ky.2.1)]
  rw [h1, h2] at hk
  injection hk with hk
  rw [hk] at kx
  have hb := keyOf_body_inj kx ky
  injection hb with hi hb
  obtain ⟨hp, hI⟩ := List.append_inj hb hl
  exact ⟨hp, by rw [e, e', hi, hI]⟩

example : ((SGTIN.new (py "urn:epc:id:sgtin:9521141.012345.A1")).toOption.map (·.gs1Key)) =
    ((SGTIN.new (py "urn:epc:id:sgtin:9521141.012345.zz")).toOption.map (·.gs1Key)) := by decide +kernel

/-- LGTIN: same company prefix and item reference, same key, for every GTIN type. -/
theorem C45_lgtin (u v : Str) (x y : LGTIN) (hu : LGTIN.new u = .ok x) (hv : LGTIN.new v = .ok y)
    (hp : x.companyPref = y.companyPref) (hi : x.itemRef = y.itemRef) (t : GtinType) : x.gs1Key t = y.gs1Key t := by
  obtain ⟨C, I, S, _, _, _, rfl⟩ := LGTIN.new_iff.1 hu
  obtain ⟨C', I', S', _, _, _, rfl⟩ := LGTIN.new_iff.1 hv
  dsimp only at hp hi
  subst hp hi
  rfl

/-- LGTIN: equal keys and equally long company prefixes, same company prefix and item reference. -/
theorem C45_lgtin_conv (u v : Str) (x y : LGTIN) (hu : LGTIN.new u = .ok x) (hv : LGTIN.new v = .ok y)
    (hk : x.gs1Key = y.gs1Key) (hl : x.companyPref.length = y.companyPref.length) :
    x.companyPref = y.companyPref ∧ x.itemRef = y.itemRef := by
  obtain ⟨i, I, e, kx⟩ := LGTIN.key hu
  obtain ⟨j, J, e', ky⟩ := LGTIN.key hv
  have h1 : x.gs1Key = .ok x.gtin14 := by
    show Except.ok (x.gtin14.take 14) = _
    rw [List.take_of_length_le (Nat.le_of_eq kx.2.1)]
  have h2 : y.gs1Key = .ok y.gtin14 := by
    show Except.ok (y.gtin14.take 14) = _
    rw [List.take_of_length_le (Nat.le_of_eq ky.2.1)]
  rw [h1, h2] at hk
  injection hk with hk
  rw [hk] at kx
  have hb := keyOf_body_inj kx ky
  injection hb with hi hb
  obtain ⟨hp, hI⟩ := List.append_inj hb hl
  exact ⟨hp, by rw [e, e', hi, hI]⟩

example : ((LGTIN.new (py "urn:epc:class:lgtin:9521141.012345.A1")).toOption.map (·.gs1Key)) =
    ((LGTIN.new (py "urn:epc:class:lgtin:9521141.012345.zz")).toOption.map (·.gs1Key)) := by decide +kernel

/-- SGLN: same company prefix and location reference, same key. -/
theorem C45_sgln (u v : Str) (x y : SGLN) (hu : SGLN.new u = .ok x) (hv : SGLN.new v = .ok y)
    (hp : x.companyPref = y.companyPref) (hi : x.locationRef = y.locationRef) : x.gs1Key = y.gs1Key := by
  obtain ⟨C, I, S, _, _, _, rfl⟩ := SGLN.new_iff.1 hu
  obtain ⟨C', I', S', _, _, _, rfl⟩ := SGLN.new_iff.1 hv
  dsimp only at hp hi
  subst hp hi
  rfl

/-- SGLN: equal keys and equally long company prefixes, same company prefix and location reference. -/
theorem C45_sgln_conv (u v : Str) (x y : SGLN) (hu : SGLN.new u = .ok x) (hv : SGLN.new v = .ok y)
    (hk : x.gs1Key = y.gs1Key) (hl : x.companyPref.length = y.companyPref.length) :
    x.companyPref = y.companyPref ∧ x.locationRef = y.locationRef := by
  obtain ⟨C, I, S, ⟨⟨_, hC⟩, hI, _⟩, ⟨h1, _⟩, rfl, rfl⟩ := SGLN.new_iff.1 hu
  obtain ⟨C', I', S', ⟨⟨_, hC'⟩, hI', _⟩, ⟨h2, _⟩, rfl, rfl⟩ := SGLN.new_iff.1 hv
  dsimp only at hl ⊢
  have hk' : C ++ I ++ natStr (uCheck (C ++ I)) = C' ++ I' ++ natStr (uCheck (C' ++ I')) := hk
  have hb := (List.append_inj' hk' (by rw [length_natStr_uCheck, length_natStr_uCheck])).1
  exact List.append_inj hb hl

example : ((SGLN.new (py "urn:epc:id:sgln:9521141.12345.A1")).toOption.map (·.gs1Key)) =
    ((SGLN.new (py "urn:epc:id:sgln:9521141.12345.zz")).toOption.map (·.gs1Key)) := by decide +kernel

end Epc
