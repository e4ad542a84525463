/-
C85: filter values of other classes.

A filter value of any class is a number below 64; `tagUriAny` and `binaryAny` are `tag_uri` and `binary` with such a filter value.
`bitsOf w n` (`Spec/Layout`): the number `n` in exactly `w` bits.
Generated by tools/gen_foreign.py.
-/
import Verif.Lemmas.Foreign

set_option linter.unusedVariables false

namespace Epc
open Spec

private theorem splice {h z r : Str} {k : Nat} (hh : h.length = 8) (hz : z.length = k) (g : Str) :
    h ++ (g ++ r) = (h ++ (z ++ r)).take 8 ++ g ++ (h ++ (z ++ r)).drop (8 + k) := by
  rw [List.take_append_of_le_length (by omega), List.take_of_length_le (by omega), ← List.append_assoc h z r, List.drop_append_of_le_length (by simp; omega),
    List.drop_of_length_le (by simp; omega)]
  simp

theorem C85_sgtin_claim_false : ¬ ∀ (u : Str) (x : SGTIN) (cs : SGTIN.Coding) (f : Fin 64), SGTIN.new u = .ok x →
    ∀ b b0, x.binary cs 0 = .ok b0 → x.binaryAny (.sgtin cs) f = .ok b → b.length = b0.length := by
  intro h
  cases e : SGTIN.new (py "urn:epc:id:sgtin:0614141.812345.6789") with
  | error _ =>
    have hx : (SGTIN.new (py "urn:epc:id:sgtin:0614141.812345.6789")).toBool = true := by decide +kernel
    rw [e] at hx; exact Bool.noConfusion hx
  | ok x =>
    have hx : ((SGTIN.new (py "urn:epc:id:sgtin:0614141.812345.6789")).toOption.map fun x =>
        (((x.binary .sgtin96 0).toOption.map List.length), ((x.binaryAny (.sgtin .sgtin96) 63).toOption.map List.length))) = some (some 96, some 99) := by
      decide +kernel
    rw [e] at hx
    have hx := Option.some.inj hx
    dsimp only at hx
    cases h0 : x.binary .sgtin96 0 with
    | error _ => rw [h0] at hx; exact absurd (Prod.mk.inj hx).1 (by simp [Except.toOption])
    | ok b0 =>
      cases h1 : x.binaryAny (.sgtin .sgtin96) 63 with
      | error _ => rw [h1] at hx; exact absurd (Prod.mk.inj hx).2 (by simp [Except.toOption])
      | ok b =>
        have := h _ x .sgtin96 63 e b b0 h0 h1
        rw [h0, h1] at hx
        have hx1 : b0.length = 96 := Option.some.inj (Prod.mk.inj hx).1
        have hx2 : b.length = 99 := Option.some.inj (Prod.mk.inj hx).2
        omega

theorem C85_sgtin_partial {u : Str} {x : SGTIN} (hu : SGTIN.new u = .ok x) (cs : SGTIN.Coding) (f : Fin 64) :
    (∀ h : f.val < 8, x.tagUriAny (.sgtin cs) f = x.tagUri cs ⟨f, h⟩ ∧ x.binaryAny (.sgtin cs) f = x.binary cs ⟨f, h⟩) ∧
    (∀ t, x.tagUriAny (.sgtin cs) f = .ok t → SGTIN.fromTagUri t = .ok x) ∧
    (∀ b, x.binaryAny (.sgtin cs) f = .ok b → ∃ b0, x.binary cs 0 = .ok b0 ∧ 8 + 3 ≤ b0.length ∧
      ∀ w, 3 ≤ w → f.val < 2 ^ w → (w = 3 ∨ 2 ^ (w - 1) ≤ f.val) →
        b = b0.take 8 ++ bitsOf w f ++ b0.drop (8 + 3) ∧ b.length = b0.length + (w - 3)) := by
  refine ⟨fun h => ⟨rfl, rfl⟩, ?_, ?_⟩
  · intro t ht
    have ht' : t = tagUriPrefix ++ cs.value ++ ':' :: (natStr f ++ '.' :: (x.companyPref ++ '.' :: x.itemRef ++ '.' :: x.serial)) := by
      unfold SGTIN.tagUriAny at ht
      obtain ⟨bad, -, ht⟩ := bind_ok_iff.1 ht
      dsimp only at ht
      split at ht
      · cases ht
      · injection ht with ht
        simpa [filterStr, AnyCoding.value] using ht.symm
    subst ht'
    apply SGTIN.fromTagUri_of_new (num_natStr f)
    rw [← SGTIN.uri_rest hu]
    exact hu
  · intro b hb
    obtain ⟨r, rfl, h0⟩ := SGTIN.binaryAny_zero hb
    have hh : (cs.header).length = 8 := by cases cs <;> rfl
    have hz : (bin 3 0).length = 3 := by decide
    refine ⟨_, h0, by simp only [List.length_append]; omega, fun w hw hlt hor => ?_⟩
    have hg := filterBits (by decide) hw hlt hor
    have hl : (bitsOf w f.val).length = w := length_bitsOf _ _
    rw [hg]
    exact ⟨splice hh hz _, by simp only [List.length_append]; omega⟩

theorem C85_sscc_claim_false : ¬ ∀ (u : Str) (x : SSCC) (cs : SSCC.Coding) (f : Fin 64), SSCC.new u = .ok x →
    ∀ b b0, x.binary cs 0 = .ok b0 → x.binaryAny (.sscc cs) f = .ok b → b.length = b0.length := by
  intro h
  cases e : SSCC.new (py "urn:epc:id:sscc:0614141.1234567890") with
  | error _ =>
    have hx : (SSCC.new (py "urn:epc:id:sscc:0614141.1234567890")).toBool = true := by decide +kernel
    rw [e] at hx; exact Bool.noConfusion hx
  | ok x =>
    have hx : ((SSCC.new (py "urn:epc:id:sscc:0614141.1234567890")).toOption.map fun x =>
        (((x.binary .sscc96 0).toOption.map List.length), ((x.binaryAny (.sscc .sscc96) 63).toOption.map List.length))) = some (some 96, some 99) := by
      decide +kernel
    rw [e] at hx
    have hx := Option.some.inj hx
    dsimp only at hx
    cases h0 : x.binary .sscc96 0 with
    | error _ => rw [h0] at hx; exact absurd (Prod.mk.inj hx).1 (by simp [Except.toOption])
    | ok b0 =>
      cases h1 : x.binaryAny (.sscc .sscc96) 63 with
      | error _ => rw [h1] at hx; exact absurd (Prod.mk.inj hx).2 (by simp [Except.toOption])
      | ok b =>
        have := h _ x .sscc96 63 e b b0 h0 h1
        rw [h0, h1] at hx
        have hx1 : b0.length = 96 := Option.some.inj (Prod.mk.inj hx).1
        have hx2 : b.length = 99 := Option.some.inj (Prod.mk.inj hx).2
        omega

theorem C85_sscc_partial {u : Str} {x : SSCC} (hu : SSCC.new u = .ok x) (cs : SSCC.Coding) (f : Fin 64) :
    (∀ h : f.val < 8, x.tagUriAny (.sscc cs) f = x.tagUri cs ⟨f, h⟩ ∧ x.binaryAny (.sscc cs) f = x.binary cs ⟨f, h⟩) ∧
    (∀ t, x.tagUriAny (.sscc cs) f = .ok t → SSCC.fromTagUri t = .ok x) ∧
    (∀ b, x.binaryAny (.sscc cs) f = .ok b → ∃ b0, x.binary cs 0 = .ok b0 ∧ 8 + 3 ≤ b0.length ∧
      ∀ w, 3 ≤ w → f.val < 2 ^ w → (w = 3 ∨ 2 ^ (w - 1) ≤ f.val) →
        b = b0.take 8 ++ bitsOf w f ++ b0.drop (8 + 3) ∧ b.length = b0.length + (w - 3)) := by
  refine ⟨fun h => ⟨rfl, rfl⟩, ?_, ?_⟩
  · intro t ht
    have ht' : t = tagUriPrefix ++ cs.value ++ ':' :: (natStr f ++ '.' :: (x.companyPref ++ '.' :: x.serial)) := by
      unfold SSCC.tagUriAny at ht
      injection ht with ht
      simpa [filterStr, AnyCoding.value] using ht.symm
    subst ht'
    apply SSCC.fromTagUri_of_new (num_natStr f)
    rw [← SSCC.uri_rest hu]
    exact hu
  · intro b hb
    obtain ⟨r, rfl, h0⟩ := SSCC.binaryAny_zero hb
    have hh : (cs.header).length = 8 := by cases cs <;> rfl
    have hz : (bin 3 0).length = 3 := by decide
    refine ⟨_, h0, by simp only [List.length_append]; omega, fun w hw hlt hor => ?_⟩
    have hg := filterBits (by decide) hw hlt hor
    have hl : (bitsOf w f.val).length = w := length_bitsOf _ _
    rw [hg]
    exact ⟨splice hh hz _, by simp only [List.length_append]; omega⟩

theorem C85_sgln_claim_false : ¬ ∀ (u : Str) (x : SGLN) (cs : SGLN.Coding) (f : Fin 64), SGLN.new u = .ok x →
    ∀ b b0, x.binary cs 0 = .ok b0 → x.binaryAny (.sgln cs) f = .ok b → b.length = b0.length := by
  intro h
  cases e : SGLN.new (py "urn:epc:id:sgln:0614141.12345.400") with
  | error _ =>
    have hx : (SGLN.new (py "urn:epc:id:sgln:0614141.12345.400")).toBool = true := by decide +kernel
    rw [e] at hx; exact Bool.noConfusion hx
  | ok x =>
    have hx : ((SGLN.new (py "urn:epc:id:sgln:0614141.12345.400")).toOption.map fun x =>
        (((x.binary .sgln96 0).toOption.map List.length), ((x.binaryAny (.sgln .sgln96) 63).toOption.map List.length))) = some (some 96, some 99) := by
      decide +kernel
    rw [e] at hx
    have hx := Option.some.inj hx
    dsimp only at hx
    cases h0 : x.binary .sgln96 0 with
    | error _ => rw [h0] at hx; exact absurd (Prod.mk.inj hx).1 (by simp [Except.toOption])
    | ok b0 =>
      cases h1 : x.binaryAny (.sgln .sgln96) 63 with
      | error _ => rw [h1] at hx; exact absurd (Prod.mk.inj hx).2 (by simp [Except.toOption])
      | ok b =>
        have := h _ x .sgln96 63 e b b0 h0 h1
        rw [h0, h1] at hx
        have hx1 : b0.length = 96 := Option.some.inj (Prod.mk.inj hx).1
        have hx2 : b.length = 99 := Option.some.inj (Prod.mk.inj hx).2
        omega

theorem C85_sgln_partial {u : Str} {x : SGLN} (hu : SGLN.new u = .ok x) (cs : SGLN.Coding) (f : Fin 64) :
    (∀ h : f.val < 8, x.tagUriAny (.sgln cs) f = x.tagUri cs ⟨f, h⟩ ∧ x.binaryAny (.sgln cs) f = x.binary cs ⟨f, h⟩) ∧
    (∀ t, x.tagUriAny (.sgln cs) f = .ok t → SGLN.fromTagUri t = .ok x) ∧
    (∀ b, x.binaryAny (.sgln cs) f = .ok b → ∃ b0, x.binary cs 0 = .ok b0 ∧ 8 + 3 ≤ b0.length ∧
      ∀ w, 3 ≤ w → f.val < 2 ^ w → (w = 3 ∨ 2 ^ (w - 1) ≤ f.val) →
        b = b0.take 8 ++ bitsOf w f ++ b0.drop (8 + 3) ∧ b.length = b0.length + (w - 3)) := by
  refine ⟨fun h => ⟨rfl, rfl⟩, ?_, ?_⟩
  · intro t ht
    have ht' : t = tagUriPrefix ++ cs.value ++ ':' :: (natStr f ++ '.' :: (x.companyPref ++ '.' :: x.locationRef ++ '.' :: x.serial)) := by
      unfold SGLN.tagUriAny at ht
      obtain ⟨bad, -, ht⟩ := bind_ok_iff.1 ht
      dsimp only at ht
      split at ht
      · cases ht
      · injection ht with ht
        simpa [filterStr, AnyCoding.value] using ht.symm
    subst ht'
    apply SGLN.fromTagUri_of_new (num_natStr f)
    rw [← SGLN.uri_rest hu]
    exact hu
  · intro b hb
    obtain ⟨r, rfl, h0⟩ := SGLN.binaryAny_zero hb
    have hh : (cs.header).length = 8 := by cases cs <;> rfl
    have hz : (bin 3 0).length = 3 := by decide
    refine ⟨_, h0, by simp only [List.length_append]; omega, fun w hw hlt hor => ?_⟩
    have hg := filterBits (by decide) hw hlt hor
    have hl : (bitsOf w f.val).length = w := length_bitsOf _ _
    rw [hg]
    exact ⟨splice hh hz _, by simp only [List.length_append]; omega⟩

theorem C85_grai_claim_false : ¬ ∀ (u : Str) (x : GRAI) (cs : GRAI.Coding) (f : Fin 64), GRAI.new u = .ok x →
    ∀ b b0, x.binary cs 0 = .ok b0 → x.binaryAny (.grai cs) f = .ok b → b.length = b0.length := by
  intro h
  cases e : GRAI.new (py "urn:epc:id:grai:0614141.12345.400") with
  | error _ =>
    have hx : (GRAI.new (py "urn:epc:id:grai:0614141.12345.400")).toBool = true := by decide +kernel
    rw [e] at hx; exact Bool.noConfusion hx
  | ok x =>
    have hx : ((GRAI.new (py "urn:epc:id:grai:0614141.12345.400")).toOption.map fun x =>
        (((x.binary .grai96 0).toOption.map List.length), ((x.binaryAny (.grai .grai96) 63).toOption.map List.length))) = some (some 96, some 99) := by
      decide +kernel
    rw [e] at hx
    have hx := Option.some.inj hx
    dsimp only at hx
    cases h0 : x.binary .grai96 0 with
    | error _ => rw [h0] at hx; exact absurd (Prod.mk.inj hx).1 (by simp [Except.toOption])
    | ok b0 =>
      cases h1 : x.binaryAny (.grai .grai96) 63 with
      | error _ => rw [h1] at hx; exact absurd (Prod.mk.inj hx).2 (by simp [Except.toOption])
      | ok b =>
        have := h _ x .grai96 63 e b b0 h0 h1
        rw [h0, h1] at hx
        have hx1 : b0.length = 96 := Option.some.inj (Prod.mk.inj hx).1
        have hx2 : b.length = 99 := Option.some.inj (Prod.mk.inj hx).2
        omega

theorem C85_grai_partial {u : Str} {x : GRAI} (hu : GRAI.new u = .ok x) (cs : GRAI.Coding) (f : Fin 64) :
    (∀ h : f.val < 8, x.tagUriAny (.grai cs) f = x.tagUri cs ⟨f, h⟩ ∧ x.binaryAny (.grai cs) f = x.binary cs ⟨f, h⟩) ∧
    (∀ t, x.tagUriAny (.grai cs) f = .ok t → GRAI.fromTagUri t = .ok x) ∧
    (∀ b, x.binaryAny (.grai cs) f = .ok b → ∃ b0, x.binary cs 0 = .ok b0 ∧ 8 + 3 ≤ b0.length ∧
      ∀ w, 3 ≤ w → f.val < 2 ^ w → (w = 3 ∨ 2 ^ (w - 1) ≤ f.val) →
        b = b0.take 8 ++ bitsOf w f ++ b0.drop (8 + 3) ∧ b.length = b0.length + (w - 3)) := by
  refine ⟨fun h => ⟨rfl, rfl⟩, ?_, ?_⟩
  · intro t ht
    have ht' : t = tagUriPrefix ++ cs.value ++ ':' :: (natStr f ++ '.' :: (x.companyPref ++ '.' :: x.assetType ++ '.' :: x.serial)) := by
      unfold GRAI.tagUriAny at ht
      obtain ⟨bad, -, ht⟩ := bind_ok_iff.1 ht
      dsimp only at ht
      split at ht
      · cases ht
      · injection ht with ht
        simpa [filterStr, AnyCoding.value] using ht.symm
    subst ht'
    apply GRAI.fromTagUri_of_new (num_natStr f)
    rw [← GRAI.uri_rest hu]
    exact hu
  · intro b hb
    obtain ⟨r, rfl, h0⟩ := GRAI.binaryAny_zero hb
    have hh : (cs.header).length = 8 := by cases cs <;> rfl
    have hz : (bin 3 0).length = 3 := by decide
    refine ⟨_, h0, by simp only [List.length_append]; omega, fun w hw hlt hor => ?_⟩
    have hg := filterBits (by decide) hw hlt hor
    have hl : (bitsOf w f.val).length = w := length_bitsOf _ _
    rw [hg]
    exact ⟨splice hh hz _, by simp only [List.length_append]; omega⟩

theorem C85_giai_claim_false : ¬ ∀ (u : Str) (x : GIAI) (cs : GIAI.Coding) (f : Fin 64), GIAI.new u = .ok x →
    ∀ b b0, x.binary cs 0 = .ok b0 → x.binaryAny (.giai cs) f = .ok b → b.length = b0.length := by
  intro h
  cases e : GIAI.new (py "urn:epc:id:giai:0614141.12345400") with
  | error _ =>
    have hx : (GIAI.new (py "urn:epc:id:giai:0614141.12345400")).toBool = true := by decide +kernel
    rw [e] at hx; exact Bool.noConfusion hx
  | ok x =>
    have hx : ((GIAI.new (py "urn:epc:id:giai:0614141.12345400")).toOption.map fun x =>
        (((x.binary .giai96 0).toOption.map List.length), ((x.binaryAny (.giai .giai96) 63).toOption.map List.length))) = some (some 96, some 99) := by
      decide +kernel
    rw [e] at hx
    have hx := Option.some.inj hx
    dsimp only at hx
    cases h0 : x.binary .giai96 0 with
    | error _ => rw [h0] at hx; exact absurd (Prod.mk.inj hx).1 (by simp [Except.toOption])
    | ok b0 =>
      cases h1 : x.binaryAny (.giai .giai96) 63 with
      | error _ => rw [h1] at hx; exact absurd (Prod.mk.inj hx).2 (by simp [Except.toOption])
      | ok b =>
        have := h _ x .giai96 63 e b b0 h0 h1
        rw [h0, h1] at hx
        have hx1 : b0.length = 96 := Option.some.inj (Prod.mk.inj hx).1
        have hx2 : b.length = 99 := Option.some.inj (Prod.mk.inj hx).2
        omega

/-- (`hf`: no colon in the asset reference, compare C15.) -/
theorem C85_giai_partial {u : Str} {x : GIAI} (hu : GIAI.new u = .ok x) (hf : u = py "urn:epc:id:giai:" ++ x.companyPref ++ '.' :: x.assetRef) (cs : GIAI.Coding) (f : Fin 64) :
    (∀ h : f.val < 8, x.tagUriAny (.giai cs) f = x.tagUri cs ⟨f, h⟩ ∧ x.binaryAny (.giai cs) f = x.binary cs ⟨f, h⟩) ∧
    (∀ t, x.tagUriAny (.giai cs) f = .ok t → GIAI.fromTagUri t = .ok x) ∧
    (∀ b, x.binaryAny (.giai cs) f = .ok b → ∃ b0, x.binary cs 0 = .ok b0 ∧ 8 + 3 ≤ b0.length ∧
      ∀ w, 3 ≤ w → f.val < 2 ^ w → (w = 3 ∨ 2 ^ (w - 1) ≤ f.val) →
        b = b0.take 8 ++ bitsOf w f ++ b0.drop (8 + 3) ∧ b.length = b0.length + (w - 3)) := by
  refine ⟨fun h => ⟨rfl, rfl⟩, ?_, ?_⟩
  · intro t ht
    have ht' : t = tagUriPrefix ++ cs.value ++ ':' :: (natStr f ++ '.' :: (x.companyPref ++ '.' :: x.assetRef)) := by
      unfold GIAI.tagUriAny at ht
      obtain ⟨bad, -, ht⟩ := bind_ok_iff.1 ht
      dsimp only at ht
      split at ht
      · cases ht
      · injection ht with ht
        simpa [filterStr, AnyCoding.value] using ht.symm
    subst ht'
    apply GIAI.fromTagUri_of_new (num_natStr f)
    rw [← hu, hf]
    simp
  · intro b hb
    obtain ⟨r, rfl, h0⟩ := GIAI.binaryAny_zero hb
    have hh : (cs.header).length = 8 := by cases cs <;> rfl
    have hz : (bin 3 0).length = 3 := by decide
    refine ⟨_, h0, by simp only [List.length_append]; omega, fun w hw hlt hor => ?_⟩
    have hg := filterBits (by decide) hw hlt hor
    have hl : (bitsOf w f.val).length = w := length_bitsOf _ _
    rw [hg]
    exact ⟨splice hh hz _, by simp only [List.length_append]; omega⟩

theorem C85_gsrn_claim_false : ¬ ∀ (u : Str) (x : GSRN) (cs : GSRN.Coding) (f : Fin 64), GSRN.new u = .ok x →
    ∀ b b0, x.binary cs 0 = .ok b0 → x.binaryAny (.gsrn cs) f = .ok b → b.length = b0.length := by
  intro h
  cases e : GSRN.new (py "urn:epc:id:gsrn:0614141.1234567890") with
  | error _ =>
    have hx : (GSRN.new (py "urn:epc:id:gsrn:0614141.1234567890")).toBool = true := by decide +kernel
    rw [e] at hx; exact Bool.noConfusion hx
  | ok x =>
    have hx : ((GSRN.new (py "urn:epc:id:gsrn:0614141.1234567890")).toOption.map fun x =>
        (((x.binary .gsrn96 0).toOption.map List.length), ((x.binaryAny (.gsrn .gsrn96) 63).toOption.map List.length))) = some (some 96, some 99) := by
      decide +kernel
    rw [e] at hx
    have hx := Option.some.inj hx
    dsimp only at hx
    cases h0 : x.binary .gsrn96 0 with
    | error _ => rw [h0] at hx; exact absurd (Prod.mk.inj hx).1 (by simp [Except.toOption])
    | ok b0 =>
      cases h1 : x.binaryAny (.gsrn .gsrn96) 63 with
      | error _ => rw [h1] at hx; exact absurd (Prod.mk.inj hx).2 (by simp [Except.toOption])
      | ok b =>
        have := h _ x .gsrn96 63 e b b0 h0 h1
        rw [h0, h1] at hx
        have hx1 : b0.length = 96 := Option.some.inj (Prod.mk.inj hx).1
        have hx2 : b.length = 99 := Option.some.inj (Prod.mk.inj hx).2
        omega

theorem C85_gsrn_partial {u : Str} {x : GSRN} (hu : GSRN.new u = .ok x) (cs : GSRN.Coding) (f : Fin 64) :
    (∀ h : f.val < 8, x.tagUriAny (.gsrn cs) f = x.tagUri cs ⟨f, h⟩ ∧ x.binaryAny (.gsrn cs) f = x.binary cs ⟨f, h⟩) ∧
    (∀ t, x.tagUriAny (.gsrn cs) f = .ok t → GSRN.fromTagUri t = .ok x) ∧
    (∀ b, x.binaryAny (.gsrn cs) f = .ok b → ∃ b0, x.binary cs 0 = .ok b0 ∧ 8 + 3 ≤ b0.length ∧
      ∀ w, 3 ≤ w → f.val < 2 ^ w → (w = 3 ∨ 2 ^ (w - 1) ≤ f.val) →
        b = b0.take 8 ++ bitsOf w f ++ b0.drop (8 + 3) ∧ b.length = b0.length + (w - 3)) := by
  refine ⟨fun h => ⟨rfl, rfl⟩, ?_, ?_⟩
  · intro t ht
    have ht' : t = tagUriPrefix ++ cs.value ++ ':' :: (natStr f ++ '.' :: (x.companyPref ++ '.' :: x.serviceRef)) := by
      unfold GSRN.tagUriAny at ht
      injection ht with ht
      simpa [filterStr, AnyCoding.value] using ht.symm
    subst ht'
    apply GSRN.fromTagUri_of_new (num_natStr f)
    rw [← GSRN.uri_rest hu]
    exact hu
  · intro b hb
    obtain ⟨r, rfl, h0⟩ := GSRN.binaryAny_zero hb
    have hh : (cs.header).length = 8 := by cases cs <;> rfl
    have hz : (bin 3 0).length = 3 := by decide
    refine ⟨_, h0, by simp only [List.length_append]; omega, fun w hw hlt hor => ?_⟩
    have hg := filterBits (by decide) hw hlt hor
    have hl : (bitsOf w f.val).length = w := length_bitsOf _ _
    rw [hg]
    exact ⟨splice hh hz _, by simp only [List.length_append]; omega⟩

theorem C85_gsrnp_claim_false : ¬ ∀ (u : Str) (x : GSRNP) (cs : GSRNP.Coding) (f : Fin 64), GSRNP.new u = .ok x →
    ∀ b b0, x.binary cs 0 = .ok b0 → x.binaryAny (.gsrnp cs) f = .ok b → b.length = b0.length := by
  intro h
  cases e : GSRNP.new (py "urn:epc:id:gsrnp:0614141.1234567890") with
  | error _ =>
    have hx : (GSRNP.new (py "urn:epc:id:gsrnp:0614141.1234567890")).toBool = true := by decide +kernel
    rw [e] at hx; exact Bool.noConfusion hx
  | ok x =>
    have hx : ((GSRNP.new (py "urn:epc:id:gsrnp:0614141.1234567890")).toOption.map fun x =>
        (((x.binary .gsrnp96 0).toOption.map List.length), ((x.binaryAny (.gsrnp .gsrnp96) 63).toOption.map List.length))) = some (some 96, some 99) := by
      decide +kernel
    rw [e] at hx
    have hx := Option.some.inj hx
    dsimp only at hx
    cases h0 : x.binary .gsrnp96 0 with
    | error _ => rw [h0] at hx; exact absurd (Prod.mk.inj hx).1 (by simp [Except.toOption])
    | ok b0 =>
      cases h1 : x.binaryAny (.gsrnp .gsrnp96) 63 with
      | error _ => rw [h1] at hx; exact absurd (Prod.mk.inj hx).2 (by simp [Except.toOption])
      | ok b =>
        have := h _ x .gsrnp96 63 e b b0 h0 h1
        rw [h0, h1] at hx
        have hx1 : b0.length = 96 := Option.some.inj (Prod.mk.inj hx).1
        have hx2 : b.length = 99 := Option.some.inj (Prod.mk.inj hx).2
        omega

theorem C85_gsrnp_partial {u : Str} {x : GSRNP} (hu : GSRNP.new u = .ok x) (cs : GSRNP.Coding) (f : Fin 64) :
    (∀ h : f.val < 8, x.tagUriAny (.gsrnp cs) f = x.tagUri cs ⟨f, h⟩ ∧ x.binaryAny (.gsrnp cs) f = x.binary cs ⟨f, h⟩) ∧
    (∀ t, x.tagUriAny (.gsrnp cs) f = .ok t → GSRNP.fromTagUri t = .ok x) ∧
    (∀ b, x.binaryAny (.gsrnp cs) f = .ok b → ∃ b0, x.binary cs 0 = .ok b0 ∧ 8 + 3 ≤ b0.length ∧
      ∀ w, 3 ≤ w → f.val < 2 ^ w → (w = 3 ∨ 2 ^ (w - 1) ≤ f.val) →
        b = b0.take 8 ++ bitsOf w f ++ b0.drop (8 + 3) ∧ b.length = b0.length + (w - 3)) := by
  refine ⟨fun h => ⟨rfl, rfl⟩, ?_, ?_⟩
  · intro t ht
    have ht' : t = tagUriPrefix ++ cs.value ++ ':' :: (natStr f ++ '.' :: (x.companyPref ++ '.' :: x.serviceRef)) := by
      unfold GSRNP.tagUriAny at ht
      injection ht with ht
      simpa [filterStr, AnyCoding.value] using ht.symm
    subst ht'
    apply GSRNP.fromTagUri_of_new (num_natStr f)
    rw [← GSRNP.uri_rest hu]
    exact hu
  · intro b hb
    obtain ⟨r, rfl, h0⟩ := GSRNP.binaryAny_zero hb
    have hh : (cs.header).length = 8 := by cases cs <;> rfl
    have hz : (bin 3 0).length = 3 := by decide
    refine ⟨_, h0, by simp only [List.length_append]; omega, fun w hw hlt hor => ?_⟩
    have hg := filterBits (by decide) hw hlt hor
    have hl : (bitsOf w f.val).length = w := length_bitsOf _ _
    rw [hg]
    exact ⟨splice hh hz _, by simp only [List.length_append]; omega⟩

theorem C85_gdti_claim_false : ¬ ∀ (u : Str) (x : GDTI) (cs : GDTI.Coding) (f : Fin 64), GDTI.new u = .ok x →
    ∀ b b0, x.binary cs 0 = .ok b0 → x.binaryAny (.gdti cs) f = .ok b → b.length = b0.length := by
  intro h
  cases e : GDTI.new (py "urn:epc:id:gdti:0614141.12345.400") with
  | error _ =>
    have hx : (GDTI.new (py "urn:epc:id:gdti:0614141.12345.400")).toBool = true := by decide +kernel
    rw [e] at hx; exact Bool.noConfusion hx
  | ok x =>
    have hx : ((GDTI.new (py "urn:epc:id:gdti:0614141.12345.400")).toOption.map fun x =>
        (((x.binary .gdti96 0).toOption.map List.length), ((x.binaryAny (.gdti .gdti96) 63).toOption.map List.length))) = some (some 96, some 99) := by
      decide +kernel
    rw [e] at hx
    have hx := Option.some.inj hx
    dsimp only at hx
    cases h0 : x.binary .gdti96 0 with
    | error _ => rw [h0] at hx; exact absurd (Prod.mk.inj hx).1 (by simp [Except.toOption])
    | ok b0 =>
      cases h1 : x.binaryAny (.gdti .gdti96) 63 with
      | error _ => rw [h1] at hx; exact absurd (Prod.mk.inj hx).2 (by simp [Except.toOption])
      | ok b =>
        have := h _ x .gdti96 63 e b b0 h0 h1
        rw [h0, h1] at hx
        have hx1 : b0.length = 96 := Option.some.inj (Prod.mk.inj hx).1
        have hx2 : b.length = 99 := Option.some.inj (Prod.mk.inj hx).2
        omega

theorem C85_gdti_partial {u : Str} {x : GDTI} (hu : GDTI.new u = .ok x) (cs : GDTI.Coding) (f : Fin 64) :
    (∀ h : f.val < 8, x.tagUriAny (.gdti cs) f = x.tagUri cs ⟨f, h⟩ ∧ x.binaryAny (.gdti cs) f = x.binary cs ⟨f, h⟩) ∧
    (∀ t, x.tagUriAny (.gdti cs) f = .ok t → GDTI.fromTagUri t = .ok x) ∧
    (∀ b, x.binaryAny (.gdti cs) f = .ok b → ∃ b0, x.binary cs 0 = .ok b0 ∧ 8 + 3 ≤ b0.length ∧
      ∀ w, 3 ≤ w → f.val < 2 ^ w → (w = 3 ∨ 2 ^ (w - 1) ≤ f.val) →
        b = b0.take 8 ++ bitsOf w f ++ b0.drop (8 + 3) ∧ b.length = b0.length + (w - 3)) := by
  refine ⟨fun h => ⟨rfl, rfl⟩, ?_, ?_⟩
  · intro t ht
    have ht' : t = tagUriPrefix ++ cs.value ++ ':' :: (natStr f ++ '.' :: (x.companyPref ++ '.' :: x.docType ++ '.' :: x.serial)) := by
      unfold GDTI.tagUriAny at ht
      obtain ⟨bad, -, ht⟩ := bind_ok_iff.1 ht
      dsimp only at ht
      split at ht
      · cases ht
      · injection ht with ht
        simpa [filterStr, AnyCoding.value] using ht.symm
    subst ht'
    apply GDTI.fromTagUri_of_new (num_natStr f)
    rw [← GDTI.uri_rest hu]
    exact hu
  · intro b hb
    obtain ⟨r, rfl, h0⟩ := GDTI.binaryAny_zero hb
    have hh : (cs.header).length = 8 := by cases cs <;> rfl
    have hz : (bin 3 0).length = 3 := by decide
    refine ⟨_, h0, by simp only [List.length_append]; omega, fun w hw hlt hor => ?_⟩
    have hg := filterBits (by decide) hw hlt hor
    have hl : (bitsOf w f.val).length = w := length_bitsOf _ _
    rw [hg]
    exact ⟨splice hh hz _, by simp only [List.length_append]; omega⟩

theorem C85_cpi_claim_false : ¬ ∀ (u : Str) (x : CPI) (cs : CPI.Coding) (f : Fin 64), CPI.new u = .ok x →
    ∀ b b0, x.binary cs 0 = .ok b0 → x.binaryAny (.cpi cs) f = .ok b → b.length = b0.length := by
  intro h
  cases e : CPI.new (py "urn:epc:id:cpi:0614141.123456.123456789") with
  | error _ =>
    have hx : (CPI.new (py "urn:epc:id:cpi:0614141.123456.123456789")).toBool = true := by decide +kernel
    rw [e] at hx; exact Bool.noConfusion hx
  | ok x =>
    have hx : ((CPI.new (py "urn:epc:id:cpi:0614141.123456.123456789")).toOption.map fun x =>
        (((x.binary .cpi96 0).toOption.map List.length), ((x.binaryAny (.cpi .cpi96) 63).toOption.map List.length))) = some (some 96, some 99) := by
      decide +kernel
    rw [e] at hx
    have hx := Option.some.inj hx
    dsimp only at hx
    cases h0 : x.binary .cpi96 0 with
    | error _ => rw [h0] at hx; exact absurd (Prod.mk.inj hx).1 (by simp [Except.toOption])
    | ok b0 =>
      cases h1 : x.binaryAny (.cpi .cpi96) 63 with
      | error _ => rw [h1] at hx; exact absurd (Prod.mk.inj hx).2 (by simp [Except.toOption])
      | ok b =>
        have := h _ x .cpi96 63 e b b0 h0 h1
        rw [h0, h1] at hx
        have hx1 : b0.length = 96 := Option.some.inj (Prod.mk.inj hx).1
        have hx2 : b.length = 99 := Option.some.inj (Prod.mk.inj hx).2
        omega

theorem C85_cpi_partial {u : Str} {x : CPI} (hu : CPI.new u = .ok x) (cs : CPI.Coding) (f : Fin 64) :
    (∀ h : f.val < 8, x.tagUriAny (.cpi cs) f = x.tagUri cs ⟨f, h⟩ ∧ x.binaryAny (.cpi cs) f = x.binary cs ⟨f, h⟩) ∧
    (∀ t, x.tagUriAny (.cpi cs) f = .ok t → CPI.fromTagUri t = .ok x) ∧
    (∀ b, x.binaryAny (.cpi cs) f = .ok b → ∃ b0, x.binary cs 0 = .ok b0 ∧ 8 + 3 ≤ b0.length ∧
      ∀ w, 3 ≤ w → f.val < 2 ^ w → (w = 3 ∨ 2 ^ (w - 1) ≤ f.val) →
        b = b0.take 8 ++ bitsOf w f ++ b0.drop (8 + 3) ∧ b.length = b0.length + (w - 3)) := by
  refine ⟨fun h => ⟨rfl, rfl⟩, ?_, ?_⟩
  · intro t ht
    have ht' : t = tagUriPrefix ++ cs.value ++ ':' :: (natStr f ++ '.' :: (x.companyPref ++ '.' :: x.cpRef ++ '.' :: x.serial)) := by
      unfold CPI.tagUriAny at ht
      obtain ⟨bad, -, ht⟩ := bind_ok_iff.1 ht
      dsimp only at ht
      split at ht
      · cases ht
      · injection ht with ht
        simpa [filterStr, AnyCoding.value] using ht.symm
    subst ht'
    apply CPI.fromTagUri_of_new (num_natStr f)
    rw [← CPI.uri_rest hu]
    exact hu
  · intro b hb
    obtain ⟨r, rfl, h0⟩ := CPI.binaryAny_zero hb
    have hh : (cs.header).length = 8 := by cases cs <;> rfl
    have hz : (bin 3 0).length = 3 := by decide
    refine ⟨_, h0, by simp only [List.length_append]; omega, fun w hw hlt hor => ?_⟩
    have hg := filterBits (by decide) hw hlt hor
    have hl : (bitsOf w f.val).length = w := length_bitsOf _ _
    rw [hg]
    exact ⟨splice hh hz _, by simp only [List.length_append]; omega⟩

theorem C85_sgcn_claim_false : ¬ ∀ (u : Str) (x : SGCN) (cs : SGCN.Coding) (f : Fin 64), SGCN.new u = .ok x →
    ∀ b b0, x.binary cs 0 = .ok b0 → x.binaryAny (.sgcn cs) f = .ok b → b.length = b0.length := by
  intro h
  cases e : SGCN.new (py "urn:epc:id:sgcn:4012345.67890.04711") with
  | error _ =>
    have hx : (SGCN.new (py "urn:epc:id:sgcn:4012345.67890.04711")).toBool = true := by decide +kernel
    rw [e] at hx; exact Bool.noConfusion hx
  | ok x =>
    have hx : ((SGCN.new (py "urn:epc:id:sgcn:4012345.67890.04711")).toOption.map fun x =>
        (((x.binary .sgcn96 0).toOption.map List.length), ((x.binaryAny (.sgcn .sgcn96) 63).toOption.map List.length))) = some (some 96, some 99) := by
      decide +kernel
    rw [e] at hx
    have hx := Option.some.inj hx
    dsimp only at hx
    cases h0 : x.binary .sgcn96 0 with
    | error _ => rw [h0] at hx; exact absurd (Prod.mk.inj hx).1 (by simp [Except.toOption])
    | ok b0 =>
      cases h1 : x.binaryAny (.sgcn .sgcn96) 63 with
      | error _ => rw [h1] at hx; exact absurd (Prod.mk.inj hx).2 (by simp [Except.toOption])
      | ok b =>
        have := h _ x .sgcn96 63 e b b0 h0 h1
        rw [h0, h1] at hx
        have hx1 : b0.length = 96 := Option.some.inj (Prod.mk.inj hx).1
        have hx2 : b.length = 99 := Option.some.inj (Prod.mk.inj hx).2
        omega

theorem C85_sgcn_partial {u : Str} {x : SGCN} (hu : SGCN.new u = .ok x) (cs : SGCN.Coding) (f : Fin 64) :
    (∀ h : f.val < 8, x.tagUriAny (.sgcn cs) f = x.tagUri cs ⟨f, h⟩ ∧ x.binaryAny (.sgcn cs) f = x.binary cs ⟨f, h⟩) ∧
    (∀ t, x.tagUriAny (.sgcn cs) f = .ok t → SGCN.fromTagUri t = .ok x) ∧
    (∀ b, x.binaryAny (.sgcn cs) f = .ok b → ∃ b0, x.binary cs 0 = .ok b0 ∧ 8 + 3 ≤ b0.length ∧
      ∀ w, 3 ≤ w → f.val < 2 ^ w → (w = 3 ∨ 2 ^ (w - 1) ≤ f.val) →
        b = b0.take 8 ++ bitsOf w f ++ b0.drop (8 + 3) ∧ b.length = b0.length + (w - 3)) := by
  refine ⟨fun h => ⟨rfl, rfl⟩, ?_, ?_⟩
  · intro t ht
    have ht' : t = tagUriPrefix ++ cs.value ++ ':' :: (natStr f ++ '.' :: (x.companyPref ++ '.' :: x.couponRef ++ '.' :: x.serial)) := by
      unfold SGCN.tagUriAny at ht
      injection ht with ht
      simpa [filterStr, AnyCoding.value] using ht.symm
    subst ht'
    apply SGCN.fromTagUri_of_new (num_natStr f)
    rw [← SGCN.uri_rest hu]
    exact hu
  · intro b hb
    obtain ⟨r, rfl, h0⟩ := SGCN.binaryAny_zero hb
    have hh : (cs.header).length = 8 := by cases cs <;> rfl
    have hz : (bin 3 0).length = 3 := by decide
    refine ⟨_, h0, by simp only [List.length_append]; omega, fun w hw hlt hor => ?_⟩
    have hg := filterBits (by decide) hw hlt hor
    have hl : (bitsOf w f.val).length = w := length_bitsOf _ _
    rw [hg]
    exact ⟨splice hh hz _, by simp only [List.length_append]; omega⟩

theorem C85_itip_claim_false : ¬ ∀ (u : Str) (x : ITIP) (cs : ITIP.Coding) (f : Fin 64), ITIP.new u = .ok x →
    ∀ b b0, x.binary cs 0 = .ok b0 → x.binaryAny (.itip cs) f = .ok b → b.length = b0.length := by
  intro h
  cases e : ITIP.new (py "urn:epc:id:itip:4012345.012345.01.02.987") with
  | error _ =>
    have hx : (ITIP.new (py "urn:epc:id:itip:4012345.012345.01.02.987")).toBool = true := by decide +kernel
    rw [e] at hx; exact Bool.noConfusion hx
  | ok x =>
    have hx : ((ITIP.new (py "urn:epc:id:itip:4012345.012345.01.02.987")).toOption.map fun x =>
        (((x.binary .itip110 0).toOption.map List.length), ((x.binaryAny (.itip .itip110) 63).toOption.map List.length))) = some (some 110, some 113) := by
      decide +kernel
    rw [e] at hx
    have hx := Option.some.inj hx
    dsimp only at hx
    cases h0 : x.binary .itip110 0 with
    | error _ => rw [h0] at hx; exact absurd (Prod.mk.inj hx).1 (by simp [Except.toOption])
    | ok b0 =>
      cases h1 : x.binaryAny (.itip .itip110) 63 with
      | error _ => rw [h1] at hx; exact absurd (Prod.mk.inj hx).2 (by simp [Except.toOption])
      | ok b =>
        have := h _ x .itip110 63 e b b0 h0 h1
        rw [h0, h1] at hx
        have hx1 : b0.length = 110 := Option.some.inj (Prod.mk.inj hx).1
        have hx2 : b.length = 113 := Option.some.inj (Prod.mk.inj hx).2
        omega

theorem C85_itip_partial {u : Str} {x : ITIP} (hu : ITIP.new u = .ok x) (cs : ITIP.Coding) (f : Fin 64) :
    (∀ h : f.val < 8, x.tagUriAny (.itip cs) f = x.tagUri cs ⟨f, h⟩ ∧ x.binaryAny (.itip cs) f = x.binary cs ⟨f, h⟩) ∧
    (∀ t, x.tagUriAny (.itip cs) f = .ok t → ITIP.fromTagUri t = .ok x) ∧
    (∀ b, x.binaryAny (.itip cs) f = .ok b → ∃ b0, x.binary cs 0 = .ok b0 ∧ 8 + 3 ≤ b0.length ∧
      ∀ w, 3 ≤ w → f.val < 2 ^ w → (w = 3 ∨ 2 ^ (w - 1) ≤ f.val) →
        b = b0.take 8 ++ bitsOf w f ++ b0.drop (8 + 3) ∧ b.length = b0.length + (w - 3)) := by
  refine ⟨fun h => ⟨rfl, rfl⟩, ?_, ?_⟩
  · intro t ht
    have ht' : t = tagUriPrefix ++ cs.value ++ ':' :: (natStr f ++ '.' :: (x.companyPref ++ '.' :: x.itemRef ++ '.' :: x.piece ++ '.' :: x.total ++ '.' :: x.serial)) := by
      unfold ITIP.tagUriAny at ht
      obtain ⟨bad, -, ht⟩ := bind_ok_iff.1 ht
      dsimp only at ht
      split at ht
      · cases ht
      · injection ht with ht
        simpa [filterStr, AnyCoding.value] using ht.symm
    subst ht'
    apply ITIP.fromTagUri_of_new (num_natStr f)
    rw [← ITIP.uri_rest hu]
    exact hu
  · intro b hb
    obtain ⟨r, rfl, h0⟩ := ITIP.binaryAny_zero hb
    have hh : (cs.header).length = 8 := by cases cs <;> rfl
    have hz : (bin 3 0).length = 3 := by decide
    refine ⟨_, h0, by simp only [List.length_append]; omega, fun w hw hlt hor => ?_⟩
    have hg := filterBits (by decide) hw hlt hor
    have hl : (bitsOf w f.val).length = w := length_bitsOf _ _
    rw [hg]
    exact ⟨splice hh hz _, by simp only [List.length_append]; omega⟩

theorem C85_usdod_claim_false : ¬ ∀ (u : Str) (x : USDOD) (cs : USDOD.Coding) (f : Fin 64), USDOD.new u = .ok x →
    ∀ b b0, x.binary cs 0 = .ok b0 → x.binaryAny (.usdod cs) f = .ok b → b.length = b0.length := by
  intro h
  cases e : USDOD.new (py "urn:epc:id:usdod:2S194.12345678901") with
  | error _ =>
    have hx : (USDOD.new (py "urn:epc:id:usdod:2S194.12345678901")).toBool = true := by decide +kernel
    rw [e] at hx; exact Bool.noConfusion hx
  | ok x =>
    have hx : ((USDOD.new (py "urn:epc:id:usdod:2S194.12345678901")).toOption.map fun x =>
        (((x.binary .usdod96 0).toOption.map List.length), ((x.binaryAny (.usdod .usdod96) 63).toOption.map List.length))) = some (some 96, some 98) := by
      decide +kernel
    rw [e] at hx
    have hx := Option.some.inj hx
    dsimp only at hx
    cases h0 : x.binary .usdod96 0 with
    | error _ => rw [h0] at hx; exact absurd (Prod.mk.inj hx).1 (by simp [Except.toOption])
    | ok b0 =>
      cases h1 : x.binaryAny (.usdod .usdod96) 63 with
      | error _ => rw [h1] at hx; exact absurd (Prod.mk.inj hx).2 (by simp [Except.toOption])
      | ok b =>
        have := h _ x .usdod96 63 e b b0 h0 h1
        rw [h0, h1] at hx
        have hx1 : b0.length = 96 := Option.some.inj (Prod.mk.inj hx).1
        have hx2 : b.length = 98 := Option.some.inj (Prod.mk.inj hx).2
        omega

theorem C85_usdod_partial {u : Str} {x : USDOD} (hu : USDOD.new u = .ok x) (cs : USDOD.Coding) (f : Fin 64) :
    (∀ h : f.val < 16, x.tagUriAny (.usdod cs) f = x.tagUri cs ⟨f, h⟩ ∧ x.binaryAny (.usdod cs) f = x.binary cs ⟨f, h⟩) ∧
    (∀ t, x.tagUriAny (.usdod cs) f = .ok t → USDOD.fromTagUri t = .ok x) ∧
    (∀ b, x.binaryAny (.usdod cs) f = .ok b → ∃ b0, x.binary cs 0 = .ok b0 ∧ 8 + 4 ≤ b0.length ∧
      ∀ w, 4 ≤ w → f.val < 2 ^ w → (w = 4 ∨ 2 ^ (w - 1) ≤ f.val) →
        b = b0.take 8 ++ bitsOf w f ++ b0.drop (8 + 4) ∧ b.length = b0.length + (w - 4)) := by
  refine ⟨fun h => ⟨rfl, rfl⟩, ?_, ?_⟩
  · intro t ht
    have ht' : t = tagUriPrefix ++ cs.value ++ ':' :: (natStr f ++ '.' :: (x.cage ++ '.' :: x.serial)) := by
      unfold USDOD.tagUriAny at ht
      injection ht with ht
      simpa [filterStr, AnyCoding.value] using ht.symm
    subst ht'
    apply USDOD.fromTagUri_of_new (num_natStr f)
    rw [← USDOD.uri_rest hu]
    exact hu
  · intro b hb
    obtain ⟨r, rfl, h0⟩ := USDOD.binaryAny_zero hb
    have hh : (cs.header).length = 8 := by cases cs <;> rfl
    have hz : (bin 4 0).length = 4 := by decide
    refine ⟨_, h0, by simp only [List.length_append]; omega, fun w hw hlt hor => ?_⟩
    have hg := filterBits (by decide) hw hlt hor
    have hl : (bitsOf w f.val).length = w := length_bitsOf _ _
    rw [hg]
    exact ⟨splice hh hz _, by simp only [List.length_append]; omega⟩

/-- The filter values of ADI are the largest. -/
theorem C85_adi (x : ADI) (cs : ADI.Coding) (f : Fin 64) :
    x.tagUriAny (.adi cs) f = x.tagUri cs f ∧ x.binaryAny (.adi cs) f = x.binary cs f := ⟨rfl, rfl⟩

/-- A filter value of USDOD makes the binary of an SSCC one bit too long. -/
example : ((SSCC.new (py "urn:epc:id:sscc:0614141.1234567890")).toOption.map fun x => ((x.binaryAny (.sscc .sscc96) 15).toOption.map List.length)) =
    some (some 97) := by decide +kernel

end Epc
