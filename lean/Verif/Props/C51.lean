/-
C51: the binary of a serial that the numeric coding scheme cannot express is refused.

False: `tag_uri()` refuses such a serial, `binary()` with the same arguments does not look at it.  Leading zeros are dropped (so two
different identities get the same binary, `C51_x_alias`), a serial that is too large makes the binary too long, a serial "-5" puts a
minus sign into the binary, "1_0" is read as ten.  What does hold (`C51_x_partial`): a serial with any character other than digits,
underscore, plus and minus makes `binary()` raise a ValueError.
-/
import Verif.Lemmas.Alias
import Verif.Lemmas.Elem
import Verif.Props.C63

namespace Epc
open Spec Re

/-- SGTIN: the claim fails. -/
theorem C51_sgtin_claim_false :
    ¬ ∀ (u : Str) (x : SGTIN) (f : Fin 8), SGTIN.new u = .ok x → x.tagUri .sgtin96 f = .error .convert → ∃ e, x.binary .sgtin96 f = .error e := by
  intro h
  have hw : (do let x ← SGTIN.new (py "urn:epc:id:sgtin:0614141.112345.007"); let b ← x.binary .sgtin96 0; pure (x.tagUri .sgtin96 0, b.length)) =
      .ok (.error .convert, 96) := by decide +kernel
  obtain ⟨x, hx, hw⟩ := bind_ok_iff.1 hw
  obtain ⟨b, hb, hw⟩ := bind_ok_iff.1 hw
  rw [pure_ok] at hw
  obtain ⟨e, he⟩ := h _ x 0 hx (congrArg Prod.fst (Except.ok.inj hw))
  rw [hb] at he
  cases he

/-- SGTIN: leading zeros of a serial are lost, the identity without them has the same binary. -/
theorem C51_sgtin_alias (u : Str) (x : SGTIN) (f : Fin 8) (hu : SGTIN.new u = .ok x) (hd : Digits x.serial) :
    ∃ y, SGTIN.new (py "urn:epc:id:sgtin:" ++ joinWith '.' [x.companyPref, x.itemRef, natStr (number x.serial)]) = .ok y ∧
      y.binary .sgtin96 f = x.binary .sgtin96 f := by
  obtain ⟨C, D, S, ⟨hC, hD, hS⟩, hlen, e, rfl⟩ := SGTIN.new_iff.1 hu
  dsimp only at hd ⊢
  obtain ⟨k1, k2, k3, k4, k5, k6, k7⟩ := strip_serial hd (gs3a3_ne_nil hS)
  refine ⟨_, SGTIN.new_iff.2 ⟨C, D, natStr (number S), ⟨hC, hD, k1⟩, ⟨hlen.1, hlen.2.1, k2, k3, by rw [k4]; have := hlen.2.2.2.2; omega⟩, rfl, rfl⟩, ?_⟩
  unfold SGTIN.binary
  dsimp only
  simp only [if_true, k7]

/-- SGTIN: a serial with a character other than digits, underscore, plus and minus is refused, with a ValueError. -/
theorem C51_sgtin_partial (u : Str) (x : SGTIN) (f : Fin 8) (hu : SGTIN.new u = .ok x)
    (hc : ∃ c ∈ x.serial, c ∉ py "0123456789_+-") : x.binary .sgtin96 f = .error .value := by
  obtain ⟨y, ha, hy, hxy, -, -, h⟩ := C63_sgtin u x hu
  rw [← (h _ f).2]
  replace hc : ∃ c ∈ y.serial, c ∉ py "0123456789_+-" := by
    obtain ⟨C, D, S, ⟨_, _, hS⟩, _, _, rfl⟩ := SGTIN.new_iff.1 hu
    rw [hxy]
    dsimp only at hc ⊢
    rwa [asciiDigits_ascii (gs3a3_ascii hS)]
  clear hxy h
  obtain ⟨C, D, S, ⟨hC, hD, hS⟩, hlen, e, rfl⟩ := SGTIN.new_iff.1 hy
  obtain ⟨aC, aD, aS⟩ := ascii_uri3 (e ▸ ha)
  dsimp only at hc
  obtain ⟨p, p1, p2, p3, p4⟩ := part_ok (t := SGTIN.table) (W := 47) (T := 13) (by decide) (by decide) (by decide) (by decide)
    (digits_of_dec_ascii hC.2 aC) (digits_of_dec_ascii hD.2 aD) (by omega) (by omega) (by omega)
  unfold SGTIN.binary
  rw [filter_ok, ok_bind]
  dsimp only
  rw [p1, ok_bind, if_pos rfl, strToBinary_letter _ (gs3a3_gs82 hS) hc, error_bind]

/-- SGLN: the claim fails. -/
theorem C51_sgln_claim_false :
    ¬ ∀ (u : Str) (x : SGLN) (f : Fin 8), SGLN.new u = .ok x → x.tagUri .sgln96 f = .error .convert → ∃ e, x.binary .sgln96 f = .error e := by
  intro h
  have hw : (do let x ← SGLN.new (py "urn:epc:id:sgln:0614141.12345.007"); let b ← x.binary .sgln96 0; pure (x.tagUri .sgln96 0, b.length)) =
      .ok (.error .convert, 96) := by decide +kernel
  obtain ⟨x, hx, hw⟩ := bind_ok_iff.1 hw
  obtain ⟨b, hb, hw⟩ := bind_ok_iff.1 hw
  rw [pure_ok] at hw
  obtain ⟨e, he⟩ := h _ x 0 hx (congrArg Prod.fst (Except.ok.inj hw))
  rw [hb] at he
  cases he

/-- SGLN: leading zeros of a serial are lost, the identity without them has the same binary. -/
theorem C51_sgln_alias (u : Str) (x : SGLN) (f : Fin 8) (hu : SGLN.new u = .ok x) (hd : Digits x.serial) :
    ∃ y, SGLN.new (py "urn:epc:id:sgln:" ++ joinWith '.' [x.companyPref, x.locationRef, natStr (number x.serial)]) = .ok y ∧
      y.binary .sgln96 f = x.binary .sgln96 f := by
  obtain ⟨C, D, S, ⟨hC, hD, hS⟩, hlen, e, rfl⟩ := SGLN.new_iff.1 hu
  dsimp only at hd ⊢
  obtain ⟨k1, k2, k3, k4, k5, k6, k7⟩ := strip_serial hd (gs3a3_ne_nil hS)
  refine ⟨_, SGLN.new_iff.2 ⟨C, D, natStr (number S), ⟨hC, hD, k1⟩, ⟨hlen.1, hlen.2.1, k2, by rw [k4]; have := hlen.2.2.2; omega⟩, rfl, rfl⟩, ?_⟩
  unfold SGLN.binary
  dsimp only
  simp only [if_true, k7]

/-- SGLN: a serial with a character other than digits, underscore, plus and minus is refused, with a ValueError. -/
theorem C51_sgln_partial (u : Str) (x : SGLN) (f : Fin 8) (hu : SGLN.new u = .ok x)
    (hc : ∃ c ∈ x.serial, c ∉ py "0123456789_+-") : x.binary .sgln96 f = .error .value := by
  obtain ⟨y, ha, hy, hxy, -, -, h⟩ := C63_sgln u x hu
  rw [← (h _ f).2]
  replace hc : ∃ c ∈ y.serial, c ∉ py "0123456789_+-" := by
    obtain ⟨C, D, S, ⟨_, _, hS⟩, _, _, rfl⟩ := SGLN.new_iff.1 hu
    rw [hxy]
    dsimp only at hc ⊢
    rwa [asciiDigits_ascii (gs3a3_ascii hS)]
  clear hxy h
  obtain ⟨C, D, S, ⟨hC, hD, hS⟩, hlen, e, rfl⟩ := SGLN.new_iff.1 hy
  obtain ⟨aC, aD, aS⟩ := ascii_uri3 (e ▸ ha)
  dsimp only at hc
  obtain ⟨p, p1, p2, p3, p4⟩ := part_ok (t := SGLN.table) (W := 44) (T := 12) (by decide) (by decide) (by decide) (by decide)
    (digits_of_dec_ascii hC.2 aC) (digits_of_dec_ascii hD aD) (by omega) (by omega) (by omega)
  unfold SGLN.binary
  rw [filter_ok, ok_bind]
  dsimp only
  rw [p1, ok_bind, if_pos rfl, strToBinary_letter _ (gs3a3_gs82 hS) hc, error_bind]

/-- GRAI: the claim fails. -/
theorem C51_grai_claim_false :
    ¬ ∀ (u : Str) (x : GRAI) (f : Fin 8), GRAI.new u = .ok x → x.tagUri .grai96 f = .error .convert → ∃ e, x.binary .grai96 f = .error e := by
  intro h
  have hw : (do let x ← GRAI.new (py "urn:epc:id:grai:0614141.12345.007"); let b ← x.binary .grai96 0; pure (x.tagUri .grai96 0, b.length)) =
      .ok (.error .convert, 96) := by decide +kernel
  obtain ⟨x, hx, hw⟩ := bind_ok_iff.1 hw
  obtain ⟨b, hb, hw⟩ := bind_ok_iff.1 hw
  rw [pure_ok] at hw
  obtain ⟨e, he⟩ := h _ x 0 hx (congrArg Prod.fst (Except.ok.inj hw))
  rw [hb] at he
  cases he

/-- GRAI: leading zeros of a serial are lost, the identity without them has the same binary. -/
theorem C51_grai_alias (u : Str) (x : GRAI) (f : Fin 8) (hu : GRAI.new u = .ok x) (hd : Digits x.serial) :
    ∃ y, GRAI.new (py "urn:epc:id:grai:" ++ joinWith '.' [x.companyPref, x.assetType, natStr (number x.serial)]) = .ok y ∧
      y.binary .grai96 f = x.binary .grai96 f := by
  obtain ⟨C, D, S, ⟨hC, hD, hS⟩, hlen, e, rfl⟩ := GRAI.new_iff.1 hu
  dsimp only at hd ⊢
  obtain ⟨k1, k2, k3, k4, k5, k6, k7⟩ := strip_serial hd (gs3a3_ne_nil hS)
  refine ⟨_, GRAI.new_iff.2 ⟨C, D, natStr (number S), ⟨hC, hD, k1⟩, ⟨hlen.1, hlen.2.1, k2, by have := hlen.2.2.2; omega⟩, rfl, rfl⟩, ?_⟩
  unfold GRAI.binary
  dsimp only
  simp only [if_true, k7]

/-- GRAI: a serial with a character other than digits, underscore, plus and minus is refused, with a ValueError. -/
theorem C51_grai_partial (u : Str) (x : GRAI) (f : Fin 8) (hu : GRAI.new u = .ok x)
    (hc : ∃ c ∈ x.serial, c ∉ py "0123456789_+-") : x.binary .grai96 f = .error .value := by
  obtain ⟨y, ha, hy, hxy, -, -, h⟩ := C63_grai u x hu
  rw [← (h _ f).2]
  replace hc : ∃ c ∈ y.serial, c ∉ py "0123456789_+-" := by
    obtain ⟨C, D, S, ⟨_, _, hS⟩, _, _, rfl⟩ := GRAI.new_iff.1 hu
    rw [hxy]
    dsimp only at hc ⊢
    rwa [asciiDigits_ascii (gs3a3_ascii hS)]
  clear hxy h
  obtain ⟨C, D, S, ⟨hC, hD, hS⟩, hlen, e, rfl⟩ := GRAI.new_iff.1 hy
  obtain ⟨aC, aD, aS⟩ := ascii_uri3 (e ▸ ha)
  dsimp only at hc
  obtain ⟨p, p1, p2, p3, p4⟩ := part_ok (t := GRAI.table) (W := 47) (T := 12) (by decide) (by decide) (by decide) (by decide)
    (digits_of_dec_ascii hC.2 aC) (digits_of_dec_ascii hD aD) (by omega) (by omega) (by omega)
  unfold GRAI.binary
  rw [filter_ok, ok_bind]
  dsimp only
  rw [p1, ok_bind, if_pos rfl, strToBinary_letter _ (gs3a3_gs82 hS) hc, error_bind]

/-- GDTI: the claim fails. -/
theorem C51_gdti_claim_false :
    ¬ ∀ (u : Str) (x : GDTI) (f : Fin 8), GDTI.new u = .ok x → x.tagUri .gdti96 f = .error .convert → ∃ e, x.binary .gdti96 f = .error e := by
  intro h
  have hw : (do let x ← GDTI.new (py "urn:epc:id:gdti:0614141.12345.007"); let b ← x.binary .gdti96 0; pure (x.tagUri .gdti96 0, b.length)) =
      .ok (.error .convert, 96) := by decide +kernel
  obtain ⟨x, hx, hw⟩ := bind_ok_iff.1 hw
  obtain ⟨b, hb, hw⟩ := bind_ok_iff.1 hw
  rw [pure_ok] at hw
  obtain ⟨e, he⟩ := h _ x 0 hx (congrArg Prod.fst (Except.ok.inj hw))
  rw [hb] at he
  cases he

/-- GDTI: leading zeros of a serial are lost, the identity without them has the same binary. -/
theorem C51_gdti_alias (u : Str) (x : GDTI) (f : Fin 8) (hu : GDTI.new u = .ok x) (hd : Digits x.serial) :
    ∃ y, GDTI.new (py "urn:epc:id:gdti:" ++ joinWith '.' [x.companyPref, x.docType, natStr (number x.serial)]) = .ok y ∧
      y.binary .gdti96 f = x.binary .gdti96 f := by
  obtain ⟨C, D, S, ⟨hC, hD, hS⟩, hlen, e, rfl⟩ := GDTI.new_iff.1 hu
  dsimp only at hd ⊢
  obtain ⟨k1, k2, k3, k4, k5, k6, k7⟩ := strip_serial hd (gs3a3_ne_nil hS)
  refine ⟨_, GDTI.new_iff.2 ⟨C, D, natStr (number S), ⟨hC, hD, k1⟩, ⟨hlen.1, hlen.2.1, k2, by have := hlen.2.2.2; omega⟩, rfl, rfl⟩, ?_⟩
  unfold GDTI.binary
  dsimp only
  simp only [if_true, k7]

/-- GDTI: a serial with a character other than digits, underscore, plus and minus is refused, with a ValueError. -/
theorem C51_gdti_partial (u : Str) (x : GDTI) (f : Fin 8) (hu : GDTI.new u = .ok x)
    (hc : ∃ c ∈ x.serial, c ∉ py "0123456789_+-") : x.binary .gdti96 f = .error .value := by
  obtain ⟨y, ha, hy, hxy, -, -, h⟩ := C63_gdti u x hu
  rw [← (h _ f).2]
  replace hc : ∃ c ∈ y.serial, c ∉ py "0123456789_+-" := by
    obtain ⟨C, D, S, ⟨_, _, hS⟩, _, _, rfl⟩ := GDTI.new_iff.1 hu
    rw [hxy]
    dsimp only at hc ⊢
    rwa [asciiDigits_ascii (gs3a3_ascii hS)]
  clear hxy h
  obtain ⟨C, D, S, ⟨hC, hD, hS⟩, hlen, e, rfl⟩ := GDTI.new_iff.1 hy
  obtain ⟨aC, aD, aS⟩ := ascii_uri3 (e ▸ ha)
  dsimp only at hc
  obtain ⟨p, p1, p2, p3, p4⟩ := part_ok (t := GDTI.table) (W := 44) (T := 12) (by decide) (by decide) (by decide) (by decide)
    (digits_of_dec_ascii hC.2 aC) (digits_of_dec_ascii hD aD) (by omega) (by omega) (by omega)
  unfold GDTI.binary
  rw [filter_ok, ok_bind]
  dsimp only
  rw [p1, ok_bind, if_pos rfl, strToBinary_letter _ (gs3a3_gs82 hS) hc, error_bind]

/-- ITIP: the claim fails. -/
theorem C51_itip_claim_false :
    ¬ ∀ (u : Str) (x : ITIP) (f : Fin 8), ITIP.new u = .ok x → x.tagUri .itip110 f = .error .convert → ∃ e, x.binary .itip110 f = .error e := by
  intro h
  have hw : (do let x ← ITIP.new (py "urn:epc:id:itip:4012345.012345.01.02.007"); let b ← x.binary .itip110 0; pure (x.tagUri .itip110 0, b.length)) =
      .ok (.error .convert, 110) := by decide +kernel
  obtain ⟨x, hx, hw⟩ := bind_ok_iff.1 hw
  obtain ⟨b, hb, hw⟩ := bind_ok_iff.1 hw
  rw [pure_ok] at hw
  obtain ⟨e, he⟩ := h _ x 0 hx (congrArg Prod.fst (Except.ok.inj hw))
  rw [hb] at he
  cases he

/-- ITIP: leading zeros of a serial are lost, the identity without them has the same binary. -/
theorem C51_itip_alias (u : Str) (x : ITIP) (f : Fin 8) (hu : ITIP.new u = .ok x) (hd : Digits x.serial) :
    ∃ y, ITIP.new (py "urn:epc:id:itip:" ++ joinWith '.' [x.companyPref, x.itemRef, x.piece, x.total, natStr (number x.serial)]) = .ok y ∧
      y.binary .itip110 f = x.binary .itip110 f := by
  obtain ⟨C, D, A, B, S, ⟨hC, hD, hA, hB, hS⟩, hlen, e, rfl⟩ := ITIP.new_iff.1 hu
  dsimp only at hd ⊢
  obtain ⟨k1, k2, k3, k4, k5, k6, k7⟩ := strip_serial hd (gs3a3_ne_nil hS)
  refine ⟨_, ITIP.new_iff.2 ⟨C, D, A, B, natStr (number S), ⟨hC, hD, hA, hB, k1⟩,
    ⟨hlen.1, hlen.2.1, k2, k3, by rw [k4]; have := hlen.2.2.2.2; omega⟩, rfl, rfl⟩, ?_⟩
  unfold ITIP.binary
  dsimp only
  simp only [if_true, k7]

/-- GIAI: the claim fails. -/
theorem C51_giai_claim_false :
    ¬ ∀ (u : Str) (x : GIAI) (f : Fin 8), GIAI.new u = .ok x → x.tagUri .giai96 f = .error .convert → ∃ e, x.binary .giai96 f = .error e := by
  intro h
  have hw : (do let x ← GIAI.new (py "urn:epc:id:giai:0614141.007"); let b ← x.binary .giai96 0; pure (x.tagUri .giai96 0, b.length)) =
      .ok (.error .convert, 96) := by decide +kernel
  obtain ⟨x, hx, hw⟩ := bind_ok_iff.1 hw
  obtain ⟨b, hb, hw⟩ := bind_ok_iff.1 hw
  rw [pure_ok] at hw
  obtain ⟨e, he⟩ := h _ x 0 hx (congrArg Prod.fst (Except.ok.inj hw))
  rw [hb] at he
  cases he

/-- CPI: the claim fails. -/
theorem C51_cpi_claim_false :
    ¬ ∀ (u : Str) (x : CPI) (f : Fin 8), CPI.new u = .ok x → x.tagUri .cpi96 f = .error .convert → ∃ e, x.binary .cpi96 f = .error e := by
  intro h
  have hw : (do let x ← CPI.new (py "urn:epc:id:cpi:0614141.007.5"); let b ← x.binary .cpi96 0; pure (x.tagUri .cpi96 0, b.length)) =
      .ok (.error .convert, 96) := by decide +kernel
  obtain ⟨x, hx, hw⟩ := bind_ok_iff.1 hw
  obtain ⟨b, hb, hw⟩ := bind_ok_iff.1 hw
  rw [pure_ok] at hw
  obtain ⟨e, he⟩ := h _ x 0 hx (congrArg Prod.fst (Except.ok.inj hw))
  rw [hb] at he
  cases he

/-- The other ways in which a refused serial gets a binary: too long, with a minus sign, and with an underscore. -/
theorem C51_sgtin_wrong_binaries :
    ((do let x ← SGTIN.new (py "urn:epc:id:sgtin:0614141.112345.274877906944"); let b ← x.binary .sgtin96 0; pure b.length) = .ok 97) ∧
    ((do let x ← SGTIN.new (py "urn:epc:id:sgtin:0614141.112345.-5"); let b ← x.binary .sgtin96 0; pure (decide ('-' ∈ b))) = .ok true) ∧
    ((do let x ← SGTIN.new (py "urn:epc:id:sgtin:0614141.112345.1_0"); x.binary .sgtin96 0) =
      (do let x ← SGTIN.new (py "urn:epc:id:sgtin:0614141.112345.10"); x.binary .sgtin96 0)) := by decide +kernel

-- Non-vacuity of `_alias` and `_partial`.
example : ∃ x, SGTIN.new (py "urn:epc:id:sgtin:0614141.112345.007") = .ok x ∧ Digits x.serial ∧ natStr (number x.serial) ≠ x.serial := by
  have : (SGTIN.new (py "urn:epc:id:sgtin:0614141.112345.007")).map SGTIN.serial = .ok (py "007") := by decide +kernel
  obtain ⟨x, hx, hs⟩ := map_ok_iff.1 this
  exact ⟨x, hx, by rw [hs]; decide, by rw [hs]; decide⟩
example : (do let x ← SGTIN.new (py "urn:epc:id:sgtin:0614141.112345.7a"); x.binary .sgtin96 0) = .error .value := by decide +kernel

end Epc
