"""Generate lean/Verif/Props/C51.lean: what binary() does with a serial that tag_uri() refuses."""
rows = [
    ("sgtin", "SGTIN", "sgtin96", "96", 47, 13, 38, "hD.2", "itemRef", "0614141.112345"),
    ("sgln", "SGLN", "sgln96", "96", 44, 12, 41, "hD", "locationRef", "0614141.12345"),
    ("grai", "GRAI", "grai96", "96", 47, 12, 38, "hD", "assetType", "0614141.12345"),
    ("gdti", "GDTI", "gdti96", "96", 44, 12, 41, "hD", "docType", "0614141.12345"),
]
out = ["""/-
C51: the binary of a serial that the numeric coding scheme cannot express is refused.

False: `tag_uri()` refuses such a serial, `binary()` with the same arguments does not look at it.  Leading zeros are dropped (so two
different identities get the same binary, `C51_x_alias`), a serial that is too large makes the binary too long, a serial "-5" puts a
minus sign into the binary, "1_0" is read as ten.  What does hold (`C51_x_partial`): a serial with any character other than digits,
underscore, plus and minus makes `binary()` raise a ValueError.
-/
import Verif.Lemmas.Alias
import Verif.Lemmas.Elem
import Verif.Props.C63

namespace Epc
open Spec Re
"""]
for n, X, cs, size, W, T, w, hD, ref, wit in rows:
    lim = "by omega"
    if n == "sgtin":
        conds = "⟨hlen.1, hlen.2.1, k2, k3, by rw [k4]; have := hlen.2.2.2.2; omega⟩"
    elif n == "sgln":
        conds = "⟨hlen.1, hlen.2.1, k2, by rw [k4]; have := hlen.2.2.2; omega⟩"
    else:
        conds = "⟨hlen.1, hlen.2.1, k2, by have := hlen.2.2.2; omega⟩"
    out.append(f"""/-- {X}: the claim fails. -/
theorem C51_{n}_claim_false :
    ¬ ∀ (u : Str) (x : {X}) (f : Fin 8), {X}.new u = .ok x → x.tagUri .{cs} f = .error .convert → ∃ e, x.binary .{cs} f = .error e := by
  intro h
  have hw : (do let x ← {X}.new (py "urn:epc:id:{n}:{wit}.007"); let b ← x.binary .{cs} 0; pure (x.tagUri .{cs} 0, b.length)) =
      .ok (.error .convert, {size}) := by decide +kernel
  obtain ⟨x, hx, hw⟩ := bind_ok_iff.1 hw
  obtain ⟨b, hb, hw⟩ := bind_ok_iff.1 hw
  rw [pure_ok] at hw
  obtain ⟨e, he⟩ := h _ x 0 hx (congrArg Prod.fst (Except.ok.inj hw))
  rw [hb] at he
  cases he

/-- {X}: leading zeros of a serial are lost, the identity without them has the same binary. -/
theorem C51_{n}_alias (u : Str) (x : {X}) (f : Fin 8) (hu : {X}.new u = .ok x) (hd : Digits x.serial) :
    ∃ y, {X}.new (py "urn:epc:id:{n}:" ++ joinWith '.' [x.companyPref, x.{ref}, natStr (number x.serial)]) = .ok y ∧
      y.binary .{cs} f = x.binary .{cs} f := by
  obtain ⟨C, D, S, ⟨hC, hD, hS⟩, hlen, e, rfl⟩ := {X}.new_iff.1 hu
  dsimp only at hd ⊢
  obtain ⟨k1, k2, k3, k4, k5, k6, k7⟩ := strip_serial hd (gs3a3_ne_nil hS)
  refine ⟨_, {X}.new_iff.2 ⟨C, D, natStr (number S), ⟨hC, hD, k1⟩, {conds}, rfl, rfl⟩, ?_⟩
  unfold {X}.binary
  dsimp only
  simp only [if_true, k7]

/-- {X}: a serial with a character other than digits, underscore, plus and minus is refused, with a ValueError. -/
theorem C51_{n}_partial (u : Str) (x : {X}) (f : Fin 8) (hu : {X}.new u = .ok x)
    (hc : ∃ c ∈ x.serial, c ∉ py "0123456789_+-") : x.binary .{cs} f = .error .value := by
  obtain ⟨y, ha, hy, hxy, -, -, h⟩ := C63_{n} u x hu
  rw [← (h _ f).2]
  replace hc : ∃ c ∈ y.serial, c ∉ py "0123456789_+-" := by
    obtain ⟨C, D, S, ⟨_, _, hS⟩, _, _, rfl⟩ := {X}.new_iff.1 hu
    rw [hxy]
    dsimp only at hc ⊢
    rwa [asciiDigits_ascii (gs3a3_ascii hS)]
  clear hxy h
  obtain ⟨C, D, S, ⟨hC, hD, hS⟩, hlen, e, rfl⟩ := {X}.new_iff.1 hy
  obtain ⟨aC, aD, aS⟩ := ascii_uri3 (e ▸ ha)
  dsimp only at hc
  obtain ⟨p, p1, p2, p3, p4⟩ := part_ok (t := {X}.table) (W := {W}) (T := {T}) (by decide) (by decide) (by decide) (by decide)
    (digits_of_dec_ascii hC.2 aC) (digits_of_dec_ascii {hD} aD) (by omega) (by omega) (by omega)
  unfold {X}.binary
  rw [filter_ok, ok_bind]
  dsimp only
  rw [p1, ok_bind, if_pos rfl, strToBinary_letter _ (gs3a3_gs82 hS) hc, error_bind]
""")
out.append("""/-- ITIP: the claim fails. -/
theorem C51_itip_claim_false :
    ¬ ∀ (u : Str) (x : ITIP) (f : Fin 8), ITIP.new u = .ok x → x.tagUri .itip110 f = .error .convert → ∃ e, x.binary .itip110 f = .error e := by
  intro h
  have hw : (do let x ← ITIP.new (py "urn:epc:id:itip:4012345.012345.01.02.007"); let b ← x.binary .itip110 0; pure (x.tagUri .itip110 0, b.length)) =
      .ok (.error .convert, 110) := by decide +kernel
  obtain ⟨x, hx, hw⟩ := bind_ok_iff.1 hw
  obtain ⟨b, hb, hw⟩ := bind_ok_iff.1 hw
  rw [pure_ok] at hw
  obtain ⟨e, he⟩ := h _ x 0 hx (congrArg Prod.fst (Except.ok.inj hw))
  rw [hb] at he
  cases he

/-- ITIP: leading zeros of a serial are lost, the identity without them has the same binary. -/
theorem C51_itip_alias (u : Str) (x : ITIP) (f : Fin 8) (hu : ITIP.new u = .ok x) (hd : Digits x.serial) :
    ∃ y, ITIP.new (py "urn:epc:id:itip:" ++ joinWith '.' [x.companyPref, x.itemRef, x.piece, x.total, natStr (number x.serial)]) = .ok y ∧
      y.binary .itip110 f = x.binary .itip110 f := by
  obtain ⟨C, D, A, B, S, ⟨hC, hD, hA, hB, hS⟩, hlen, e, rfl⟩ := ITIP.new_iff.1 hu
  dsimp only at hd ⊢
  obtain ⟨k1, k2, k3, k4, k5, k6, k7⟩ := strip_serial hd (gs3a3_ne_nil hS)
  refine ⟨_, ITIP.new_iff.2 ⟨C, D, A, B, natStr (number S), ⟨hC, hD, hA, hB, k1⟩,
    ⟨hlen.1, hlen.2.1, k2, k3, by rw [k4]; have := hlen.2.2.2.2; omega⟩, rfl, rfl⟩, ?_⟩
  unfold ITIP.binary
  dsimp only
  simp only [if_true, k7]

/-- GIAI: the claim fails. -/
theorem C51_giai_claim_false :
    ¬ ∀ (u : Str) (x : GIAI) (f : Fin 8), GIAI.new u = .ok x → x.tagUri .giai96 f = .error .convert → ∃ e, x.binary .giai96 f = .error e := by
  intro h
  have hw : (do let x ← GIAI.new (py "urn:epc:id:giai:0614141.007"); let b ← x.binary .giai96 0; pure (x.tagUri .giai96 0, b.length)) =
      .ok (.error .convert, 96) := by decide +kernel
  obtain ⟨x, hx, hw⟩ := bind_ok_iff.1 hw
  obtain ⟨b, hb, hw⟩ := bind_ok_iff.1 hw
  rw [pure_ok] at hw
  obtain ⟨e, he⟩ := h _ x 0 hx (congrArg Prod.fst (Except.ok.inj hw))
  rw [hb] at he
  cases he

/-- CPI: the claim fails. -/
theorem C51_cpi_claim_false :
    ¬ ∀ (u : Str) (x : CPI) (f : Fin 8), CPI.new u = .ok x → x.tagUri .cpi96 f = .error .convert → ∃ e, x.binary .cpi96 f = .error e := by
  intro h
  have hw : (do let x ← CPI.new (py "urn:epc:id:cpi:0614141.007.5"); let b ← x.binary .cpi96 0; pure (x.tagUri .cpi96 0, b.length)) =
      .ok (.error .convert, 96) := by decide +kernel
  obtain ⟨x, hx, hw⟩ := bind_ok_iff.1 hw
  obtain ⟨b, hb, hw⟩ := bind_ok_iff.1 hw
  rw [pure_ok] at hw
  obtain ⟨e, he⟩ := h _ x 0 hx (congrArg Prod.fst (Except.ok.inj hw))
  rw [hb] at he
  cases he

/-- The other ways in which a refused serial gets a binary: too long, with a minus sign, and with an underscore. -/
theorem C51_sgtin_wrong_binaries :
    ((do let x ← SGTIN.new (py "urn:epc:id:sgtin:0614141.112345.274877906944"); let b ← x.binary .sgtin96 0; pure b.length) = .ok 97) ∧
    ((do let x ← SGTIN.new (py "urn:epc:id:sgtin:0614141.112345.-5"); let b ← x.binary .sgtin96 0; pure (decide ('-' ∈ b))) = .ok true) ∧
    ((do let x ← SGTIN.new (py "urn:epc:id:sgtin:0614141.112345.1_0"); x.binary .sgtin96 0) =
      (do let x ← SGTIN.new (py "urn:epc:id:sgtin:0614141.112345.10"); x.binary .sgtin96 0)) := by decide +kernel

-- Non-vacuity of `_alias` and `_partial`.
example : ∃ x, SGTIN.new (py "urn:epc:id:sgtin:0614141.112345.007") = .ok x ∧ Digits x.serial ∧ natStr (number x.serial) ≠ x.serial := by
  have : (SGTIN.new (py "urn:epc:id:sgtin:0614141.112345.007")).map SGTIN.serial = .ok (py "007") := by decide +kernel
  obtain ⟨x, hx, hs⟩ := map_ok_iff.1 this
  exact ⟨x, hx, by rw [hs]; decide, by rw [hs]; decide⟩
example : (do let x ← SGTIN.new (py "urn:epc:id:sgtin:0614141.112345.7a"); x.binary .sgtin96 0) = .error .value := by decide +kernel

end Epc
""")
open("/verif/lean/Verif/Props/C51.lean", "w").write("\n".join(out))
