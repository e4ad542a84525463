/-
C22: binary round trip of the alphanumeric encodings, for serials in canonical escaped form.

GIAI: asset references containing a colon are excluded (the claim is false for them); ITIP: piece and total of two digits below 99.
Generated by tools/gen_bin.py.
-/
import Verif.Lemmas.Avail
import Verif.Lemmas.Shape

namespace Epc
open Spec Re

/-- SGTIN-198. -/
theorem C22_sgtin198 (u : Str) (x : SGTIN) (f : Fin 8) (ha : Ascii u) (hu : SGTIN.new u = .ok x)
    (hs : Canonical x.serial) :
    ∃ b, x.binary .sgtin198 f = .ok b ∧ SGTIN.fromBinary b = .ok x := by
  obtain ⟨rest, _, H⟩ := SGTIN.binOk_sgtin198 ha hu hs
  refine ⟨_, H.enc_eq f, ?_⟩
  have := H.dec_eq f []
  rwa [List.append_nil] at this

example : Ascii (py "urn:epc:id:sgtin:9521141.012345.32a%2Fb") ∧ ((do let x ← SGTIN.new (py "urn:epc:id:sgtin:9521141.012345.32a%2Fb"); x.tagUri .sgtin198 3) : Except Err Str).isOk = true := by decide +kernel
example : Canonical (py "32a%2Fb") := ⟨py "32a/b", by decide, by decide, by decide⟩

/-- SGLN-195. -/
theorem C22_sgln195 (u : Str) (x : SGLN) (f : Fin 8) (ha : Ascii u) (hu : SGLN.new u = .ok x)
    (hs : Canonical x.serial) :
    ∃ b, x.binary .sgln195 f = .ok b ∧ SGLN.fromBinary b = .ok x := by
  obtain ⟨rest, _, H⟩ := SGLN.binOk_sgln195 ha hu hs
  refine ⟨_, H.enc_eq f, ?_⟩
  have := H.dec_eq f []
  rwa [List.append_nil] at this

example : Ascii (py "urn:epc:id:sgln:9521141.12345.32a%2Fb") ∧ ((do let x ← SGLN.new (py "urn:epc:id:sgln:9521141.12345.32a%2Fb"); x.tagUri .sgln195 3) : Except Err Str).isOk = true := by decide +kernel
example : Canonical (py "32a%2Fb") := ⟨py "32a/b", by decide, by decide, by decide⟩

/-- GRAI-170. -/
theorem C22_grai170 (u : Str) (x : GRAI) (f : Fin 8) (ha : Ascii u) (hu : GRAI.new u = .ok x)
    (hs : Canonical x.serial) :
    ∃ b, x.binary .grai170 f = .ok b ∧ GRAI.fromBinary b = .ok x := by
  obtain ⟨rest, _, H⟩ := GRAI.binOk_grai170 ha hu hs
  refine ⟨_, H.enc_eq f, ?_⟩
  have := H.dec_eq f []
  rwa [List.append_nil] at this

example : Ascii (py "urn:epc:id:grai:9521141.12345.32a%2Fb") ∧ ((do let x ← GRAI.new (py "urn:epc:id:grai:9521141.12345.32a%2Fb"); x.tagUri .grai170 3) : Except Err Str).isOk = true := by decide +kernel
example : Canonical (py "32a%2Fb") := ⟨py "32a/b", by decide, by decide, by decide⟩

/-- GIAI-202. -/
theorem C22_giai202_partial (body : Str) (x : GIAI) (f : Fin 8) (ha : Ascii body) (hc : ':' ∉ body)
    (hu : GIAI.new (py "urn:epc:id:giai:" ++ body) = .ok x)
    (hs : Canonical x.assetRef) :
    ∃ b, x.binary .giai202 f = .ok b ∧ GIAI.fromBinary b = .ok x := by
  obtain ⟨rest, _, H⟩ := GIAI.binOk_giai202 (ascii_append.2 ⟨by decide, ha⟩) hu (GIAI.normal_of_no_colon hc hu) hs
  refine ⟨_, H.enc_eq f, ?_⟩
  have := H.dec_eq f []
  rwa [List.append_nil] at this

example : Ascii (py "urn:epc:id:giai:9521141.32a%2Fb") ∧ ((do let x ← GIAI.new (py "urn:epc:id:giai:9521141.32a%2Fb"); x.tagUri .giai202 3) : Except Err Str).isOk = true := by decide +kernel
example : Canonical (py "32a%2Fb") := ⟨py "32a/b", by decide, by decide, by decide⟩

/-- GDTI-174. -/
theorem C22_gdti174 (u : Str) (x : GDTI) (f : Fin 8) (ha : Ascii u) (hu : GDTI.new u = .ok x)
    (hs : Canonical x.serial) :
    ∃ b, x.binary .gdti174 f = .ok b ∧ GDTI.fromBinary b = .ok x := by
  obtain ⟨rest, _, H⟩ := GDTI.binOk_gdti174 ha hu hs
  refine ⟨_, H.enc_eq f, ?_⟩
  have := H.dec_eq f []
  rwa [List.append_nil] at this

example : Ascii (py "urn:epc:id:gdti:9521141.12345.32a%2Fb") ∧ ((do let x ← GDTI.new (py "urn:epc:id:gdti:9521141.12345.32a%2Fb"); x.tagUri .gdti174 3) : Except Err Str).isOk = true := by decide +kernel
example : Canonical (py "32a%2Fb") := ⟨py "32a/b", by decide, by decide, by decide⟩

/-- ITIP-212. -/
theorem C22_itip212_partial (u : Str) (x : ITIP) (f : Fin 8) (ha : Ascii u) (hu : ITIP.new u = .ok x)
    (hp : x.piece.length = 2 ∧ number x.piece < 99) (hq : x.total.length = 2 ∧ number x.total < 99) (hs : Canonical x.serial) :
    ∃ b, x.binary .itip212 f = .ok b ∧ ITIP.fromBinary b = .ok x := by
  obtain ⟨rest, _, H⟩ := ITIP.binOk_itip212 ha hu hp hq hs
  refine ⟨_, H.enc_eq f, ?_⟩
  have := H.dec_eq f []
  rwa [List.append_nil] at this

example : Ascii (py "urn:epc:id:itip:9521141.012345.02.04.32a%2Fb") ∧ ((do let x ← ITIP.new (py "urn:epc:id:itip:9521141.012345.02.04.32a%2Fb"); x.tagUri .itip212 3) : Except Err Str).isOk = true := by decide +kernel
example : Canonical (py "32a%2Fb") := ⟨py "32a/b", by decide, by decide, by decide⟩

/-- The claim for GIAI-202 without the hypothesis on colons. -/
def C22_giai_claim : Prop := ∀ (S : Str) (x : GIAI) (f : Fin 8), Canonical S →
  GIAI.new (py "urn:epc:id:giai:9521141." ++ S) = .ok x → ∃ b, x.binary .giai202 f = .ok b ∧ GIAI.fromBinary b = .ok x

/-- It is false: `urn:epc:id:giai:9521141.a:b` is decoded as `urn:epc:id:giai:9521141.a`. -/
theorem C22_giai_claim_false : ¬ C22_giai_claim := by
  intro h
  have h1 : ∃ x y, GIAI.new (py "urn:epc:id:giai:9521141.a:b") = .ok x ∧ x.binary .giai202 0 >>= GIAI.fromBinary = .ok y ∧ x.epcUri ≠ y.epcUri := by
    refine ⟨_, ⟨py "urn:epc:id:giai:9521141.a", py "9521141", py "a", py "9521141a"⟩, rfl, by decide +kernel, by decide +kernel⟩
  obtain ⟨x, y, h1, h3, h4⟩ := h1
  obtain ⟨b, h5, h6⟩ := h (py "a:b") x 0 ⟨py "a:b", by decide, by decide, by decide⟩ h1
  rw [h5] at h3
  have h3 : GIAI.fromBinary b = .ok y := h3
  rw [h6] at h3
  injection h3 with h3
  exact h4 (by rw [h3])

/-- Without canonical form the round trip fails: `%41` comes back as `A`. -/
theorem C22_canonical_counterexample :
    ((do let x ← SGTIN.new (py "urn:epc:id:sgtin:9521141.012345.%41"); let b ← x.binary .sgtin198 0; let y ← SGTIN.fromBinary b; return y.epcUri) :
      Except Err Str) = .ok (py "urn:epc:id:sgtin:9521141.012345.A") := by decide +kernel

end Epc
