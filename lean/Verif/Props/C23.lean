/-
C23: binary round trip of the variable-length encodings, also with zero padding (or anything else) behind the binary.

False for ADI-var: `from_binary` looks for the terminator `000000` of the part number at any bit position.  `EarlyTerminator` (see
Spec/Six.lean) says that it finds it too early; the round trip holds exactly when that is not the case.
Generated by tools/gen_bin.py.
-/
import Verif.Lemmas.Avail
import Verif.Lemmas.Shape

namespace Epc
open Spec Re

/-- CPI-var. -/
theorem C23_cpi (u : Str) (x : CPI) (f : Fin 8) (k : Nat) (ha : Ascii u) (hu : CPI.new u = .ok x) :
    ∃ b, x.binary .cpiVar f = .ok b ∧ CPI.fromBinary (b ++ List.replicate k '0') = .ok x := by
  obtain ⟨rest, _, H⟩ := CPI.binOk_cpiVar ha hu
  exact ⟨_, H.enc_eq f, H.dec_eq f _⟩

/-- CPI-var, followed by any characters. -/
theorem C23_cpi_any (u tail : Str) (x : CPI) (f : Fin 8) (ha : Ascii u) (hu : CPI.new u = .ok x) :
    ∃ b, x.binary .cpiVar f = .ok b ∧ CPI.fromBinary (b ++ tail) = .ok x := by
  obtain ⟨rest, _, H⟩ := CPI.binOk_cpiVar ha hu
  exact ⟨_, H.enc_eq f, H.dec_eq f _⟩

example : Ascii (py "urn:epc:id:cpi:9521141.5PQ7%2FZ43.12345") ∧ ((do let x ← CPI.new (py "urn:epc:id:cpi:9521141.5PQ7%2FZ43.12345"); x.tagUri .cpiVar 3) : Except Err Str).isOk = true := by decide +kernel

/-- ADI-var: part number `rp` (unescaped) without an early terminator. -/
theorem C23_adi_partial (u rp : Str) (x : ADI) (f : Fin 64) (k : Nat) (hu : ADI.new u = .ok x) (hr : ∀ c ∈ rp, c ∈ gs39)
    (hp : x.partNumber = escape39 rp) (hz : ¬ EarlyTerminator rp) :
    ∃ b, x.binary .adiVar f = .ok b ∧ ADI.fromBinary (b ++ List.replicate k '0') = .ok x := by
  obtain ⟨rest, _, H⟩ := ADI.binOk_adiVar hu hr hp hz
  exact ⟨_, H.enc_eq f, H.dec_eq f _⟩

example : Ascii (py "urn:epc:id:adi:W81X9C.3KL984PX1.2WMA-52") ∧ ((do let x ← ADI.new (py "urn:epc:id:adi:W81X9C.3KL984PX1.2WMA-52"); x.tagUri .adiVar 3) : Except Err Str).isOk = true := by decide +kernel
example : (∀ c ∈ py "3KL984PX1", c ∈ gs39) ∧ escape39 (py "3KL984PX1") = py "3KL984PX1" ∧ ¬ EarlyTerminator (py "3KL984PX1") := by decide +kernel

/-- With an early terminator, the object is never recovered. -/
theorem C23_adi_fails (u rp : Str) (x : ADI) (f : Fin 64) (k : Nat) (hu : ADI.new u = .ok x) (hr : ∀ c ∈ rp, c ∈ gs39)
    (hp : x.partNumber = escape39 rp) (hz : EarlyTerminator rp) :
    ∃ b, x.binary .adiVar f = .ok b ∧ ADI.fromBinary (b ++ List.replicate k '0') ≠ .ok x := by
  obtain ⟨rp', rs, hrp, hrs, _, ep, es, _, _, _, _, _⟩ := ADI.parts hu
  obtain ⟨cb, _, _, _, hb⟩ := ADI.binary_form hu (fun c hc => (hrp c hc).1) hrs ep es
  exact ⟨_, hb f, ADI.fromBinary_early hu hr hp hz f _ (hb f)⟩

example : EarlyTerminator (py "PQ7VZ4") ∧ EarlyTerminator (py "PA1") ∧ ¬ EarlyTerminator (py "PQ7VZ3") ∧ ¬ EarlyTerminator [] := by decide +kernel

/-- Every accepted ADI has such an unescaped part number. -/
theorem C23_adi_part (u : Str) (x : ADI) (hu : ADI.new u = .ok x) : ∃ rp, (∀ c ∈ rp, c ∈ gs39) ∧ x.partNumber = escape39 rp := by
  obtain ⟨rp', rs, hrp, hrs, _, ep, es, _, _, _, _, _⟩ := ADI.parts hu
  exact ⟨rp', fun c hc => (hrp c hc).1, ep⟩

/-- The claim for ADI-var. -/
def C23_adi_claim : Prop := ∀ (u : Str) (x : ADI) (f : Fin 64) (k : Nat), ADI.new u = .ok x →
  ∃ b, x.binary .adiVar f = .ok b ∧ ADI.fromBinary (b ++ List.replicate k '0') = .ok x

/-- It is false: the code of `4` ends in two zeros, so in `PQ7VZ4` the six zeros are found two bits early. -/
theorem C23_adi_claim_false : ¬ C23_adi_claim := by
  intro h
  have h1 : ∃ x, ADI.new (py "urn:epc:id:adi:35962.PQ7VZ4.M37GXB92") = .ok x ∧ x.partNumber = escape39 (py "PQ7VZ4") := ⟨_, rfl, by decide +kernel⟩
  obtain ⟨x, hx, hp⟩ := h1
  obtain ⟨b, e1, e2⟩ := h _ x 0 0 hx
  obtain ⟨b', e3, e4⟩ := C23_adi_fails _ (py "PQ7VZ4") x 0 0 hx (by decide) hp (by decide +kernel)
  rw [e1] at e3
  injection e3 with e3
  subst e3
  exact e4 e2

end Epc
