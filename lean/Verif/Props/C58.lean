/-
C58: the bits of a tag determine the class, the coding scheme and the filter value, whatever the object (C24 adds: and the EPC).

Whenever two objects of a class have the same binary, they were encoded with the same coding scheme and the same filter value; and a binary starts
with a header of its own class and of no other.
Generated by tools/gen_c58.py.
-/
import Verif.Lemmas.BinSplit
import Verif.Model.Parsers

namespace Epc
open Spec Re

/-- SGTIN. -/
theorem C58_sgtin (x y : SGTIN) (cs cs' : SGTIN.Coding) (f g : Fin 8) (b : Str) (hx : x.binary cs f = .ok b) (hy : y.binary cs' g = .ok b) :
    cs = cs' ∧ f = g ∧ ∀ c : Cls, b.take 8 ∈ c.binaryHeaders ↔ c = .sgtin := by
  obtain ⟨s, rfl, -⟩ := SGTIN.binary_split hx
  obtain ⟨s', e, -⟩ := SGTIN.binary_split hy
  have h8 : ∀ c : SGTIN.Coding, c.header.length = 8 := by intro c; cases c <;> rfl
  obtain ⟨e1, e2⟩ := List.append_inj e ((h8 cs).trans (h8 cs').symm)
  obtain ⟨e3, -⟩ := List.append_inj e2 (by rw [length_bin (by omega) (by omega), length_bin (by omega) (by omega)])
  refine ⟨?_, Fin.ext (bin_inj e3), ?_⟩
  · revert e1; cases cs <;> cases cs' <;> decide
  · rw [take_append_eq (h8 cs)]
    intro c; revert c
    cases cs <;> intro c <;> cases c <;> decide +kernel

example : ((SGTIN.new (py "urn:epc:id:sgtin:9521141.012345.32a%2Fb")).bind fun x => x.binary .sgtin198 3).isOk = true := by decide +kernel

/-- SSCC. -/
theorem C58_sscc (x y : SSCC) (cs cs' : SSCC.Coding) (f g : Fin 8) (b : Str) (hx : x.binary cs f = .ok b) (hy : y.binary cs' g = .ok b) :
    cs = cs' ∧ f = g ∧ ∀ c : Cls, b.take 8 ∈ c.binaryHeaders ↔ c = .sscc := by
  obtain ⟨s, rfl, -⟩ := SSCC.binary_split hx
  obtain ⟨s', e, -⟩ := SSCC.binary_split hy
  have h8 : ∀ c : SSCC.Coding, c.header.length = 8 := by intro c; cases c <;> rfl
  obtain ⟨e1, e2⟩ := List.append_inj e ((h8 cs).trans (h8 cs').symm)
  obtain ⟨e3, -⟩ := List.append_inj e2 (by rw [length_bin (by omega) (by omega), length_bin (by omega) (by omega)])
  refine ⟨?_, Fin.ext (bin_inj e3), ?_⟩
  · revert e1; cases cs <;> cases cs' <;> decide
  · rw [take_append_eq (h8 cs)]
    intro c; revert c
    cases cs <;> intro c <;> cases c <;> decide +kernel

example : ((SSCC.new (py "urn:epc:id:sscc:9521141.1234567890")).bind fun x => x.binary .sscc96 3).isOk = true := by decide +kernel

/-- SGLN. -/
theorem C58_sgln (x y : SGLN) (cs cs' : SGLN.Coding) (f g : Fin 8) (b : Str) (hx : x.binary cs f = .ok b) (hy : y.binary cs' g = .ok b) :
    cs = cs' ∧ f = g ∧ ∀ c : Cls, b.take 8 ∈ c.binaryHeaders ↔ c = .sgln := by
  obtain ⟨s, rfl, -⟩ := SGLN.binary_split hx
  obtain ⟨s', e, -⟩ := SGLN.binary_split hy
  have h8 : ∀ c : SGLN.Coding, c.header.length = 8 := by intro c; cases c <;> rfl
  obtain ⟨e1, e2⟩ := List.append_inj e ((h8 cs).trans (h8 cs').symm)
  obtain ⟨e3, -⟩ := List.append_inj e2 (by rw [length_bin (by omega) (by omega), length_bin (by omega) (by omega)])
  refine ⟨?_, Fin.ext (bin_inj e3), ?_⟩
  · revert e1; cases cs <;> cases cs' <;> decide
  · rw [take_append_eq (h8 cs)]
    intro c; revert c
    cases cs <;> intro c <;> cases c <;> decide +kernel

example : ((SGLN.new (py "urn:epc:id:sgln:9521141.12345.32a%2Fb")).bind fun x => x.binary .sgln195 3).isOk = true := by decide +kernel

/-- GRAI. -/
theorem C58_grai (x y : GRAI) (cs cs' : GRAI.Coding) (f g : Fin 8) (b : Str) (hx : x.binary cs f = .ok b) (hy : y.binary cs' g = .ok b) :
    cs = cs' ∧ f = g ∧ ∀ c : Cls, b.take 8 ∈ c.binaryHeaders ↔ c = .grai := by
  obtain ⟨s, rfl, -⟩ := GRAI.binary_split hx
  obtain ⟨s', e, -⟩ := GRAI.binary_split hy
  have h8 : ∀ c : GRAI.Coding, c.header.length = 8 := by intro c; cases c <;> rfl
  obtain ⟨e1, e2⟩ := List.append_inj e ((h8 cs).trans (h8 cs').symm)
  obtain ⟨e3, -⟩ := List.append_inj e2 (by rw [length_bin (by omega) (by omega), length_bin (by omega) (by omega)])
  refine ⟨?_, Fin.ext (bin_inj e3), ?_⟩
  · revert e1; cases cs <;> cases cs' <;> decide
  · rw [take_append_eq (h8 cs)]
    intro c; revert c
    cases cs <;> intro c <;> cases c <;> decide +kernel

example : ((GRAI.new (py "urn:epc:id:grai:9521141.12345.32a%2Fb")).bind fun x => x.binary .grai170 3).isOk = true := by decide +kernel

/-- GIAI. -/
theorem C58_giai (x y : GIAI) (cs cs' : GIAI.Coding) (f g : Fin 8) (b : Str) (hx : x.binary cs f = .ok b) (hy : y.binary cs' g = .ok b) :
    cs = cs' ∧ f = g ∧ ∀ c : Cls, b.take 8 ∈ c.binaryHeaders ↔ c = .giai := by
  obtain ⟨s, rfl, -⟩ := GIAI.binary_split hx
  obtain ⟨s', e, -⟩ := GIAI.binary_split hy
  have h8 : ∀ c : GIAI.Coding, c.header.length = 8 := by intro c; cases c <;> rfl
  obtain ⟨e1, e2⟩ := List.append_inj e ((h8 cs).trans (h8 cs').symm)
  obtain ⟨e3, -⟩ := List.append_inj e2 (by rw [length_bin (by omega) (by omega), length_bin (by omega) (by omega)])
  refine ⟨?_, Fin.ext (bin_inj e3), ?_⟩
  · revert e1; cases cs <;> cases cs' <;> decide
  · rw [take_append_eq (h8 cs)]
    intro c; revert c
    cases cs <;> intro c <;> cases c <;> decide +kernel

example : ((GIAI.new (py "urn:epc:id:giai:9521141.32a%2Fb")).bind fun x => x.binary .giai202 3).isOk = true := by decide +kernel

/-- GSRN. -/
theorem C58_gsrn (x y : GSRN) (cs cs' : GSRN.Coding) (f g : Fin 8) (b : Str) (hx : x.binary cs f = .ok b) (hy : y.binary cs' g = .ok b) :
    cs = cs' ∧ f = g ∧ ∀ c : Cls, b.take 8 ∈ c.binaryHeaders ↔ c = .gsrn := by
  obtain ⟨s, rfl, -⟩ := GSRN.binary_split hx
  obtain ⟨s', e, -⟩ := GSRN.binary_split hy
  have h8 : ∀ c : GSRN.Coding, c.header.length = 8 := by intro c; cases c <;> rfl
  obtain ⟨e1, e2⟩ := List.append_inj e ((h8 cs).trans (h8 cs').symm)
  obtain ⟨e3, -⟩ := List.append_inj e2 (by rw [length_bin (by omega) (by omega), length_bin (by omega) (by omega)])
  refine ⟨?_, Fin.ext (bin_inj e3), ?_⟩
  · revert e1; cases cs <;> cases cs' <;> decide
  · rw [take_append_eq (h8 cs)]
    intro c; revert c
    cases cs <;> intro c <;> cases c <;> decide +kernel

example : ((GSRN.new (py "urn:epc:id:gsrn:9521141.1234567890")).bind fun x => x.binary .gsrn96 3).isOk = true := by decide +kernel

/-- GSRNP. -/
theorem C58_gsrnp (x y : GSRNP) (cs cs' : GSRNP.Coding) (f g : Fin 8) (b : Str) (hx : x.binary cs f = .ok b) (hy : y.binary cs' g = .ok b) :
    cs = cs' ∧ f = g ∧ ∀ c : Cls, b.take 8 ∈ c.binaryHeaders ↔ c = .gsrnp := by
  obtain ⟨s, rfl, -⟩ := GSRNP.binary_split hx
  obtain ⟨s', e, -⟩ := GSRNP.binary_split hy
  have h8 : ∀ c : GSRNP.Coding, c.header.length = 8 := by intro c; cases c <;> rfl
  obtain ⟨e1, e2⟩ := List.append_inj e ((h8 cs).trans (h8 cs').symm)
  obtain ⟨e3, -⟩ := List.append_inj e2 (by rw [length_bin (by omega) (by omega), length_bin (by omega) (by omega)])
  refine ⟨?_, Fin.ext (bin_inj e3), ?_⟩
  · revert e1; cases cs <;> cases cs' <;> decide
  · rw [take_append_eq (h8 cs)]
    intro c; revert c
    cases cs <;> intro c <;> cases c <;> decide +kernel

example : ((GSRNP.new (py "urn:epc:id:gsrnp:9521141.1234567890")).bind fun x => x.binary .gsrnp96 3).isOk = true := by decide +kernel

/-- GDTI. -/
theorem C58_gdti (x y : GDTI) (cs cs' : GDTI.Coding) (f g : Fin 8) (b : Str) (hx : x.binary cs f = .ok b) (hy : y.binary cs' g = .ok b) :
    cs = cs' ∧ f = g ∧ ∀ c : Cls, b.take 8 ∈ c.binaryHeaders ↔ c = .gdti := by
  obtain ⟨s, rfl, -⟩ := GDTI.binary_split hx
  obtain ⟨s', e, -⟩ := GDTI.binary_split hy
  have h8 : ∀ c : GDTI.Coding, c.header.length = 8 := by intro c; cases c <;> rfl
  obtain ⟨e1, e2⟩ := List.append_inj e ((h8 cs).trans (h8 cs').symm)
  obtain ⟨e3, -⟩ := List.append_inj e2 (by rw [length_bin (by omega) (by omega), length_bin (by omega) (by omega)])
  refine ⟨?_, Fin.ext (bin_inj e3), ?_⟩
  · revert e1; cases cs <;> cases cs' <;> decide
  · rw [take_append_eq (h8 cs)]
    intro c; revert c
    cases cs <;> intro c <;> cases c <;> decide +kernel

example : ((GDTI.new (py "urn:epc:id:gdti:9521141.12345.32a%2Fb")).bind fun x => x.binary .gdti174 3).isOk = true := by decide +kernel

/-- CPI. -/
theorem C58_cpi (x y : CPI) (cs cs' : CPI.Coding) (f g : Fin 8) (b : Str) (hx : x.binary cs f = .ok b) (hy : y.binary cs' g = .ok b) :
    cs = cs' ∧ f = g ∧ ∀ c : Cls, b.take 8 ∈ c.binaryHeaders ↔ c = .cpi := by
  obtain ⟨s, rfl, -⟩ := CPI.binary_split hx
  obtain ⟨s', e, -⟩ := CPI.binary_split hy
  have h8 : ∀ c : CPI.Coding, c.header.length = 8 := by intro c; cases c <;> rfl
  obtain ⟨e1, e2⟩ := List.append_inj e ((h8 cs).trans (h8 cs').symm)
  obtain ⟨e3, -⟩ := List.append_inj e2 (by rw [length_bin (by omega) (by omega), length_bin (by omega) (by omega)])
  refine ⟨?_, Fin.ext (bin_inj e3), ?_⟩
  · revert e1; cases cs <;> cases cs' <;> decide
  · rw [take_append_eq (h8 cs)]
    intro c; revert c
    cases cs <;> intro c <;> cases c <;> decide +kernel

example : ((CPI.new (py "urn:epc:id:cpi:9521141.5PQ7%2FZ43.12345")).bind fun x => x.binary .cpiVar 3).isOk = true := by decide +kernel

/-- SGCN. -/
theorem C58_sgcn (x y : SGCN) (cs cs' : SGCN.Coding) (f g : Fin 8) (b : Str) (hx : x.binary cs f = .ok b) (hy : y.binary cs' g = .ok b) :
    cs = cs' ∧ f = g ∧ ∀ c : Cls, b.take 8 ∈ c.binaryHeaders ↔ c = .sgcn := by
  obtain ⟨s, rfl, -⟩ := SGCN.binary_split hx
  obtain ⟨s', e, -⟩ := SGCN.binary_split hy
  have h8 : ∀ c : SGCN.Coding, c.header.length = 8 := by intro c; cases c <;> rfl
  obtain ⟨e1, e2⟩ := List.append_inj e ((h8 cs).trans (h8 cs').symm)
  obtain ⟨e3, -⟩ := List.append_inj e2 (by rw [length_bin (by omega) (by omega), length_bin (by omega) (by omega)])
  refine ⟨?_, Fin.ext (bin_inj e3), ?_⟩
  · revert e1; cases cs <;> cases cs' <;> decide
  · rw [take_append_eq (h8 cs)]
    intro c; revert c
    cases cs <;> intro c <;> cases c <;> decide +kernel

example : ((SGCN.new (py "urn:epc:id:sgcn:9521141.67890.04711")).bind fun x => x.binary .sgcn96 3).isOk = true := by decide +kernel

/-- ITIP. -/
theorem C58_itip (x y : ITIP) (cs cs' : ITIP.Coding) (f g : Fin 8) (b : Str) (hx : x.binary cs f = .ok b) (hy : y.binary cs' g = .ok b) :
    cs = cs' ∧ f = g ∧ ∀ c : Cls, b.take 8 ∈ c.binaryHeaders ↔ c = .itip := by
  obtain ⟨s, rfl, -⟩ := ITIP.binary_split hx
  obtain ⟨s', e, -⟩ := ITIP.binary_split hy
  have h8 : ∀ c : ITIP.Coding, c.header.length = 8 := by intro c; cases c <;> rfl
  obtain ⟨e1, e2⟩ := List.append_inj e ((h8 cs).trans (h8 cs').symm)
  obtain ⟨e3, -⟩ := List.append_inj e2 (by rw [length_bin (by omega) (by omega), length_bin (by omega) (by omega)])
  refine ⟨?_, Fin.ext (bin_inj e3), ?_⟩
  · revert e1; cases cs <;> cases cs' <;> decide
  · rw [take_append_eq (h8 cs)]
    intro c; revert c
    cases cs <;> intro c <;> cases c <;> decide +kernel

example : ((ITIP.new (py "urn:epc:id:itip:9521141.012345.01.02.mw133")).bind fun x => x.binary .itip212 3).isOk = true := by decide +kernel

/-- USDOD. -/
theorem C58_usdod (x y : USDOD) (cs cs' : USDOD.Coding) (f g : Fin 16) (b : Str) (hx : x.binary cs f = .ok b) (hy : y.binary cs' g = .ok b) :
    cs = cs' ∧ f = g ∧ ∀ c : Cls, b.take 8 ∈ c.binaryHeaders ↔ c = .usdod := by
  obtain ⟨s, rfl, -⟩ := USDOD.binary_split hx
  obtain ⟨s', e, -⟩ := USDOD.binary_split hy
  have h8 : ∀ c : USDOD.Coding, c.header.length = 8 := by intro c; cases c <;> rfl
  obtain ⟨e1, e2⟩ := List.append_inj e ((h8 cs).trans (h8 cs').symm)
  obtain ⟨e3, -⟩ := List.append_inj e2 (by rw [length_bin (by omega) (by omega), length_bin (by omega) (by omega)])
  refine ⟨?_, Fin.ext (bin_inj e3), ?_⟩
  · revert e1; cases cs <;> cases cs' <;> decide
  · rw [take_append_eq (h8 cs)]
    intro c; revert c
    cases cs <;> intro c <;> cases c <;> decide +kernel

example : ((USDOD.new (py "urn:epc:id:usdod:2S194.12345678901")).bind fun x => x.binary .usdod96 3).isOk = true := by decide +kernel

/-- ADI. -/
theorem C58_adi (x y : ADI) (cs cs' : ADI.Coding) (f g : Fin 64) (b : Str) (hx : x.binary cs f = .ok b) (hy : y.binary cs' g = .ok b) :
    cs = cs' ∧ f = g ∧ ∀ c : Cls, b.take 8 ∈ c.binaryHeaders ↔ c = .adi := by
  obtain ⟨s, rfl, -⟩ := ADI.binary_split hx
  obtain ⟨s', e, -⟩ := ADI.binary_split hy
  have h8 : ∀ c : ADI.Coding, c.header.length = 8 := by intro c; cases c <;> rfl
  obtain ⟨e1, e2⟩ := List.append_inj e ((h8 cs).trans (h8 cs').symm)
  obtain ⟨e3, -⟩ := List.append_inj e2 (by rw [length_bin (by omega) (by omega), length_bin (by omega) (by omega)])
  refine ⟨?_, Fin.ext (bin_inj e3), ?_⟩
  · revert e1; cases cs <;> cases cs' <;> decide
  · rw [take_append_eq (h8 cs)]
    intro c; revert c
    cases cs <;> intro c <;> cases c <;> decide +kernel

example : ((ADI.new (py "urn:epc:id:adi:35962.PQ7VZ4.M37GXB92")).bind fun x => x.binary .adiVar 3).isOk = true := by decide +kernel

/-- GID (no filter value, one coding scheme). -/
theorem C58_gid (x : GID) (cs : GID.Coding) (b : Str) (hx : x.binary cs = .ok b) : ∀ c : Cls, b.take 8 ∈ c.binaryHeaders ↔ c = .gid := by
  obtain ⟨s, rfl⟩ := GID.binary_split hx
  cases cs
  rw [take_append_eq (by rfl)]
  intro c; cases c <;> decide +kernel

example : ((GID.new (py "urn:epc:id:gid:31415.271828.1414")).bind fun x => x.binary .gid96).isOk = true := by decide +kernel

end Epc
