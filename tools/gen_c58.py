#!/usr/bin/env python3
"""Generate lean/Verif/Props/C58.lean: a binary determines class, coding scheme and filter value."""
import os
ROOT = os.path.dirname(os.path.dirname(os.path.abspath(__file__)))
S = [("SGTIN", 8, 3, "sgtin198", "sgtin:9521141.012345.32a%2Fb"), ("SSCC", 8, 3, "sscc96", "sscc:9521141.1234567890"), ("SGLN", 8, 3, "sgln195", "sgln:9521141.12345.32a%2Fb"),
     ("GRAI", 8, 3, "grai170", "grai:9521141.12345.32a%2Fb"), ("GIAI", 8, 3, "giai202", "giai:9521141.32a%2Fb"), ("GSRN", 8, 3, "gsrn96", "gsrn:9521141.1234567890"),
     ("GSRNP", 8, 3, "gsrnp96", "gsrnp:9521141.1234567890"),
     ("GDTI", 8, 3, "gdti174", "gdti:9521141.12345.32a%2Fb"), ("CPI", 8, 3, "cpiVar", "cpi:9521141.5PQ7%2FZ43.12345"), ("SGCN", 8, 3, "sgcn96", "sgcn:9521141.67890.04711"),
     ("ITIP", 8, 3, "itip212", "itip:9521141.012345.01.02.mw133"), ("USDOD", 16, 4, "usdod96", "usdod:2S194.12345678901"), ("ADI", 64, 6, "adiVar", "adi:35962.PQ7VZ4.M37GXB92")]
o = '''/-
C58: the bits of a tag determine the class, the coding scheme and the filter value, whatever the object (C24 adds: and the EPC).

Whenever two objects of a class have the same binary, they were encoded with the same coding scheme and the same filter value; and a binary starts
with a header of its own class and of no other.
Generated by tools/gen_c58.py.
-/
import Verif.Lemmas.BinSplit
import Verif.Model.Parsers

namespace Epc
open Spec Re

'''
for X, k, w, c, ex in S:
    l = X.lower()
    o += f'''/-- {X}. -/
theorem C58_{l} (x y : {X}) (cs cs' : {X}.Coding) (f g : Fin {k}) (b : Str) (hx : x.binary cs f = .ok b) (hy : y.binary cs' g = .ok b) :
    cs = cs' ∧ f = g ∧ ∀ c : Cls, b.take 8 ∈ c.binaryHeaders ↔ c = .{l} := by
  obtain ⟨s, rfl, -⟩ := {X}.binary_split hx
  obtain ⟨s', e, -⟩ := {X}.binary_split hy
  have h8 : ∀ c : {X}.Coding, c.header.length = 8 := by intro c; cases c <;> rfl
  obtain ⟨e1, e2⟩ := List.append_inj e ((h8 cs).trans (h8 cs').symm)
  obtain ⟨e3, -⟩ := List.append_inj e2 (by rw [length_bin (by omega) (by omega), length_bin (by omega) (by omega)])
  refine ⟨?_, Fin.ext (bin_inj e3), ?_⟩
  · revert e1; cases cs <;> cases cs' <;> decide
  · rw [take_append_eq (h8 cs)]
    intro c; revert c
    cases cs <;> intro c <;> cases c <;> decide +kernel

example : (({X}.new (py "urn:epc:id:{ex}")).bind fun x => x.binary .{c} 3).isOk = true := by decide +kernel

'''
o += '''/-- GID (no filter value, one coding scheme). -/
theorem C58_gid (x : GID) (cs : GID.Coding) (b : Str) (hx : x.binary cs = .ok b) : ∀ c : Cls, b.take 8 ∈ c.binaryHeaders ↔ c = .gid := by
  obtain ⟨s, rfl⟩ := GID.binary_split hx
  cases cs
  rw [take_append_eq (by rfl)]
  intro c; cases c <;> decide +kernel

example : ((GID.new (py "urn:epc:id:gid:31415.271828.1414")).bind fun x => x.binary .gid96).isOk = true := by decide +kernel

end Epc
'''
open(os.path.join(ROOT, 'lean/Verif/Props/C58.lean'), 'w').write(o)
