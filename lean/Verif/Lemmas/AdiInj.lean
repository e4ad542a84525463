/-
The ADI-var binary determines the identifier, although `from_binary` cannot always recover it: a decoder that looks for the
terminators at multiples of six bits (used only in proofs, not part of the code).
-/
import Verif.Lemmas.VarBinary

namespace Epc
open Spec Re

/-- A decoder that respects the six-bit groups. -/
def ADI.alignedDecode (b : Str) : Except Err ADI := do
  let cage ← decodeCageCodeSixBits (slice b 14 50)
  let part ← decodeSixLoop (splitCap (bitsLen 6) (b.drop 50))
  let serial ← decodeSixLoop (splitCap (bitsLen 6) ((b.drop 50).drop (6 * part.length + 6)))
  ADI.new (py "urn:epc:id:adi:" ++ (cage ++ '.' :: (escape39 part ++ '.' :: escape39 serial)))

theorem ADI.binOk_aligned {u : Str} {x : ADI} (hu : ADI.new u = .ok x) :
    ∃ rest, 54 ≤ rest.length ∧
      BinOk x (x.binary .adiVar) ADI.alignedDecode (Coding.header .adiVar) (fun f : Fin 64 => bin 6 f) rest := by
  obtain ⟨rp, rs, hp, hrs, hC, ep, es, _, hs1, hs2, e, ex⟩ := ADI.parts hu
  have hp : ∀ c ∈ rp, c ∈ gs39 := fun c h => (hp c h).1
  obtain ⟨cb, c2, c3, c4, c1⟩ := ADI.binary_form hu hp hrs ep es
  have hb6 : Bits (py "000000") := by unfold Bits; decide
  have l1 := length_code6 rp
  have l2 := length_code6 rs
  refine ⟨cb ++ (code6 rp ++ (py "000000" ++ (code6 rs ++ py "000000"))), by simp; omega,
    Bits_append.2 ⟨c2, Bits_append.2 ⟨Bits_code6 _, Bits_append.2 ⟨hb6, Bits_append.2 ⟨Bits_code6 _, hb6⟩⟩⟩⟩, c1, fun f tail => ?_⟩
  have hf : (bin 6 f).length = 6 := length_bin (by omega) (by have := f.isLt; omega)
  have hh : (Coding.header .adiVar).length = 8 := rfl
  unfold ADI.alignedDecode
  simp only [List.append_assoc]
  rw [slice_append2 (by omega) (by omega), c4, ok_bind, drop_append3 (by omega),
    decodeSixLoop_code hp (decodeSixLoop_term _), ok_bind]
  have h6 : (code6 rp ++ (py "000000" ++ (code6 rs ++ (py "000000" ++ tail)))).drop (6 * rp.length + 6) = code6 rs ++ (py "000000" ++ tail) := by
    rw [← List.append_assoc, List.drop_left' (by simp; omega)]
  rw [h6, decodeSixLoop_code hrs (decodeSixLoop_term _), ok_bind, ← hu, e, ep, es]

end Epc
