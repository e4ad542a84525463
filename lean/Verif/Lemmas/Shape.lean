/-
Shape, injectivity and text forms of encoded objects.
-/
import Verif.Lemmas.Base64Pads

namespace Epc
open Spec

section
variable {α β : Type} {n : Nat} {x y : α} {enc enc' : Fin n → Except Err Str} {dec : Str → Except Err α} {hd : Str}
  {fb : Fin n → Str} {rest rest' : Str} {w : Nat}

theorem bitsNumber_bin (w v : Nat) : bitsNumber (bin w v) = v := by
  rw [bitsNumber_eq (Bits_bin w v)]
  exact digVal_bin w v

/-- Size, header, filter field and alphabet of a binary. -/
theorem BinOk.shape (H : BinOk x enc dec hd (fun f => bin w f) rest) (hb : Bits hd) (h8 : hd.length = 8)
    (hw : ∀ f : Fin n, (bin w f).length = w) (f : Fin n) :
    ∃ b, enc f = .ok b ∧ Bits b ∧ b.length = 8 + w + rest.length ∧ b.take 8 = hd ∧ bitsNumber ((b.drop 8).take w) = f := by
  refine ⟨_, H.enc_eq f, Bits_append.2 ⟨hb, Bits_append.2 ⟨Bits_bin _ _, H.bits⟩⟩, ?_, take_append_eq h8, ?_⟩
  · have := hw f
    simp; omega
  · rw [drop_append_eq h8, take_append_eq (hw f), bitsNumber_bin]

/-- One encoded object, read by another decoder. -/
theorem BinOk.one (H : BinOk x enc dec hd fb rest) (f : Fin n) (k : Nat) (hk : (fb f).length = k) (h8 : hd.length = 8) :
    BinOk (x, fb f) (fun _ : Fin 1 => enc f) (fun b => (dec b).map fun z => (z, (b.drop 8).take k)) hd (fun _ : Fin 1 => fb f) rest := by
  refine ⟨H.bits, fun _ => H.enc_eq f, fun _ tail => ?_⟩
  rw [H.dec_eq f tail]
  show Except.ok (x, _) = _
  rw [List.append_assoc, drop_append_eq h8, List.append_assoc, take_append_eq hk]

/-- Equal binaries, hexadecimal texts or base64 texts encode equal objects and equal filter values. -/
theorem BinOk.inj (H : BinOk x enc dec hd fb rest) (H' : BinOk y enc' dec hd fb rest') (hb : Bits hd) (fbb : ∀ f, Bits (fb f))
    (h8 : hd.length = 8) (hz : hd.take 4 ≠ py "0000") (hw : ∀ f, (fb f).length = w) (hi : ∀ f g, fb f = fb g → f = g) (f g : Fin n) :
    (enc f = enc' g → x = y ∧ f = g) ∧ (hexOf (enc f) = hexOf (enc' g) → x = y ∧ f = g) ∧
      (base64Of (enc f) = base64Of (enc' g) → x = y ∧ f = g) := by
  have A := H.one f w (hw f) h8
  have B := H'.one g w (hw g) h8
  have fin : ∀ {r : Except Err (α × Str)}, r = .ok (x, fb f) → r = .ok (y, fb g) → x = y ∧ f = g := by
    intro r e1 e2
    rw [e1] at e2
    injection e2 with e2
    injection e2 with e2 e3
    exact ⟨e2, hi f g e3⟩
  refine ⟨fun e => ?_, fun e => ?_, fun e => ?_⟩
  · have a := A.roundtrip 0
    have b := B.roundtrip 0
    rw [e] at a
    exact fin a b
  · obtain ⟨_, h, _, a1, _, _, _, a2⟩ := A.hex hb (fun _ => fbb f) h8 hz 0
    obtain ⟨_, h', _, b1, _, _, _, b2⟩ := B.hex hb (fun _ => fbb g) h8 hz 0
    rw [e, b1] at a1
    injection a1 with a1
    subst a1
    exact fin a2 b2
  · obtain ⟨h, a1, a2⟩ := A.base64_pads hb (fun _ => fbb f) h8 hz 0
    obtain ⟨h', b1, b2⟩ := B.base64_pads hb (fun _ => fbb g) h8 hz 0
    rw [e, b1] at a1
    injection a1 with a1
    subst a1
    exact fin (a2 h' 0 (by simp)) (b2 h' 0 (by simp))

end

/-- `hex` of a bit string, and how it is read back. -/
theorem hex_form {α : Type} {dec : Str → Except Err α} {hd s b : Str} (hb : b = hd ++ s) (h8 : hd.length = 8)
    (hz : hd.take 4 ≠ py "0000") (hB : Bits b) :
    ∃ h, hexOf (.ok b) = .ok h ∧ UpperHex h ∧ h.length = (b.length + 15) / 16 * 4 ∧
      hexBits h = b ++ List.replicate (wordPad b.length) '0' ∧ fromHexWith dec h = dec (b ++ List.replicate (wordPad b.length) '0') := by
  obtain ⟨h, e1, e2, e3, e4, e5⟩ := hexOf_form hB (by rw [hb]; simp; omega)
    (by rw [hb, List.take_append_of_le_length (by omega)]; exact hz)
  refine ⟨h, e1, e2, e3, e4, ?_⟩
  unfold fromHexWith
  rw [e5, ok_bind]

/-- `base64` of a bit string, and how it is read back. -/
theorem base64_form {α : Type} {dec : Str → Except Err α} {hd s b : Str} (hb : b = hd ++ s) (h8 : hd.length = 8)
    (hz : hd.take 4 ≠ py "0000") (hB : Bits b) :
    ∃ t, base64Of (.ok b) = .ok t ∧ ∀ t' k, t = t' ++ List.replicate k '=' →
      fromBase64With dec t' = dec (b ++ List.replicate (wordPad b.length) '0') := by
  obtain ⟨h, e, e2, e3, _, e5⟩ := hex_form (dec := dec) hb h8 hz hB
  have hh := HexDigits_of_upper e2
  have hl : h.length % 2 = 0 := by rw [e3]; omega
  obtain ⟨bs, eb, hbs, hx⟩ := hexToBase64_eq hh hl
  refine ⟨b64encode bs, ?_, fun s' k hs => ?_⟩
  · unfold base64Of; rw [e, ok_bind]; exact eb
  · unfold fromBase64With
    rw [base64ToHex_pads hbs hs, ok_bind, hx, fromHexWith_lower hh]; exact e5

end Epc
