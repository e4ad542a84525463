/-
C68: round trips and injectivity of the encodings for digits of any script.

`asciiDigits u` is the URI `u` with every decimal digit written as the ASCII digit of the same value (Spec/Script.lean).  No restriction to
ASCII: what is read back is the object of `asciiDigits u`, and two objects have the same encoding exactly if their URIs agree in this
sense (and the filter values are equal).  GIAI: up to the first colon of the asset reference, which is all that `asset_ref` holds.
Generated by tools/gen_bin.py.
-/
import Verif.Lemmas.AvailAny
import Verif.Lemmas.Shape
import Verif.Lemmas.Base64Pads
import Verif.Props.C11

namespace Epc
open Spec Re

/-- Binary (with anything behind it), hexadecimal and base64 form of an encoded object are read as that object. -/
theorem BinOk.forms {α : Type} {n : Nat} {x : α} {enc : Fin n → Except Err Str} {dec : Str → Except Err α} {hd : Str}
    {fb : Fin n → Str} {rest : Str} (H : BinOk x enc dec hd fb rest) (hb : Bits hd) (fbb : ∀ f, Bits (fb f))
    (h8 : hd.length = 8) (hz : hd.take 4 ≠ py "0000") (f : Fin n) :
    ∃ b h s, enc f = .ok b ∧ hexOf (enc f) = .ok h ∧ base64Of (enc f) = .ok s ∧
      (∀ tail, dec (b ++ tail) = .ok x) ∧ fromHexWith dec h = .ok x ∧ fromBase64With dec s = .ok x := by
  obtain ⟨b, e1, -, -, e2⟩ := H.enc_form hb fbb f
  obtain ⟨_, h, _, e3, _, _, _, e4⟩ := H.hex hb fbb h8 hz f
  obtain ⟨s, e5, e6⟩ := H.base64_pads hb fbb h8 hz f
  exact ⟨b, h, s, e1, e3, e5, e2, e4, e6 s 0 (by simp)⟩

/-- SGTIN-96: the round trips. -/
theorem C68_sgtin96 (u t : Str) (x : SGTIN) (f : Fin 8) (hu : SGTIN.new u = .ok x)
    (ht : x.tagUri .sgtin96 f = .ok t) :
    ∃ y b h s, SGTIN.new (asciiDigits u) = .ok y ∧ x.binary .sgtin96 f = .ok b ∧ x.hex .sgtin96 f = .ok h ∧ x.base64 .sgtin96 f = .ok s ∧
      (∀ tail, SGTIN.fromBinary (b ++ tail) = .ok y) ∧ SGTIN.fromHex h = .ok y ∧ SGTIN.fromBase64 s = .ok y := by
  obtain ⟨y, hy, rest, _, H⟩ := SGTIN.any_sgtin96 hu ht
  obtain ⟨b, h, s, e⟩ := H.forms (by decide) (fun _ => Bits_bin _ _) rfl (by decide) f
  exact ⟨y, b, h, s, hy, e⟩

/-- SGTIN-96: what has equal encodings. -/
theorem C68_sgtin96_inj (u t : Str) (x : SGTIN) (f : Fin 8) (hu : SGTIN.new u = .ok x)
    (ht : x.tagUri .sgtin96 f = .ok t)
    (v t' : Str) (y : SGTIN) (g : Fin 8) (hu' : SGTIN.new v = .ok y)
    (ht' : y.tagUri .sgtin96 g = .ok t') :
    (x.binary .sgtin96 f = y.binary .sgtin96 g ↔ asciiDigits u = asciiDigits v ∧ f = g) ∧ (x.hex .sgtin96 f = y.hex .sgtin96 g ↔ asciiDigits u = asciiDigits v ∧ f = g) ∧
      (x.base64 .sgtin96 f = y.base64 .sgtin96 g ↔ asciiDigits u = asciiDigits v ∧ f = g) := by
  have back : asciiDigits u = asciiDigits v → ∀ k, x.binary .sgtin96 k = y.binary .sgtin96 k := by
    intro e1 k
    obtain ⟨z, -, hz, -, -, -, h⟩ := C63_sgtin u x hu
    obtain ⟨z', -, hz', -, -, -, h'⟩ := C63_sgtin v y hu'
    rw [e1, hz'] at hz
    injection hz with hz
    rw [← (h .sgtin96 k).2, ← (h' .sgtin96 k).2, hz]
  obtain ⟨z, hz, rest, _, H⟩ := SGTIN.any_sgtin96 hu ht
  obtain ⟨z', hz', rest', _, H'⟩ := SGTIN.any_sgtin96 hu' ht'
  have uri : z = z' → asciiDigits u = asciiDigits v := by
    intro e
    rw [← (C11_sgtin _ _ hz).1, ← (C11_sgtin _ _ hz').1, e]
  obtain ⟨i1, i2, i3⟩ := H.inj H' (by decide) (fun _ => Bits_bin _ _) rfl (by decide) (w := 3) (fun f => length_bin (by omega) (by omega)) (fun f g e => Fin.ext (bin_inj e)) f g
  refine ⟨⟨fun e => ⟨uri (i1 e).1, (i1 e).2⟩, ?_⟩, ⟨fun e => ⟨uri (i2 e).1, (i2 e).2⟩, ?_⟩,
    ⟨fun e => ⟨uri (i3 e).1, (i3 e).2⟩, ?_⟩⟩
  · rintro ⟨e1, e2⟩; rw [e2]; exact back e1 g
  · rintro ⟨e1, e2⟩; rw [e2]; exact congrArg hexOf (back e1 g)
  · rintro ⟨e1, e2⟩; rw [e2]; exact congrArg base64Of (back e1 g)

example : Ascii (py "urn:epc:id:sgtin:9521141.012345.4711") ∧ asciiDigits (py "urn:epc:id:sgtin:9٥٢١١٤١.012345.4711") = py "urn:epc:id:sgtin:9521141.012345.4711" ∧
    ((do let x ← SGTIN.new (py "urn:epc:id:sgtin:9٥٢١١٤١.012345.4711"); x.tagUri .sgtin96 3) : Except Err Str).isOk = true := by decide +kernel

/-- SGTIN-198: the round trips. -/
theorem C68_sgtin198 (u : Str) (x : SGTIN) (f : Fin 8) (hu : SGTIN.new u = .ok x)
    (hs : Canonical x.serial) :
    ∃ y b h s, SGTIN.new (asciiDigits u) = .ok y ∧ x.binary .sgtin198 f = .ok b ∧ x.hex .sgtin198 f = .ok h ∧ x.base64 .sgtin198 f = .ok s ∧
      (∀ tail, SGTIN.fromBinary (b ++ tail) = .ok y) ∧ SGTIN.fromHex h = .ok y ∧ SGTIN.fromBase64 s = .ok y := by
  obtain ⟨y, hy, rest, _, H⟩ := SGTIN.any_sgtin198 hu hs
  obtain ⟨b, h, s, e⟩ := H.forms (by decide) (fun _ => Bits_bin _ _) rfl (by decide) f
  exact ⟨y, b, h, s, hy, e⟩

/-- SGTIN-198: what has equal encodings. -/
theorem C68_sgtin198_inj (u : Str) (x : SGTIN) (f : Fin 8) (hu : SGTIN.new u = .ok x)
    (hs : Canonical x.serial)
    (v : Str) (y : SGTIN) (g : Fin 8) (hu' : SGTIN.new v = .ok y)
    (hs' : Canonical y.serial) :
    (x.binary .sgtin198 f = y.binary .sgtin198 g ↔ asciiDigits u = asciiDigits v ∧ f = g) ∧ (x.hex .sgtin198 f = y.hex .sgtin198 g ↔ asciiDigits u = asciiDigits v ∧ f = g) ∧
      (x.base64 .sgtin198 f = y.base64 .sgtin198 g ↔ asciiDigits u = asciiDigits v ∧ f = g) := by
  have back : asciiDigits u = asciiDigits v → ∀ k, x.binary .sgtin198 k = y.binary .sgtin198 k := by
    intro e1 k
    obtain ⟨z, -, hz, -, -, -, h⟩ := C63_sgtin u x hu
    obtain ⟨z', -, hz', -, -, -, h'⟩ := C63_sgtin v y hu'
    rw [e1, hz'] at hz
    injection hz with hz
    rw [← (h .sgtin198 k).2, ← (h' .sgtin198 k).2, hz]
  obtain ⟨z, hz, rest, _, H⟩ := SGTIN.any_sgtin198 hu hs
  obtain ⟨z', hz', rest', _, H'⟩ := SGTIN.any_sgtin198 hu' hs'
  have uri : z = z' → asciiDigits u = asciiDigits v := by
    intro e
    rw [← (C11_sgtin _ _ hz).1, ← (C11_sgtin _ _ hz').1, e]
  obtain ⟨i1, i2, i3⟩ := H.inj H' (by decide) (fun _ => Bits_bin _ _) rfl (by decide) (w := 3) (fun f => length_bin (by omega) (by omega)) (fun f g e => Fin.ext (bin_inj e)) f g
  refine ⟨⟨fun e => ⟨uri (i1 e).1, (i1 e).2⟩, ?_⟩, ⟨fun e => ⟨uri (i2 e).1, (i2 e).2⟩, ?_⟩,
    ⟨fun e => ⟨uri (i3 e).1, (i3 e).2⟩, ?_⟩⟩
  · rintro ⟨e1, e2⟩; rw [e2]; exact back e1 g
  · rintro ⟨e1, e2⟩; rw [e2]; exact congrArg hexOf (back e1 g)
  · rintro ⟨e1, e2⟩; rw [e2]; exact congrArg base64Of (back e1 g)

example : Ascii (py "urn:epc:id:sgtin:9521141.012345.32a%2Fb") ∧ asciiDigits (py "urn:epc:id:sgtin:9٥٢١١٤١.012345.32a%2Fb") = py "urn:epc:id:sgtin:9521141.012345.32a%2Fb" ∧
    ((do let x ← SGTIN.new (py "urn:epc:id:sgtin:9٥٢١١٤١.012345.32a%2Fb"); x.tagUri .sgtin198 3) : Except Err Str).isOk = true := by decide +kernel

/-- SSCC-96: the round trips. -/
theorem C68_sscc96 (u : Str) (x : SSCC) (f : Fin 8) (hu : SSCC.new u = .ok x) :
    ∃ y b h s, SSCC.new (asciiDigits u) = .ok y ∧ x.binary .sscc96 f = .ok b ∧ x.hex .sscc96 f = .ok h ∧ x.base64 .sscc96 f = .ok s ∧
      (∀ tail, SSCC.fromBinary (b ++ tail) = .ok y) ∧ SSCC.fromHex h = .ok y ∧ SSCC.fromBase64 s = .ok y := by
  obtain ⟨y, hy, rest, _, H⟩ := SSCC.any_sscc96 hu
  obtain ⟨b, h, s, e⟩ := H.forms (by decide) (fun _ => Bits_bin _ _) rfl (by decide) f
  exact ⟨y, b, h, s, hy, e⟩

/-- SSCC-96: what has equal encodings. -/
theorem C68_sscc96_inj (u : Str) (x : SSCC) (f : Fin 8) (hu : SSCC.new u = .ok x)
    (v : Str) (y : SSCC) (g : Fin 8) (hu' : SSCC.new v = .ok y) :
    (x.binary .sscc96 f = y.binary .sscc96 g ↔ asciiDigits u = asciiDigits v ∧ f = g) ∧ (x.hex .sscc96 f = y.hex .sscc96 g ↔ asciiDigits u = asciiDigits v ∧ f = g) ∧
      (x.base64 .sscc96 f = y.base64 .sscc96 g ↔ asciiDigits u = asciiDigits v ∧ f = g) := by
  have back : asciiDigits u = asciiDigits v → ∀ k, x.binary .sscc96 k = y.binary .sscc96 k := by
    intro e1 k
    obtain ⟨z, -, hz, -, -, -, h⟩ := C63_sscc u x hu
    obtain ⟨z', -, hz', -, -, -, h'⟩ := C63_sscc v y hu'
    rw [e1, hz'] at hz
    injection hz with hz
    rw [← (h .sscc96 k).2, ← (h' .sscc96 k).2, hz]
  obtain ⟨z, hz, rest, _, H⟩ := SSCC.any_sscc96 hu
  obtain ⟨z', hz', rest', _, H'⟩ := SSCC.any_sscc96 hu'
  have uri : z = z' → asciiDigits u = asciiDigits v := by
    intro e
    rw [← (C11_sscc _ _ hz).1, ← (C11_sscc _ _ hz').1, e]
  obtain ⟨i1, i2, i3⟩ := H.inj H' (by decide) (fun _ => Bits_bin _ _) rfl (by decide) (w := 3) (fun f => length_bin (by omega) (by omega)) (fun f g e => Fin.ext (bin_inj e)) f g
  refine ⟨⟨fun e => ⟨uri (i1 e).1, (i1 e).2⟩, ?_⟩, ⟨fun e => ⟨uri (i2 e).1, (i2 e).2⟩, ?_⟩,
    ⟨fun e => ⟨uri (i3 e).1, (i3 e).2⟩, ?_⟩⟩
  · rintro ⟨e1, e2⟩; rw [e2]; exact back e1 g
  · rintro ⟨e1, e2⟩; rw [e2]; exact congrArg hexOf (back e1 g)
  · rintro ⟨e1, e2⟩; rw [e2]; exact congrArg base64Of (back e1 g)

example : Ascii (py "urn:epc:id:sscc:9521141.1234567890") ∧ asciiDigits (py "urn:epc:id:sscc:9٥٢١١٤١.1234567890") = py "urn:epc:id:sscc:9521141.1234567890" ∧
    ((do let x ← SSCC.new (py "urn:epc:id:sscc:9٥٢١١٤١.1234567890"); x.tagUri .sscc96 3) : Except Err Str).isOk = true := by decide +kernel

/-- SGLN-96: the round trips. -/
theorem C68_sgln96 (u t : Str) (x : SGLN) (f : Fin 8) (hu : SGLN.new u = .ok x)
    (ht : x.tagUri .sgln96 f = .ok t) :
    ∃ y b h s, SGLN.new (asciiDigits u) = .ok y ∧ x.binary .sgln96 f = .ok b ∧ x.hex .sgln96 f = .ok h ∧ x.base64 .sgln96 f = .ok s ∧
      (∀ tail, SGLN.fromBinary (b ++ tail) = .ok y) ∧ SGLN.fromHex h = .ok y ∧ SGLN.fromBase64 s = .ok y := by
  obtain ⟨y, hy, rest, _, H⟩ := SGLN.any_sgln96 hu ht
  obtain ⟨b, h, s, e⟩ := H.forms (by decide) (fun _ => Bits_bin _ _) rfl (by decide) f
  exact ⟨y, b, h, s, hy, e⟩

/-- SGLN-96: what has equal encodings. -/
theorem C68_sgln96_inj (u t : Str) (x : SGLN) (f : Fin 8) (hu : SGLN.new u = .ok x)
    (ht : x.tagUri .sgln96 f = .ok t)
    (v t' : Str) (y : SGLN) (g : Fin 8) (hu' : SGLN.new v = .ok y)
    (ht' : y.tagUri .sgln96 g = .ok t') :
    (x.binary .sgln96 f = y.binary .sgln96 g ↔ asciiDigits u = asciiDigits v ∧ f = g) ∧ (x.hex .sgln96 f = y.hex .sgln96 g ↔ asciiDigits u = asciiDigits v ∧ f = g) ∧
      (x.base64 .sgln96 f = y.base64 .sgln96 g ↔ asciiDigits u = asciiDigits v ∧ f = g) := by
  have back : asciiDigits u = asciiDigits v → ∀ k, x.binary .sgln96 k = y.binary .sgln96 k := by
    intro e1 k
    obtain ⟨z, -, hz, -, -, -, h⟩ := C63_sgln u x hu
    obtain ⟨z', -, hz', -, -, -, h'⟩ := C63_sgln v y hu'
    rw [e1, hz'] at hz
    injection hz with hz
    rw [← (h .sgln96 k).2, ← (h' .sgln96 k).2, hz]
  obtain ⟨z, hz, rest, _, H⟩ := SGLN.any_sgln96 hu ht
  obtain ⟨z', hz', rest', _, H'⟩ := SGLN.any_sgln96 hu' ht'
  have uri : z = z' → asciiDigits u = asciiDigits v := by
    intro e
    rw [← (C11_sgln _ _ hz).1, ← (C11_sgln _ _ hz').1, e]
  obtain ⟨i1, i2, i3⟩ := H.inj H' (by decide) (fun _ => Bits_bin _ _) rfl (by decide) (w := 3) (fun f => length_bin (by omega) (by omega)) (fun f g e => Fin.ext (bin_inj e)) f g
  refine ⟨⟨fun e => ⟨uri (i1 e).1, (i1 e).2⟩, ?_⟩, ⟨fun e => ⟨uri (i2 e).1, (i2 e).2⟩, ?_⟩,
    ⟨fun e => ⟨uri (i3 e).1, (i3 e).2⟩, ?_⟩⟩
  · rintro ⟨e1, e2⟩; rw [e2]; exact back e1 g
  · rintro ⟨e1, e2⟩; rw [e2]; exact congrArg hexOf (back e1 g)
  · rintro ⟨e1, e2⟩; rw [e2]; exact congrArg base64Of (back e1 g)

example : Ascii (py "urn:epc:id:sgln:9521141.12345.4711") ∧ asciiDigits (py "urn:epc:id:sgln:9٥٢١١٤١.12345.4711") = py "urn:epc:id:sgln:9521141.12345.4711" ∧
    ((do let x ← SGLN.new (py "urn:epc:id:sgln:9٥٢١١٤١.12345.4711"); x.tagUri .sgln96 3) : Except Err Str).isOk = true := by decide +kernel

/-- SGLN-195: the round trips. -/
theorem C68_sgln195 (u : Str) (x : SGLN) (f : Fin 8) (hu : SGLN.new u = .ok x)
    (hs : Canonical x.serial) :
    ∃ y b h s, SGLN.new (asciiDigits u) = .ok y ∧ x.binary .sgln195 f = .ok b ∧ x.hex .sgln195 f = .ok h ∧ x.base64 .sgln195 f = .ok s ∧
      (∀ tail, SGLN.fromBinary (b ++ tail) = .ok y) ∧ SGLN.fromHex h = .ok y ∧ SGLN.fromBase64 s = .ok y := by
  obtain ⟨y, hy, rest, _, H⟩ := SGLN.any_sgln195 hu hs
  obtain ⟨b, h, s, e⟩ := H.forms (by decide) (fun _ => Bits_bin _ _) rfl (by decide) f
  exact ⟨y, b, h, s, hy, e⟩

/-- SGLN-195: what has equal encodings. -/
theorem C68_sgln195_inj (u : Str) (x : SGLN) (f : Fin 8) (hu : SGLN.new u = .ok x)
    (hs : Canonical x.serial)
    (v : Str) (y : SGLN) (g : Fin 8) (hu' : SGLN.new v = .ok y)
    (hs' : Canonical y.serial) :
    (x.binary .sgln195 f = y.binary .sgln195 g ↔ asciiDigits u = asciiDigits v ∧ f = g) ∧ (x.hex .sgln195 f = y.hex .sgln195 g ↔ asciiDigits u = asciiDigits v ∧ f = g) ∧
      (x.base64 .sgln195 f = y.base64 .sgln195 g ↔ asciiDigits u = asciiDigits v ∧ f = g) := by
  have back : asciiDigits u = asciiDigits v → ∀ k, x.binary .sgln195 k = y.binary .sgln195 k := by
    intro e1 k
    obtain ⟨z, -, hz, -, -, -, h⟩ := C63_sgln u x hu
    obtain ⟨z', -, hz', -, -, -, h'⟩ := C63_sgln v y hu'
    rw [e1, hz'] at hz
    injection hz with hz
    rw [← (h .sgln195 k).2, ← (h' .sgln195 k).2, hz]
  obtain ⟨z, hz, rest, _, H⟩ := SGLN.any_sgln195 hu hs
  obtain ⟨z', hz', rest', _, H'⟩ := SGLN.any_sgln195 hu' hs'
  have uri : z = z' → asciiDigits u = asciiDigits v := by
    intro e
    rw [← (C11_sgln _ _ hz).1, ← (C11_sgln _ _ hz').1, e]
  obtain ⟨i1, i2, i3⟩ := H.inj H' (by decide) (fun _ => Bits_bin _ _) rfl (by decide) (w := 3) (fun f => length_bin (by omega) (by omega)) (fun f g e => Fin.ext (bin_inj e)) f g
  refine ⟨⟨fun e => ⟨uri (i1 e).1, (i1 e).2⟩, ?_⟩, ⟨fun e => ⟨uri (i2 e).1, (i2 e).2⟩, ?_⟩,
    ⟨fun e => ⟨uri (i3 e).1, (i3 e).2⟩, ?_⟩⟩
  · rintro ⟨e1, e2⟩; rw [e2]; exact back e1 g
  · rintro ⟨e1, e2⟩; rw [e2]; exact congrArg hexOf (back e1 g)
  · rintro ⟨e1, e2⟩; rw [e2]; exact congrArg base64Of (back e1 g)

example : Ascii (py "urn:epc:id:sgln:9521141.12345.32a%2Fb") ∧ asciiDigits (py "urn:epc:id:sgln:9٥٢١١٤١.12345.32a%2Fb") = py "urn:epc:id:sgln:9521141.12345.32a%2Fb" ∧
    ((do let x ← SGLN.new (py "urn:epc:id:sgln:9٥٢١١٤١.12345.32a%2Fb"); x.tagUri .sgln195 3) : Except Err Str).isOk = true := by decide +kernel

/-- GRAI-96: the round trips. -/
theorem C68_grai96 (u t : Str) (x : GRAI) (f : Fin 8) (hu : GRAI.new u = .ok x)
    (ht : x.tagUri .grai96 f = .ok t) :
    ∃ y b h s, GRAI.new (asciiDigits u) = .ok y ∧ x.binary .grai96 f = .ok b ∧ x.hex .grai96 f = .ok h ∧ x.base64 .grai96 f = .ok s ∧
      (∀ tail, GRAI.fromBinary (b ++ tail) = .ok y) ∧ GRAI.fromHex h = .ok y ∧ GRAI.fromBase64 s = .ok y := by
  obtain ⟨y, hy, rest, _, H⟩ := GRAI.any_grai96 hu ht
  obtain ⟨b, h, s, e⟩ := H.forms (by decide) (fun _ => Bits_bin _ _) rfl (by decide) f
  exact ⟨y, b, h, s, hy, e⟩

/-- GRAI-96: what has equal encodings. -/
theorem C68_grai96_inj (u t : Str) (x : GRAI) (f : Fin 8) (hu : GRAI.new u = .ok x)
    (ht : x.tagUri .grai96 f = .ok t)
    (v t' : Str) (y : GRAI) (g : Fin 8) (hu' : GRAI.new v = .ok y)
    (ht' : y.tagUri .grai96 g = .ok t') :
    (x.binary .grai96 f = y.binary .grai96 g ↔ asciiDigits u = asciiDigits v ∧ f = g) ∧ (x.hex .grai96 f = y.hex .grai96 g ↔ asciiDigits u = asciiDigits v ∧ f = g) ∧
      (x.base64 .grai96 f = y.base64 .grai96 g ↔ asciiDigits u = asciiDigits v ∧ f = g) := by
  have back : asciiDigits u = asciiDigits v → ∀ k, x.binary .grai96 k = y.binary .grai96 k := by
    intro e1 k
    obtain ⟨z, -, hz, -, -, -, h⟩ := C63_grai u x hu
    obtain ⟨z', -, hz', -, -, -, h'⟩ := C63_grai v y hu'
    rw [e1, hz'] at hz
    injection hz with hz
    rw [← (h .grai96 k).2, ← (h' .grai96 k).2, hz]
  obtain ⟨z, hz, rest, _, H⟩ := GRAI.any_grai96 hu ht
  obtain ⟨z', hz', rest', _, H'⟩ := GRAI.any_grai96 hu' ht'
  have uri : z = z' → asciiDigits u = asciiDigits v := by
    intro e
    rw [← (C11_grai _ _ hz).1, ← (C11_grai _ _ hz').1, e]
  obtain ⟨i1, i2, i3⟩ := H.inj H' (by decide) (fun _ => Bits_bin _ _) rfl (by decide) (w := 3) (fun f => length_bin (by omega) (by omega)) (fun f g e => Fin.ext (bin_inj e)) f g
  refine ⟨⟨fun e => ⟨uri (i1 e).1, (i1 e).2⟩, ?_⟩, ⟨fun e => ⟨uri (i2 e).1, (i2 e).2⟩, ?_⟩,
    ⟨fun e => ⟨uri (i3 e).1, (i3 e).2⟩, ?_⟩⟩
  · rintro ⟨e1, e2⟩; rw [e2]; exact back e1 g
  · rintro ⟨e1, e2⟩; rw [e2]; exact congrArg hexOf (back e1 g)
  · rintro ⟨e1, e2⟩; rw [e2]; exact congrArg base64Of (back e1 g)

example : Ascii (py "urn:epc:id:grai:9521141.12345.4711") ∧ asciiDigits (py "urn:epc:id:grai:9٥٢١١٤١.12345.4711") = py "urn:epc:id:grai:9521141.12345.4711" ∧
    ((do let x ← GRAI.new (py "urn:epc:id:grai:9٥٢١١٤١.12345.4711"); x.tagUri .grai96 3) : Except Err Str).isOk = true := by decide +kernel

/-- GRAI-170: the round trips. -/
theorem C68_grai170 (u : Str) (x : GRAI) (f : Fin 8) (hu : GRAI.new u = .ok x)
    (hs : Canonical x.serial) :
    ∃ y b h s, GRAI.new (asciiDigits u) = .ok y ∧ x.binary .grai170 f = .ok b ∧ x.hex .grai170 f = .ok h ∧ x.base64 .grai170 f = .ok s ∧
      (∀ tail, GRAI.fromBinary (b ++ tail) = .ok y) ∧ GRAI.fromHex h = .ok y ∧ GRAI.fromBase64 s = .ok y := by
  obtain ⟨y, hy, rest, _, H⟩ := GRAI.any_grai170 hu hs
  obtain ⟨b, h, s, e⟩ := H.forms (by decide) (fun _ => Bits_bin _ _) rfl (by decide) f
  exact ⟨y, b, h, s, hy, e⟩

/-- GRAI-170: what has equal encodings. -/
theorem C68_grai170_inj (u : Str) (x : GRAI) (f : Fin 8) (hu : GRAI.new u = .ok x)
    (hs : Canonical x.serial)
    (v : Str) (y : GRAI) (g : Fin 8) (hu' : GRAI.new v = .ok y)
    (hs' : Canonical y.serial) :
    (x.binary .grai170 f = y.binary .grai170 g ↔ asciiDigits u = asciiDigits v ∧ f = g) ∧ (x.hex .grai170 f = y.hex .grai170 g ↔ asciiDigits u = asciiDigits v ∧ f = g) ∧
      (x.base64 .grai170 f = y.base64 .grai170 g ↔ asciiDigits u = asciiDigits v ∧ f = g) := by
  have back : asciiDigits u = asciiDigits v → ∀ k, x.binary .grai170 k = y.binary .grai170 k := by
    intro e1 k
    obtain ⟨z, -, hz, -, -, -, h⟩ := C63_grai u x hu
    obtain ⟨z', -, hz', -, -, -, h'⟩ := C63_grai v y hu'
    rw [e1, hz'] at hz
    injection hz with hz
    rw [← (h .grai170 k).2, ← (h' .grai170 k).2, hz]
  obtain ⟨z, hz, rest, _, H⟩ := GRAI.any_grai170 hu hs
  obtain ⟨z', hz', rest', _, H'⟩ := GRAI.any_grai170 hu' hs'
  have uri : z = z' → asciiDigits u = asciiDigits v := by
    intro e
    rw [← (C11_grai _ _ hz).1, ← (C11_grai _ _ hz').1, e]
  obtain ⟨i1, i2, i3⟩ := H.inj H' (by decide) (fun _ => Bits_bin _ _) rfl (by decide) (w := 3) (fun f => length_bin (by omega) (by omega)) (fun f g e => Fin.ext (bin_inj e)) f g
  refine ⟨⟨fun e => ⟨uri (i1 e).1, (i1 e).2⟩, ?_⟩, ⟨fun e => ⟨uri (i2 e).1, (i2 e).2⟩, ?_⟩,
    ⟨fun e => ⟨uri (i3 e).1, (i3 e).2⟩, ?_⟩⟩
  · rintro ⟨e1, e2⟩; rw [e2]; exact back e1 g
  · rintro ⟨e1, e2⟩; rw [e2]; exact congrArg hexOf (back e1 g)
  · rintro ⟨e1, e2⟩; rw [e2]; exact congrArg base64Of (back e1 g)

example : Ascii (py "urn:epc:id:grai:9521141.12345.32a%2Fb") ∧ asciiDigits (py "urn:epc:id:grai:9٥٢١١٤١.12345.32a%2Fb") = py "urn:epc:id:grai:9521141.12345.32a%2Fb" ∧
    ((do let x ← GRAI.new (py "urn:epc:id:grai:9٥٢١١٤١.12345.32a%2Fb"); x.tagUri .grai170 3) : Except Err Str).isOk = true := by decide +kernel

/-- GIAI-96: the round trips. -/
theorem C68_giai96 (u t : Str) (x : GIAI) (f : Fin 8) (hu : GIAI.new u = .ok x)
    (ht : x.tagUri .giai96 f = .ok t) :
    ∃ y b h s, GIAI.new (py "urn:epc:id:giai:" ++ (asciiDigits x.companyPref ++ '.' :: x.assetRef)) = .ok y ∧ x.binary .giai96 f = .ok b ∧ x.hex .giai96 f = .ok h ∧ x.base64 .giai96 f = .ok s ∧
      (∀ tail, GIAI.fromBinary (b ++ tail) = .ok y) ∧ GIAI.fromHex h = .ok y ∧ GIAI.fromBase64 s = .ok y := by
  obtain ⟨y, hy, rest, _, H⟩ := GIAI.any_giai96 hu ht
  obtain ⟨b, h, s, e⟩ := H.forms (by decide) (fun _ => Bits_bin _ _) rfl (by decide) f
  exact ⟨y, b, h, s, hy, e⟩

/-- GIAI-96: what has equal encodings. -/
theorem C68_giai96_inj (u t : Str) (x : GIAI) (f : Fin 8) (hu : GIAI.new u = .ok x)
    (ht : x.tagUri .giai96 f = .ok t)
    (v t' : Str) (y : GIAI) (g : Fin 8) (hu' : GIAI.new v = .ok y)
    (ht' : y.tagUri .giai96 g = .ok t') :
    (x.binary .giai96 f = y.binary .giai96 g ↔ asciiDigits x.companyPref = asciiDigits y.companyPref ∧ x.assetRef = y.assetRef ∧ f = g) ∧ (x.hex .giai96 f = y.hex .giai96 g ↔ asciiDigits x.companyPref = asciiDigits y.companyPref ∧ x.assetRef = y.assetRef ∧ f = g) ∧
      (x.base64 .giai96 f = y.base64 .giai96 g ↔ asciiDigits x.companyPref = asciiDigits y.companyPref ∧ x.assetRef = y.assetRef ∧ f = g) := by
  have back : asciiDigits x.companyPref = asciiDigits y.companyPref ∧ x.assetRef = y.assetRef → ∀ k, x.binary .giai96 k = y.binary .giai96 k := by
    rintro ⟨e1, e2⟩ k
    obtain ⟨z, -, hz, ez, -, -, h⟩ := C63_giai u x hu
    obtain ⟨z', -, hz', ez', -, -, h'⟩ := C63_giai v y hu'
    obtain ⟨q, hq, -, -, -, -, hb, -⟩ := GIAI.normal hz
    obtain ⟨q', hq', -, -, -, -, hb', -⟩ := GIAI.normal hz'
    subst ez; subst ez'
    dsimp only at hq hq'
    rw [e1, e2] at hq
    rw [hq] at hq'
    injection hq' with hq'
    rw [← (h .giai96 k).2, ← (h' .giai96 k).2, ← hb, ← hb', hq']
  obtain ⟨z, hz, rest, _, H⟩ := GIAI.any_giai96 hu ht
  obtain ⟨z', hz', rest', _, H'⟩ := GIAI.any_giai96 hu' ht'
  have uri : z = z' → asciiDigits x.companyPref = asciiDigits y.companyPref ∧ x.assetRef = y.assetRef := by
    intro e
    have hq := (C11_giai_partial _ _ hz).1.symm.trans ((congrArg GIAI.epcUri e).trans (C11_giai_partial _ _ hz').1)
    have d1 := dec_asciiDigits ((uDigits_iff _).1 (C14_giai_partial u x hu))
    have d2 := dec_asciiDigits ((uDigits_iff _).1 (C14_giai_partial v y hu'))
    exact append_sep_inj d1.no_dot d2.no_dot (List.append_cancel_left hq)
  obtain ⟨i1, i2, i3⟩ := H.inj H' (by decide) (fun _ => Bits_bin _ _) rfl (by decide) (w := 3) (fun f => length_bin (by omega) (by omega)) (fun f g e => Fin.ext (bin_inj e)) f g
  refine ⟨⟨fun e => ⟨(uri (i1 e).1).1, (uri (i1 e).1).2, (i1 e).2⟩, ?_⟩, ⟨fun e => ⟨(uri (i2 e).1).1, (uri (i2 e).1).2, (i2 e).2⟩, ?_⟩,
    ⟨fun e => ⟨(uri (i3 e).1).1, (uri (i3 e).1).2, (i3 e).2⟩, ?_⟩⟩
  · rintro ⟨e1, e3, e2⟩; rw [e2]; exact back ⟨e1, e3⟩ g
  · rintro ⟨e1, e3, e2⟩; rw [e2]; exact congrArg hexOf (back ⟨e1, e3⟩ g)
  · rintro ⟨e1, e3, e2⟩; rw [e2]; exact congrArg base64Of (back ⟨e1, e3⟩ g)

example : Ascii (py "urn:epc:id:giai:9521141.4711") ∧ asciiDigits (py "urn:epc:id:giai:9٥٢١١٤١.4711") = py "urn:epc:id:giai:9521141.4711" ∧
    ((do let x ← GIAI.new (py "urn:epc:id:giai:9٥٢١١٤١.4711"); x.tagUri .giai96 3) : Except Err Str).isOk = true := by decide +kernel

/-- GIAI-202: the round trips. -/
theorem C68_giai202 (u : Str) (x : GIAI) (f : Fin 8) (hu : GIAI.new u = .ok x)
    (hs : Canonical x.assetRef) :
    ∃ y b h s, GIAI.new (py "urn:epc:id:giai:" ++ (asciiDigits x.companyPref ++ '.' :: x.assetRef)) = .ok y ∧ x.binary .giai202 f = .ok b ∧ x.hex .giai202 f = .ok h ∧ x.base64 .giai202 f = .ok s ∧
      (∀ tail, GIAI.fromBinary (b ++ tail) = .ok y) ∧ GIAI.fromHex h = .ok y ∧ GIAI.fromBase64 s = .ok y := by
  obtain ⟨y, hy, rest, _, H⟩ := GIAI.any_giai202 hu hs
  obtain ⟨b, h, s, e⟩ := H.forms (by decide) (fun _ => Bits_bin _ _) rfl (by decide) f
  exact ⟨y, b, h, s, hy, e⟩

/-- GIAI-202: what has equal encodings. -/
theorem C68_giai202_inj (u : Str) (x : GIAI) (f : Fin 8) (hu : GIAI.new u = .ok x)
    (hs : Canonical x.assetRef)
    (v : Str) (y : GIAI) (g : Fin 8) (hu' : GIAI.new v = .ok y)
    (hs' : Canonical y.assetRef) :
    (x.binary .giai202 f = y.binary .giai202 g ↔ asciiDigits x.companyPref = asciiDigits y.companyPref ∧ x.assetRef = y.assetRef ∧ f = g) ∧ (x.hex .giai202 f = y.hex .giai202 g ↔ asciiDigits x.companyPref = asciiDigits y.companyPref ∧ x.assetRef = y.assetRef ∧ f = g) ∧
      (x.base64 .giai202 f = y.base64 .giai202 g ↔ asciiDigits x.companyPref = asciiDigits y.companyPref ∧ x.assetRef = y.assetRef ∧ f = g) := by
  have back : asciiDigits x.companyPref = asciiDigits y.companyPref ∧ x.assetRef = y.assetRef → ∀ k, x.binary .giai202 k = y.binary .giai202 k := by
    rintro ⟨e1, e2⟩ k
    obtain ⟨z, -, hz, ez, -, -, h⟩ := C63_giai u x hu
    obtain ⟨z', -, hz', ez', -, -, h'⟩ := C63_giai v y hu'
    obtain ⟨q, hq, -, -, -, -, hb, -⟩ := GIAI.normal hz
    obtain ⟨q', hq', -, -, -, -, hb', -⟩ := GIAI.normal hz'
    subst ez; subst ez'
    dsimp only at hq hq'
    rw [e1, e2] at hq
    rw [hq] at hq'
    injection hq' with hq'
    rw [← (h .giai202 k).2, ← (h' .giai202 k).2, ← hb, ← hb', hq']
  obtain ⟨z, hz, rest, _, H⟩ := GIAI.any_giai202 hu hs
  obtain ⟨z', hz', rest', _, H'⟩ := GIAI.any_giai202 hu' hs'
  have uri : z = z' → asciiDigits x.companyPref = asciiDigits y.companyPref ∧ x.assetRef = y.assetRef := by
    intro e
    have hq := (C11_giai_partial _ _ hz).1.symm.trans ((congrArg GIAI.epcUri e).trans (C11_giai_partial _ _ hz').1)
    have d1 := dec_asciiDigits ((uDigits_iff _).1 (C14_giai_partial u x hu))
    have d2 := dec_asciiDigits ((uDigits_iff _).1 (C14_giai_partial v y hu'))
    exact append_sep_inj d1.no_dot d2.no_dot (List.append_cancel_left hq)
  obtain ⟨i1, i2, i3⟩ := H.inj H' (by decide) (fun _ => Bits_bin _ _) rfl (by decide) (w := 3) (fun f => length_bin (by omega) (by omega)) (fun f g e => Fin.ext (bin_inj e)) f g
  refine ⟨⟨fun e => ⟨(uri (i1 e).1).1, (uri (i1 e).1).2, (i1 e).2⟩, ?_⟩, ⟨fun e => ⟨(uri (i2 e).1).1, (uri (i2 e).1).2, (i2 e).2⟩, ?_⟩,
    ⟨fun e => ⟨(uri (i3 e).1).1, (uri (i3 e).1).2, (i3 e).2⟩, ?_⟩⟩
  · rintro ⟨e1, e3, e2⟩; rw [e2]; exact back ⟨e1, e3⟩ g
  · rintro ⟨e1, e3, e2⟩; rw [e2]; exact congrArg hexOf (back ⟨e1, e3⟩ g)
  · rintro ⟨e1, e3, e2⟩; rw [e2]; exact congrArg base64Of (back ⟨e1, e3⟩ g)

example : Ascii (py "urn:epc:id:giai:9521141.32a%2Fb") ∧ asciiDigits (py "urn:epc:id:giai:9٥٢١١٤١.32a%2Fb") = py "urn:epc:id:giai:9521141.32a%2Fb" ∧
    ((do let x ← GIAI.new (py "urn:epc:id:giai:9٥٢١١٤١.32a%2Fb"); x.tagUri .giai202 3) : Except Err Str).isOk = true := by decide +kernel

/-- GSRN-96: the round trips. -/
theorem C68_gsrn96 (u : Str) (x : GSRN) (f : Fin 8) (hu : GSRN.new u = .ok x) :
    ∃ y b h s, GSRN.new (asciiDigits u) = .ok y ∧ x.binary .gsrn96 f = .ok b ∧ x.hex .gsrn96 f = .ok h ∧ x.base64 .gsrn96 f = .ok s ∧
      (∀ tail, GSRN.fromBinary (b ++ tail) = .ok y) ∧ GSRN.fromHex h = .ok y ∧ GSRN.fromBase64 s = .ok y := by
  obtain ⟨y, hy, rest, _, H⟩ := GSRN.any_gsrn96 hu
  obtain ⟨b, h, s, e⟩ := H.forms (by decide) (fun _ => Bits_bin _ _) rfl (by decide) f
  exact ⟨y, b, h, s, hy, e⟩

/-- GSRN-96: what has equal encodings. -/
theorem C68_gsrn96_inj (u : Str) (x : GSRN) (f : Fin 8) (hu : GSRN.new u = .ok x)
    (v : Str) (y : GSRN) (g : Fin 8) (hu' : GSRN.new v = .ok y) :
    (x.binary .gsrn96 f = y.binary .gsrn96 g ↔ asciiDigits u = asciiDigits v ∧ f = g) ∧ (x.hex .gsrn96 f = y.hex .gsrn96 g ↔ asciiDigits u = asciiDigits v ∧ f = g) ∧
      (x.base64 .gsrn96 f = y.base64 .gsrn96 g ↔ asciiDigits u = asciiDigits v ∧ f = g) := by
  have back : asciiDigits u = asciiDigits v → ∀ k, x.binary .gsrn96 k = y.binary .gsrn96 k := by
    intro e1 k
    obtain ⟨z, -, hz, -, -, -, h⟩ := C63_gsrn u x hu
    obtain ⟨z', -, hz', -, -, -, h'⟩ := C63_gsrn v y hu'
    rw [e1, hz'] at hz
    injection hz with hz
    rw [← (h .gsrn96 k).2, ← (h' .gsrn96 k).2, hz]
  obtain ⟨z, hz, rest, _, H⟩ := GSRN.any_gsrn96 hu
  obtain ⟨z', hz', rest', _, H'⟩ := GSRN.any_gsrn96 hu'
  have uri : z = z' → asciiDigits u = asciiDigits v := by
    intro e
    rw [← (C11_gsrn _ _ hz).1, ← (C11_gsrn _ _ hz').1, e]
  obtain ⟨i1, i2, i3⟩ := H.inj H' (by decide) (fun _ => Bits_bin _ _) rfl (by decide) (w := 3) (fun f => length_bin (by omega) (by omega)) (fun f g e => Fin.ext (bin_inj e)) f g
  refine ⟨⟨fun e => ⟨uri (i1 e).1, (i1 e).2⟩, ?_⟩, ⟨fun e => ⟨uri (i2 e).1, (i2 e).2⟩, ?_⟩,
    ⟨fun e => ⟨uri (i3 e).1, (i3 e).2⟩, ?_⟩⟩
  · rintro ⟨e1, e2⟩; rw [e2]; exact back e1 g
  · rintro ⟨e1, e2⟩; rw [e2]; exact congrArg hexOf (back e1 g)
  · rintro ⟨e1, e2⟩; rw [e2]; exact congrArg base64Of (back e1 g)

example : Ascii (py "urn:epc:id:gsrn:9521141.1234567890") ∧ asciiDigits (py "urn:epc:id:gsrn:9٥٢١١٤١.1234567890") = py "urn:epc:id:gsrn:9521141.1234567890" ∧
    ((do let x ← GSRN.new (py "urn:epc:id:gsrn:9٥٢١١٤١.1234567890"); x.tagUri .gsrn96 3) : Except Err Str).isOk = true := by decide +kernel

/-- GSRNP-96: the round trips. -/
theorem C68_gsrnp96 (u : Str) (x : GSRNP) (f : Fin 8) (hu : GSRNP.new u = .ok x) :
    ∃ y b h s, GSRNP.new (asciiDigits u) = .ok y ∧ x.binary .gsrnp96 f = .ok b ∧ x.hex .gsrnp96 f = .ok h ∧ x.base64 .gsrnp96 f = .ok s ∧
      (∀ tail, GSRNP.fromBinary (b ++ tail) = .ok y) ∧ GSRNP.fromHex h = .ok y ∧ GSRNP.fromBase64 s = .ok y := by
  obtain ⟨y, hy, rest, _, H⟩ := GSRNP.any_gsrnp96 hu
  obtain ⟨b, h, s, e⟩ := H.forms (by decide) (fun _ => Bits_bin _ _) rfl (by decide) f
  exact ⟨y, b, h, s, hy, e⟩

/-- GSRNP-96: what has equal encodings. -/
theorem C68_gsrnp96_inj (u : Str) (x : GSRNP) (f : Fin 8) (hu : GSRNP.new u = .ok x)
    (v : Str) (y : GSRNP) (g : Fin 8) (hu' : GSRNP.new v = .ok y) :
    (x.binary .gsrnp96 f = y.binary .gsrnp96 g ↔ asciiDigits u = asciiDigits v ∧ f = g) ∧ (x.hex .gsrnp96 f = y.hex .gsrnp96 g ↔ asciiDigits u = asciiDigits v ∧ f = g) ∧
      (x.base64 .gsrnp96 f = y.base64 .gsrnp96 g ↔ asciiDigits u = asciiDigits v ∧ f = g) := by
  have back : asciiDigits u = asciiDigits v → ∀ k, x.binary .gsrnp96 k = y.binary .gsrnp96 k := by
    intro e1 k
    obtain ⟨z, -, hz, -, -, -, h⟩ := C63_gsrnp u x hu
    obtain ⟨z', -, hz', -, -, -, h'⟩ := C63_gsrnp v y hu'
    rw [e1, hz'] at hz
    injection hz with hz
    rw [← (h .gsrnp96 k).2, ← (h' .gsrnp96 k).2, hz]
  obtain ⟨z, hz, rest, _, H⟩ := GSRNP.any_gsrnp96 hu
  obtain ⟨z', hz', rest', _, H'⟩ := GSRNP.any_gsrnp96 hu'
  have uri : z = z' → asciiDigits u = asciiDigits v := by
    intro e
    rw [← (C11_gsrnp _ _ hz).1, ← (C11_gsrnp _ _ hz').1, e]
  obtain ⟨i1, i2, i3⟩ := H.inj H' (by decide) (fun _ => Bits_bin _ _) rfl (by decide) (w := 3) (fun f => length_bin (by omega) (by omega)) (fun f g e => Fin.ext (bin_inj e)) f g
  refine ⟨⟨fun e => ⟨uri (i1 e).1, (i1 e).2⟩, ?_⟩, ⟨fun e => ⟨uri (i2 e).1, (i2 e).2⟩, ?_⟩,
    ⟨fun e => ⟨uri (i3 e).1, (i3 e).2⟩, ?_⟩⟩
  · rintro ⟨e1, e2⟩; rw [e2]; exact back e1 g
  · rintro ⟨e1, e2⟩; rw [e2]; exact congrArg hexOf (back e1 g)
  · rintro ⟨e1, e2⟩; rw [e2]; exact congrArg base64Of (back e1 g)

example : Ascii (py "urn:epc:id:gsrnp:9521141.1234567890") ∧ asciiDigits (py "urn:epc:id:gsrnp:9٥٢١١٤١.1234567890") = py "urn:epc:id:gsrnp:9521141.1234567890" ∧
    ((do let x ← GSRNP.new (py "urn:epc:id:gsrnp:9٥٢١١٤١.1234567890"); x.tagUri .gsrnp96 3) : Except Err Str).isOk = true := by decide +kernel

/-- GDTI-96: the round trips. -/
theorem C68_gdti96 (u t : Str) (x : GDTI) (f : Fin 8) (hu : GDTI.new u = .ok x)
    (ht : x.tagUri .gdti96 f = .ok t) :
    ∃ y b h s, GDTI.new (asciiDigits u) = .ok y ∧ x.binary .gdti96 f = .ok b ∧ x.hex .gdti96 f = .ok h ∧ x.base64 .gdti96 f = .ok s ∧
      (∀ tail, GDTI.fromBinary (b ++ tail) = .ok y) ∧ GDTI.fromHex h = .ok y ∧ GDTI.fromBase64 s = .ok y := by
  obtain ⟨y, hy, rest, _, H⟩ := GDTI.any_gdti96 hu ht
  obtain ⟨b, h, s, e⟩ := H.forms (by decide) (fun _ => Bits_bin _ _) rfl (by decide) f
  exact ⟨y, b, h, s, hy, e⟩

/-- GDTI-96: what has equal encodings. -/
theorem C68_gdti96_inj (u t : Str) (x : GDTI) (f : Fin 8) (hu : GDTI.new u = .ok x)
    (ht : x.tagUri .gdti96 f = .ok t)
    (v t' : Str) (y : GDTI) (g : Fin 8) (hu' : GDTI.new v = .ok y)
    (ht' : y.tagUri .gdti96 g = .ok t') :
    (x.binary .gdti96 f = y.binary .gdti96 g ↔ asciiDigits u = asciiDigits v ∧ f = g) ∧ (x.hex .gdti96 f = y.hex .gdti96 g ↔ asciiDigits u = asciiDigits v ∧ f = g) ∧
      (x.base64 .gdti96 f = y.base64 .gdti96 g ↔ asciiDigits u = asciiDigits v ∧ f = g) := by
  have back : asciiDigits u = asciiDigits v → ∀ k, x.binary .gdti96 k = y.binary .gdti96 k := by
    intro e1 k
    obtain ⟨z, -, hz, -, -, -, h⟩ := C63_gdti u x hu
    obtain ⟨z', -, hz', -, -, -, h'⟩ := C63_gdti v y hu'
    rw [e1, hz'] at hz
    injection hz with hz
    rw [← (h .gdti96 k).2, ← (h' .gdti96 k).2, hz]
  obtain ⟨z, hz, rest, _, H⟩ := GDTI.any_gdti96 hu ht
  obtain ⟨z', hz', rest', _, H'⟩ := GDTI.any_gdti96 hu' ht'
  have uri : z = z' → asciiDigits u = asciiDigits v := by
    intro e
    rw [← (C11_gdti _ _ hz).1, ← (C11_gdti _ _ hz').1, e]
  obtain ⟨i1, i2, i3⟩ := H.inj H' (by decide) (fun _ => Bits_bin _ _) rfl (by decide) (w := 3) (fun f => length_bin (by omega) (by omega)) (fun f g e => Fin.ext (bin_inj e)) f g
  refine ⟨⟨fun e => ⟨uri (i1 e).1, (i1 e).2⟩, ?_⟩, ⟨fun e => ⟨uri (i2 e).1, (i2 e).2⟩, ?_⟩,
    ⟨fun e => ⟨uri (i3 e).1, (i3 e).2⟩, ?_⟩⟩
  · rintro ⟨e1, e2⟩; rw [e2]; exact back e1 g
  · rintro ⟨e1, e2⟩; rw [e2]; exact congrArg hexOf (back e1 g)
  · rintro ⟨e1, e2⟩; rw [e2]; exact congrArg base64Of (back e1 g)

example : Ascii (py "urn:epc:id:gdti:9521141.12345.4711") ∧ asciiDigits (py "urn:epc:id:gdti:9٥٢١١٤١.12345.4711") = py "urn:epc:id:gdti:9521141.12345.4711" ∧
    ((do let x ← GDTI.new (py "urn:epc:id:gdti:9٥٢١١٤١.12345.4711"); x.tagUri .gdti96 3) : Except Err Str).isOk = true := by decide +kernel

/-- GDTI-174: the round trips. -/
theorem C68_gdti174 (u : Str) (x : GDTI) (f : Fin 8) (hu : GDTI.new u = .ok x)
    (hs : Canonical x.serial) :
    ∃ y b h s, GDTI.new (asciiDigits u) = .ok y ∧ x.binary .gdti174 f = .ok b ∧ x.hex .gdti174 f = .ok h ∧ x.base64 .gdti174 f = .ok s ∧
      (∀ tail, GDTI.fromBinary (b ++ tail) = .ok y) ∧ GDTI.fromHex h = .ok y ∧ GDTI.fromBase64 s = .ok y := by
  obtain ⟨y, hy, rest, _, H⟩ := GDTI.any_gdti174 hu hs
  obtain ⟨b, h, s, e⟩ := H.forms (by decide) (fun _ => Bits_bin _ _) rfl (by decide) f
  exact ⟨y, b, h, s, hy, e⟩

/-- GDTI-174: what has equal encodings. -/
theorem C68_gdti174_inj (u : Str) (x : GDTI) (f : Fin 8) (hu : GDTI.new u = .ok x)
    (hs : Canonical x.serial)
    (v : Str) (y : GDTI) (g : Fin 8) (hu' : GDTI.new v = .ok y)
    (hs' : Canonical y.serial) :
    (x.binary .gdti174 f = y.binary .gdti174 g ↔ asciiDigits u = asciiDigits v ∧ f = g) ∧ (x.hex .gdti174 f = y.hex .gdti174 g ↔ asciiDigits u = asciiDigits v ∧ f = g) ∧
      (x.base64 .gdti174 f = y.base64 .gdti174 g ↔ asciiDigits u = asciiDigits v ∧ f = g) := by
  have back : asciiDigits u = asciiDigits v → ∀ k, x.binary .gdti174 k = y.binary .gdti174 k := by
    intro e1 k
    obtain ⟨z, -, hz, -, -, -, h⟩ := C63_gdti u x hu
    obtain ⟨z', -, hz', -, -, -, h'⟩ := C63_gdti v y hu'
    rw [e1, hz'] at hz
    injection hz with hz
    rw [← (h .gdti174 k).2, ← (h' .gdti174 k).2, hz]
  obtain ⟨z, hz, rest, _, H⟩ := GDTI.any_gdti174 hu hs
  obtain ⟨z', hz', rest', _, H'⟩ := GDTI.any_gdti174 hu' hs'
  have uri : z = z' → asciiDigits u = asciiDigits v := by
    intro e
    rw [← (C11_gdti _ _ hz).1, ← (C11_gdti _ _ hz').1, e]
  obtain ⟨i1, i2, i3⟩ := H.inj H' (by decide) (fun _ => Bits_bin _ _) rfl (by decide) (w := 3) (fun f => length_bin (by omega) (by omega)) (fun f g e => Fin.ext (bin_inj e)) f g
  refine ⟨⟨fun e => ⟨uri (i1 e).1, (i1 e).2⟩, ?_⟩, ⟨fun e => ⟨uri (i2 e).1, (i2 e).2⟩, ?_⟩,
    ⟨fun e => ⟨uri (i3 e).1, (i3 e).2⟩, ?_⟩⟩
  · rintro ⟨e1, e2⟩; rw [e2]; exact back e1 g
  · rintro ⟨e1, e2⟩; rw [e2]; exact congrArg hexOf (back e1 g)
  · rintro ⟨e1, e2⟩; rw [e2]; exact congrArg base64Of (back e1 g)

example : Ascii (py "urn:epc:id:gdti:9521141.12345.32a%2Fb") ∧ asciiDigits (py "urn:epc:id:gdti:9٥٢١١٤١.12345.32a%2Fb") = py "urn:epc:id:gdti:9521141.12345.32a%2Fb" ∧
    ((do let x ← GDTI.new (py "urn:epc:id:gdti:9٥٢١١٤١.12345.32a%2Fb"); x.tagUri .gdti174 3) : Except Err Str).isOk = true := by decide +kernel

/-- CPI-96: the round trips. -/
theorem C68_cpi96 (u t : Str) (x : CPI) (f : Fin 8) (hu : CPI.new u = .ok x)
    (ht : x.tagUri .cpi96 f = .ok t) :
    ∃ y b h s, CPI.new (asciiDigits u) = .ok y ∧ x.binary .cpi96 f = .ok b ∧ x.hex .cpi96 f = .ok h ∧ x.base64 .cpi96 f = .ok s ∧
      (∀ tail, CPI.fromBinary (b ++ tail) = .ok y) ∧ CPI.fromHex h = .ok y ∧ CPI.fromBase64 s = .ok y := by
  obtain ⟨y, hy, rest, _, H⟩ := CPI.any_cpi96 hu ht
  obtain ⟨b, h, s, e⟩ := H.forms (by decide) (fun _ => Bits_bin _ _) rfl (by decide) f
  exact ⟨y, b, h, s, hy, e⟩

/-- CPI-96: what has equal encodings. -/
theorem C68_cpi96_inj (u t : Str) (x : CPI) (f : Fin 8) (hu : CPI.new u = .ok x)
    (ht : x.tagUri .cpi96 f = .ok t)
    (v t' : Str) (y : CPI) (g : Fin 8) (hu' : CPI.new v = .ok y)
    (ht' : y.tagUri .cpi96 g = .ok t') :
    (x.binary .cpi96 f = y.binary .cpi96 g ↔ asciiDigits u = asciiDigits v ∧ f = g) ∧ (x.hex .cpi96 f = y.hex .cpi96 g ↔ asciiDigits u = asciiDigits v ∧ f = g) ∧
      (x.base64 .cpi96 f = y.base64 .cpi96 g ↔ asciiDigits u = asciiDigits v ∧ f = g) := by
  have back : asciiDigits u = asciiDigits v → ∀ k, x.binary .cpi96 k = y.binary .cpi96 k := by
    intro e1 k
    obtain ⟨z, -, hz, -, -, h⟩ := C63_cpi u x hu
    obtain ⟨z', -, hz', -, -, h'⟩ := C63_cpi v y hu'
    rw [e1, hz'] at hz
    injection hz with hz
    rw [← (h .cpi96 k).2, ← (h' .cpi96 k).2, hz]
  obtain ⟨z, hz, rest, _, H⟩ := CPI.any_cpi96 hu ht
  obtain ⟨z', hz', rest', _, H'⟩ := CPI.any_cpi96 hu' ht'
  have uri : z = z' → asciiDigits u = asciiDigits v := by
    intro e
    rw [← (C11_cpi _ _ hz).1, ← (C11_cpi _ _ hz').1, e]
  obtain ⟨i1, i2, i3⟩ := H.inj H' (by decide) (fun _ => Bits_bin _ _) rfl (by decide) (w := 3) (fun f => length_bin (by omega) (by omega)) (fun f g e => Fin.ext (bin_inj e)) f g
  refine ⟨⟨fun e => ⟨uri (i1 e).1, (i1 e).2⟩, ?_⟩, ⟨fun e => ⟨uri (i2 e).1, (i2 e).2⟩, ?_⟩,
    ⟨fun e => ⟨uri (i3 e).1, (i3 e).2⟩, ?_⟩⟩
  · rintro ⟨e1, e2⟩; rw [e2]; exact back e1 g
  · rintro ⟨e1, e2⟩; rw [e2]; exact congrArg hexOf (back e1 g)
  · rintro ⟨e1, e2⟩; rw [e2]; exact congrArg base64Of (back e1 g)

example : Ascii (py "urn:epc:id:cpi:9521141.98765.12345") ∧ asciiDigits (py "urn:epc:id:cpi:9٥٢١١٤١.98765.12345") = py "urn:epc:id:cpi:9521141.98765.12345" ∧
    ((do let x ← CPI.new (py "urn:epc:id:cpi:9٥٢١١٤١.98765.12345"); x.tagUri .cpi96 3) : Except Err Str).isOk = true := by decide +kernel

/-- CPI-var: the round trips. -/
theorem C68_cpi_var (u : Str) (x : CPI) (f : Fin 8) (hu : CPI.new u = .ok x) :
    ∃ y b h s, CPI.new (asciiDigits u) = .ok y ∧ x.binary .cpiVar f = .ok b ∧ x.hex .cpiVar f = .ok h ∧ x.base64 .cpiVar f = .ok s ∧
      (∀ tail, CPI.fromBinary (b ++ tail) = .ok y) ∧ CPI.fromHex h = .ok y ∧ CPI.fromBase64 s = .ok y := by
  obtain ⟨y, hy, rest, _, H⟩ := CPI.any_cpiVar hu
  obtain ⟨b, h, s, e⟩ := H.forms (by decide) (fun _ => Bits_bin _ _) rfl (by decide) f
  exact ⟨y, b, h, s, hy, e⟩

/-- CPI-var: what has equal encodings. -/
theorem C68_cpi_var_inj (u : Str) (x : CPI) (f : Fin 8) (hu : CPI.new u = .ok x)
    (v : Str) (y : CPI) (g : Fin 8) (hu' : CPI.new v = .ok y) :
    (x.binary .cpiVar f = y.binary .cpiVar g ↔ asciiDigits u = asciiDigits v ∧ f = g) ∧ (x.hex .cpiVar f = y.hex .cpiVar g ↔ asciiDigits u = asciiDigits v ∧ f = g) ∧
      (x.base64 .cpiVar f = y.base64 .cpiVar g ↔ asciiDigits u = asciiDigits v ∧ f = g) := by
  have back : asciiDigits u = asciiDigits v → ∀ k, x.binary .cpiVar k = y.binary .cpiVar k := by
    intro e1 k
    obtain ⟨z, -, hz, -, -, h⟩ := C63_cpi u x hu
    obtain ⟨z', -, hz', -, -, h'⟩ := C63_cpi v y hu'
    rw [e1, hz'] at hz
    injection hz with hz
    rw [← (h .cpiVar k).2, ← (h' .cpiVar k).2, hz]
  obtain ⟨z, hz, rest, _, H⟩ := CPI.any_cpiVar hu
  obtain ⟨z', hz', rest', _, H'⟩ := CPI.any_cpiVar hu'
  have uri : z = z' → asciiDigits u = asciiDigits v := by
    intro e
    rw [← (C11_cpi _ _ hz).1, ← (C11_cpi _ _ hz').1, e]
  obtain ⟨i1, i2, i3⟩ := H.inj H' (by decide) (fun _ => Bits_bin _ _) rfl (by decide) (w := 3) (fun f => length_bin (by omega) (by omega)) (fun f g e => Fin.ext (bin_inj e)) f g
  refine ⟨⟨fun e => ⟨uri (i1 e).1, (i1 e).2⟩, ?_⟩, ⟨fun e => ⟨uri (i2 e).1, (i2 e).2⟩, ?_⟩,
    ⟨fun e => ⟨uri (i3 e).1, (i3 e).2⟩, ?_⟩⟩
  · rintro ⟨e1, e2⟩; rw [e2]; exact back e1 g
  · rintro ⟨e1, e2⟩; rw [e2]; exact congrArg hexOf (back e1 g)
  · rintro ⟨e1, e2⟩; rw [e2]; exact congrArg base64Of (back e1 g)

example : Ascii (py "urn:epc:id:cpi:9521141.5PQ7%2FZ43.12345") ∧ asciiDigits (py "urn:epc:id:cpi:9٥٢١١٤١.5PQ7%2FZ43.12345") = py "urn:epc:id:cpi:9521141.5PQ7%2FZ43.12345" ∧
    ((do let x ← CPI.new (py "urn:epc:id:cpi:9٥٢١١٤١.5PQ7%2FZ43.12345"); x.tagUri .cpiVar 3) : Except Err Str).isOk = true := by decide +kernel

/-- SGCN-96: the round trips. -/
theorem C68_sgcn96 (u : Str) (x : SGCN) (f : Fin 8) (hu : SGCN.new u = .ok x) :
    ∃ y b h s, SGCN.new (asciiDigits u) = .ok y ∧ x.binary .sgcn96 f = .ok b ∧ x.hex .sgcn96 f = .ok h ∧ x.base64 .sgcn96 f = .ok s ∧
      (∀ tail, SGCN.fromBinary (b ++ tail) = .ok y) ∧ SGCN.fromHex h = .ok y ∧ SGCN.fromBase64 s = .ok y := by
  obtain ⟨y, hy, rest, _, H⟩ := SGCN.any_sgcn96 hu
  obtain ⟨b, h, s, e⟩ := H.forms (by decide) (fun _ => Bits_bin _ _) rfl (by decide) f
  exact ⟨y, b, h, s, hy, e⟩

/-- SGCN-96: what has equal encodings. -/
theorem C68_sgcn96_inj (u : Str) (x : SGCN) (f : Fin 8) (hu : SGCN.new u = .ok x)
    (v : Str) (y : SGCN) (g : Fin 8) (hu' : SGCN.new v = .ok y) :
    (x.binary .sgcn96 f = y.binary .sgcn96 g ↔ asciiDigits u = asciiDigits v ∧ f = g) ∧ (x.hex .sgcn96 f = y.hex .sgcn96 g ↔ asciiDigits u = asciiDigits v ∧ f = g) ∧
      (x.base64 .sgcn96 f = y.base64 .sgcn96 g ↔ asciiDigits u = asciiDigits v ∧ f = g) := by
  have back : asciiDigits u = asciiDigits v → ∀ k, x.binary .sgcn96 k = y.binary .sgcn96 k := by
    intro e1 k
    obtain ⟨z, -, hz, -, -, -, h⟩ := C63_sgcn u x hu
    obtain ⟨z', -, hz', -, -, -, h'⟩ := C63_sgcn v y hu'
    rw [e1, hz'] at hz
    injection hz with hz
    rw [← (h .sgcn96 k).2, ← (h' .sgcn96 k).2, hz]
  obtain ⟨z, hz, rest, _, H⟩ := SGCN.any_sgcn96 hu
  obtain ⟨z', hz', rest', _, H'⟩ := SGCN.any_sgcn96 hu'
  have uri : z = z' → asciiDigits u = asciiDigits v := by
    intro e
    rw [← (C11_sgcn _ _ hz).1, ← (C11_sgcn _ _ hz').1, e]
  obtain ⟨i1, i2, i3⟩ := H.inj H' (by decide) (fun _ => Bits_bin _ _) rfl (by decide) (w := 3) (fun f => length_bin (by omega) (by omega)) (fun f g e => Fin.ext (bin_inj e)) f g
  refine ⟨⟨fun e => ⟨uri (i1 e).1, (i1 e).2⟩, ?_⟩, ⟨fun e => ⟨uri (i2 e).1, (i2 e).2⟩, ?_⟩,
    ⟨fun e => ⟨uri (i3 e).1, (i3 e).2⟩, ?_⟩⟩
  · rintro ⟨e1, e2⟩; rw [e2]; exact back e1 g
  · rintro ⟨e1, e2⟩; rw [e2]; exact congrArg hexOf (back e1 g)
  · rintro ⟨e1, e2⟩; rw [e2]; exact congrArg base64Of (back e1 g)

example : Ascii (py "urn:epc:id:sgcn:9521141.67890.04711") ∧ asciiDigits (py "urn:epc:id:sgcn:9٥٢١١٤١.67890.04711") = py "urn:epc:id:sgcn:9521141.67890.04711" ∧
    ((do let x ← SGCN.new (py "urn:epc:id:sgcn:9٥٢١١٤١.67890.04711"); x.tagUri .sgcn96 3) : Except Err Str).isOk = true := by decide +kernel

/-- ITIP-110: the round trips. -/
theorem C68_itip110 (u t : Str) (x : ITIP) (f : Fin 8) (hu : ITIP.new u = .ok x)
    (hp : x.piece.length = 2 ∧ unumber x.piece < 99) (hq : x.total.length = 2 ∧ unumber x.total < 99) (ht : x.tagUri .itip110 f = .ok t) :
    ∃ y b h s, ITIP.new (asciiDigits u) = .ok y ∧ x.binary .itip110 f = .ok b ∧ x.hex .itip110 f = .ok h ∧ x.base64 .itip110 f = .ok s ∧
      (∀ tail, ITIP.fromBinary (b ++ tail) = .ok y) ∧ ITIP.fromHex h = .ok y ∧ ITIP.fromBase64 s = .ok y := by
  obtain ⟨y, hy, rest, _, H⟩ := ITIP.any_itip110 hu hp hq ht
  obtain ⟨b, h, s, e⟩ := H.forms (by decide) (fun _ => Bits_bin _ _) rfl (by decide) f
  exact ⟨y, b, h, s, hy, e⟩

/-- ITIP-110: what has equal encodings. -/
theorem C68_itip110_inj (u t : Str) (x : ITIP) (f : Fin 8) (hu : ITIP.new u = .ok x)
    (hp : x.piece.length = 2 ∧ unumber x.piece < 99) (hq : x.total.length = 2 ∧ unumber x.total < 99) (ht : x.tagUri .itip110 f = .ok t)
    (v t' : Str) (y : ITIP) (g : Fin 8) (hu' : ITIP.new v = .ok y)
    (hp' : y.piece.length = 2 ∧ unumber y.piece < 99) (hq' : y.total.length = 2 ∧ unumber y.total < 99) (ht' : y.tagUri .itip110 g = .ok t') :
    (x.binary .itip110 f = y.binary .itip110 g ↔ asciiDigits u = asciiDigits v ∧ f = g) ∧ (x.hex .itip110 f = y.hex .itip110 g ↔ asciiDigits u = asciiDigits v ∧ f = g) ∧
      (x.base64 .itip110 f = y.base64 .itip110 g ↔ asciiDigits u = asciiDigits v ∧ f = g) := by
  have back : asciiDigits u = asciiDigits v → ∀ k, x.binary .itip110 k = y.binary .itip110 k := by
    intro e1 k
    obtain ⟨z, -, hz, -, -, h⟩ := C63_itip u x hu
    obtain ⟨z', -, hz', -, -, h'⟩ := C63_itip v y hu'
    rw [e1, hz'] at hz
    injection hz with hz
    rw [← (h .itip110 k).2, ← (h' .itip110 k).2, hz]
  obtain ⟨z, hz, rest, _, H⟩ := ITIP.any_itip110 hu hp hq ht
  obtain ⟨z', hz', rest', _, H'⟩ := ITIP.any_itip110 hu' hp' hq' ht'
  have uri : z = z' → asciiDigits u = asciiDigits v := by
    intro e
    rw [← (C11_itip _ _ hz).1, ← (C11_itip _ _ hz').1, e]
  obtain ⟨i1, i2, i3⟩ := H.inj H' (by decide) (fun _ => Bits_bin _ _) rfl (by decide) (w := 3) (fun f => length_bin (by omega) (by omega)) (fun f g e => Fin.ext (bin_inj e)) f g
  refine ⟨⟨fun e => ⟨uri (i1 e).1, (i1 e).2⟩, ?_⟩, ⟨fun e => ⟨uri (i2 e).1, (i2 e).2⟩, ?_⟩,
    ⟨fun e => ⟨uri (i3 e).1, (i3 e).2⟩, ?_⟩⟩
  · rintro ⟨e1, e2⟩; rw [e2]; exact back e1 g
  · rintro ⟨e1, e2⟩; rw [e2]; exact congrArg hexOf (back e1 g)
  · rintro ⟨e1, e2⟩; rw [e2]; exact congrArg base64Of (back e1 g)

example : Ascii (py "urn:epc:id:itip:9521141.012345.02.04.981") ∧ asciiDigits (py "urn:epc:id:itip:9٥٢١١٤١.012345.02.04.981") = py "urn:epc:id:itip:9521141.012345.02.04.981" ∧
    ((do let x ← ITIP.new (py "urn:epc:id:itip:9٥٢١١٤١.012345.02.04.981"); x.tagUri .itip110 3) : Except Err Str).isOk = true := by decide +kernel

/-- ITIP-212: the round trips. -/
theorem C68_itip212 (u : Str) (x : ITIP) (f : Fin 8) (hu : ITIP.new u = .ok x)
    (hp : x.piece.length = 2 ∧ unumber x.piece < 99) (hq : x.total.length = 2 ∧ unumber x.total < 99) (hs : Canonical x.serial) :
    ∃ y b h s, ITIP.new (asciiDigits u) = .ok y ∧ x.binary .itip212 f = .ok b ∧ x.hex .itip212 f = .ok h ∧ x.base64 .itip212 f = .ok s ∧
      (∀ tail, ITIP.fromBinary (b ++ tail) = .ok y) ∧ ITIP.fromHex h = .ok y ∧ ITIP.fromBase64 s = .ok y := by
  obtain ⟨y, hy, rest, _, H⟩ := ITIP.any_itip212 hu hp hq hs
  obtain ⟨b, h, s, e⟩ := H.forms (by decide) (fun _ => Bits_bin _ _) rfl (by decide) f
  exact ⟨y, b, h, s, hy, e⟩

/-- ITIP-212: what has equal encodings. -/
theorem C68_itip212_inj (u : Str) (x : ITIP) (f : Fin 8) (hu : ITIP.new u = .ok x)
    (hp : x.piece.length = 2 ∧ unumber x.piece < 99) (hq : x.total.length = 2 ∧ unumber x.total < 99) (hs : Canonical x.serial)
    (v : Str) (y : ITIP) (g : Fin 8) (hu' : ITIP.new v = .ok y)
    (hp' : y.piece.length = 2 ∧ unumber y.piece < 99) (hq' : y.total.length = 2 ∧ unumber y.total < 99) (hs' : Canonical y.serial) :
    (x.binary .itip212 f = y.binary .itip212 g ↔ asciiDigits u = asciiDigits v ∧ f = g) ∧ (x.hex .itip212 f = y.hex .itip212 g ↔ asciiDigits u = asciiDigits v ∧ f = g) ∧
      (x.base64 .itip212 f = y.base64 .itip212 g ↔ asciiDigits u = asciiDigits v ∧ f = g) := by
  have back : asciiDigits u = asciiDigits v → ∀ k, x.binary .itip212 k = y.binary .itip212 k := by
    intro e1 k
    obtain ⟨z, -, hz, -, -, h⟩ := C63_itip u x hu
    obtain ⟨z', -, hz', -, -, h'⟩ := C63_itip v y hu'
    rw [e1, hz'] at hz
    injection hz with hz
    rw [← (h .itip212 k).2, ← (h' .itip212 k).2, hz]
  obtain ⟨z, hz, rest, _, H⟩ := ITIP.any_itip212 hu hp hq hs
  obtain ⟨z', hz', rest', _, H'⟩ := ITIP.any_itip212 hu' hp' hq' hs'
  have uri : z = z' → asciiDigits u = asciiDigits v := by
    intro e
    rw [← (C11_itip _ _ hz).1, ← (C11_itip _ _ hz').1, e]
  obtain ⟨i1, i2, i3⟩ := H.inj H' (by decide) (fun _ => Bits_bin _ _) rfl (by decide) (w := 3) (fun f => length_bin (by omega) (by omega)) (fun f g e => Fin.ext (bin_inj e)) f g
  refine ⟨⟨fun e => ⟨uri (i1 e).1, (i1 e).2⟩, ?_⟩, ⟨fun e => ⟨uri (i2 e).1, (i2 e).2⟩, ?_⟩,
    ⟨fun e => ⟨uri (i3 e).1, (i3 e).2⟩, ?_⟩⟩
  · rintro ⟨e1, e2⟩; rw [e2]; exact back e1 g
  · rintro ⟨e1, e2⟩; rw [e2]; exact congrArg hexOf (back e1 g)
  · rintro ⟨e1, e2⟩; rw [e2]; exact congrArg base64Of (back e1 g)

example : Ascii (py "urn:epc:id:itip:9521141.012345.02.04.32a%2Fb") ∧ asciiDigits (py "urn:epc:id:itip:9٥٢١١٤١.012345.02.04.32a%2Fb") = py "urn:epc:id:itip:9521141.012345.02.04.32a%2Fb" ∧
    ((do let x ← ITIP.new (py "urn:epc:id:itip:9٥٢١١٤١.012345.02.04.32a%2Fb"); x.tagUri .itip212 3) : Except Err Str).isOk = true := by decide +kernel

/-- GID-96: the round trips. -/
theorem C68_gid96 (u : Str) (x : GID) (hu : GID.new u = .ok x) :
    ∃ y b h s, GID.new (asciiDigits u) = .ok y ∧ x.binary .gid96 = .ok b ∧ x.hex .gid96 = .ok h ∧ x.base64 .gid96 = .ok s ∧
      (∀ tail, GID.fromBinary (b ++ tail) = .ok y) ∧ GID.fromHex h = .ok y ∧ GID.fromBase64 s = .ok y := by
  obtain ⟨y, hy, rest, _, H⟩ := GID.any_gid96 hu
  obtain ⟨b, h, s, e⟩ := H.forms (by decide) (fun _ => by decide) rfl (by decide) 0
  exact ⟨y, b, h, s, hy, e⟩

/-- GID-96: what has equal encodings. -/
theorem C68_gid96_inj (u : Str) (x : GID) (hu : GID.new u = .ok x)
    (v : Str) (y : GID) (hu' : GID.new v = .ok y) :
    (x.binary .gid96 = y.binary .gid96 ↔ asciiDigits u = asciiDigits v) ∧ (x.hex .gid96 = y.hex .gid96 ↔ asciiDigits u = asciiDigits v) ∧
      (x.base64 .gid96 = y.base64 .gid96 ↔ asciiDigits u = asciiDigits v) := by
  have back : asciiDigits u = asciiDigits v → x.binary .gid96 = y.binary .gid96 := by
    intro e1
    obtain ⟨z, -, hz, -, h⟩ := C63_gid u x hu
    obtain ⟨z', -, hz', -, h'⟩ := C63_gid v y hu'
    rw [e1, hz'] at hz
    injection hz with hz
    rw [← (h .gid96).2, ← (h' .gid96).2, hz]
  obtain ⟨z, hz, rest, _, H⟩ := GID.any_gid96 hu
  obtain ⟨z', hz', rest', _, H'⟩ := GID.any_gid96 hu'
  have uri : z = z' → asciiDigits u = asciiDigits v := by
    intro e
    rw [← (C11_gid _ _ hz).1, ← (C11_gid _ _ hz').1, e]
  obtain ⟨i1, i2, i3⟩ := H.inj H' (by decide) (fun _ => by decide) rfl (by decide) (w := 0) (fun _ => rfl) (fun _ _ _ => Subsingleton.elim _ _) 0 0
  refine ⟨⟨fun e => uri (i1 e).1, back⟩, ⟨fun e => uri (i2 e).1, fun e => ?_⟩, ⟨fun e => uri (i3 e).1, fun e => ?_⟩⟩
  · exact congrArg hexOf (back e)
  · exact congrArg base64Of (back e)

example : Ascii (py "urn:epc:id:gid:952056.2718.1414") ∧ asciiDigits (py "urn:epc:id:gid:9٥٢٠٥٦.2718.1414") = py "urn:epc:id:gid:952056.2718.1414" ∧
    ((do let x ← GID.new (py "urn:epc:id:gid:9٥٢٠٥٦.2718.1414"); x.tagUri .gid96) : Except Err Str).isOk = true := by decide +kernel

/-- USDOD-96: the round trips. -/
theorem C68_usdod96 (u : Str) (x : USDOD) (f : Fin 16) (hu : USDOD.new u = .ok x) :
    ∃ y b h s, USDOD.new (asciiDigits u) = .ok y ∧ x.binary .usdod96 f = .ok b ∧ x.hex .usdod96 f = .ok h ∧ x.base64 .usdod96 f = .ok s ∧
      (∀ tail, USDOD.fromBinary (b ++ tail) = .ok y) ∧ USDOD.fromHex h = .ok y ∧ USDOD.fromBase64 s = .ok y := by
  obtain ⟨y, hy, rest, _, H⟩ := USDOD.any_usdod96 hu
  obtain ⟨b, h, s, e⟩ := H.forms (by decide) (fun _ => Bits_bin _ _) rfl (by decide) f
  exact ⟨y, b, h, s, hy, e⟩

/-- USDOD-96: what has equal encodings. -/
theorem C68_usdod96_inj (u : Str) (x : USDOD) (f : Fin 16) (hu : USDOD.new u = .ok x)
    (v : Str) (y : USDOD) (g : Fin 16) (hu' : USDOD.new v = .ok y) :
    (x.binary .usdod96 f = y.binary .usdod96 g ↔ asciiDigits u = asciiDigits v ∧ f = g) ∧ (x.hex .usdod96 f = y.hex .usdod96 g ↔ asciiDigits u = asciiDigits v ∧ f = g) ∧
      (x.base64 .usdod96 f = y.base64 .usdod96 g ↔ asciiDigits u = asciiDigits v ∧ f = g) := by
  have back : asciiDigits u = asciiDigits v → ∀ k, x.binary .usdod96 k = y.binary .usdod96 k := by
    intro e1 k
    obtain ⟨z, -, hz, -, h⟩ := C63_usdod u x hu
    obtain ⟨z', -, hz', -, h'⟩ := C63_usdod v y hu'
    rw [e1, hz'] at hz
    injection hz with hz
    rw [← (h .usdod96 k).2, ← (h' .usdod96 k).2, hz]
  obtain ⟨z, hz, rest, _, H⟩ := USDOD.any_usdod96 hu
  obtain ⟨z', hz', rest', _, H'⟩ := USDOD.any_usdod96 hu'
  have uri : z = z' → asciiDigits u = asciiDigits v := by
    intro e
    rw [← (C11_usdod _ _ hz).1, ← (C11_usdod _ _ hz').1, e]
  obtain ⟨i1, i2, i3⟩ := H.inj H' (by decide) (fun _ => Bits_bin _ _) rfl (by decide) (w := 4) (fun f => length_bin (by omega) (by omega)) (fun f g e => Fin.ext (bin_inj e)) f g
  refine ⟨⟨fun e => ⟨uri (i1 e).1, (i1 e).2⟩, ?_⟩, ⟨fun e => ⟨uri (i2 e).1, (i2 e).2⟩, ?_⟩,
    ⟨fun e => ⟨uri (i3 e).1, (i3 e).2⟩, ?_⟩⟩
  · rintro ⟨e1, e2⟩; rw [e2]; exact back e1 g
  · rintro ⟨e1, e2⟩; rw [e2]; exact congrArg hexOf (back e1 g)
  · rintro ⟨e1, e2⟩; rw [e2]; exact congrArg base64Of (back e1 g)

example : Ascii (py "urn:epc:id:usdod:CAGEY.5678") ∧ asciiDigits (py "urn:epc:id:usdod:CAGEY.5٦٧٨") = py "urn:epc:id:usdod:CAGEY.5678" ∧
    ((do let x ← USDOD.new (py "urn:epc:id:usdod:CAGEY.5٦٧٨"); x.tagUri .usdod96 3) : Except Err Str).isOk = true := by decide +kernel

end Epc
