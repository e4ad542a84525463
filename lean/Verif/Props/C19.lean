/-
C19: decoding ignores filter value and coding scheme, and the binaries for two filter values differ only in the filter field.

`C19_filter_*` and the same-scheme half hold for every object; two different schemes are compared when `tag_uri` returns for both.  For
ITIP piece and total must have two digits (the claim is false otherwise).
Generated by tools/gen_c19.py.
-/
import Verif.Lemmas.AvailAny
import Verif.Lemmas.Shape
import Verif.Lemmas.BinSplit
import Verif.Props.C16

namespace Epc
open Spec Re

/-- SGTIN: another filter value changes the filter field only. -/
theorem C19_filter_sgtin (x : SGTIN) (cs : SGTIN.Coding) (f g : Fin 8) (b : Str) (hb : x.binary cs f = .ok b) :
    ∃ b', x.binary cs g = .ok b' ∧ b'.length = b.length ∧ b'.take 8 = b.take 8 ∧ b'.drop 11 = b.drop 11 := by
  obtain ⟨s, rfl, h⟩ := SGTIN.binary_split hb
  have h8 : cs.header.length = 8 := by cases cs <;> rfl
  have hf : (bin 3 f).length = 3 := length_bin (by omega) (by omega)
  have hg : (bin 3 g).length = 3 := length_bin (by omega) (by omega)
  refine ⟨_, h g, by simp only [List.length_append]; omega, by rw [take_append_eq h8, take_append_eq h8], ?_⟩
  rw [drop_skip (k := 11) (by omega) (by omega), drop_skip (k := 11) (by omega) (by omega)]

example : ((do let x ← SGTIN.new (py "urn:epc:id:sgtin:9521141.012345.4711"); x.binary .sgtin96 3) : Except Err Str).isOk = true := by decide +kernel

/-- SGTIN: the object read back does not depend on filter value or coding scheme. -/
theorem C19_sgtin (u t t' b b' : Str) (x : SGTIN) (cs cs' : SGTIN.Coding) (f g : Fin 8) (hu : SGTIN.new u = .ok x)
    (ht : x.tagUri cs f = .ok t) (ht' : x.tagUri cs' g = .ok t') (hb : x.binary cs f = .ok b) (hb' : x.binary cs' g = .ok b') :
    SGTIN.fromTagUri t = SGTIN.fromTagUri t' ∧ ∀ y, SGTIN.fromBinary b = .ok y ↔ SGTIN.fromBinary b' = .ok y := by
  refine ⟨by rw [C16_sgtin u x cs f t hu ht, C16_sgtin u x cs' g t' hu ht'], ?_⟩
  have same : ∀ {cs : SGTIN.Coding} {f g : Fin 8} {b b' : Str}, x.binary cs f = .ok b → x.binary cs g = .ok b' →
      ∀ y, SGTIN.fromBinary b = .ok y ↔ SGTIN.fromBinary b' = .ok y := by
    intro cs f g b b' hb hb' y
    obtain ⟨s, rfl, h⟩ := SGTIN.binary_split hb
    rw [h g] at hb'
    injection hb' with hb'
    subst hb'
    exact ⟨SGTIN.fromBinary_swap, SGTIN.fromBinary_swap⟩
  have diff : ∀ {f g : Fin 8} {b b' t : Str}, x.tagUri .sgtin96 f = .ok t → x.binary .sgtin96 f = .ok b → x.binary .sgtin198 g = .ok b' →
      ∀ y, SGTIN.fromBinary b = .ok y ↔ SGTIN.fromBinary b' = .ok y := by
    intro f g b b' t ht hb hb'
    obtain ⟨z, hz, r1, _, H1⟩ := SGTIN.any_sgtin96 hu ht
    obtain ⟨z', hz', r2, _, H2⟩ := SGTIN.any_sgtin198 hu (numeral_canonical (SGTIN.serial_of_tagUri hu ht).1)
    rw [hz] at hz'
    injection hz' with hz'
    subst hz'
    have e1 := H1.roundtrip f
    have e2 := H2.roundtrip g
    rw [hb] at e1
    rw [hb'] at e2
    have e1 : SGTIN.fromBinary b = _ := e1
    have e2 : SGTIN.fromBinary b' = _ := e2
    intro y
    rw [e1, e2]
  cases cs <;> cases cs'
  · exact same hb hb'
  · exact diff ht hb hb'
  · exact fun y => (diff ht' hb' hb y).symm
  · exact same hb hb'

example : ((do let x ← SGTIN.new (py "urn:epc:id:sgtin:9521141.012345.4711"); let _ ← x.tagUri .sgtin96 3; let _ ← x.tagUri .sgtin198 5; let _ ← x.binary .sgtin96 3; x.binary .sgtin198 5) : Except Err Str).isOk = true := by decide +kernel

/-- SSCC: another filter value changes the filter field only. -/
theorem C19_filter_sscc (x : SSCC) (cs : SSCC.Coding) (f g : Fin 8) (b : Str) (hb : x.binary cs f = .ok b) :
    ∃ b', x.binary cs g = .ok b' ∧ b'.length = b.length ∧ b'.take 8 = b.take 8 ∧ b'.drop 11 = b.drop 11 := by
  obtain ⟨s, rfl, h⟩ := SSCC.binary_split hb
  have h8 : cs.header.length = 8 := by cases cs <;> rfl
  have hf : (bin 3 f).length = 3 := length_bin (by omega) (by omega)
  have hg : (bin 3 g).length = 3 := length_bin (by omega) (by omega)
  refine ⟨_, h g, by simp only [List.length_append]; omega, by rw [take_append_eq h8, take_append_eq h8], ?_⟩
  rw [drop_skip (k := 11) (by omega) (by omega), drop_skip (k := 11) (by omega) (by omega)]

example : ((do let x ← SSCC.new (py "urn:epc:id:sscc:9521141.1234567890"); x.binary .sscc96 3) : Except Err Str).isOk = true := by decide +kernel

/-- SSCC: the object read back does not depend on filter value or coding scheme. -/
theorem C19_sscc (u t t' b b' : Str) (x : SSCC) (cs cs' : SSCC.Coding) (f g : Fin 8) (hu : SSCC.new u = .ok x)
    (ht : x.tagUri cs f = .ok t) (ht' : x.tagUri cs' g = .ok t') (hb : x.binary cs f = .ok b) (hb' : x.binary cs' g = .ok b') :
    SSCC.fromTagUri t = SSCC.fromTagUri t' ∧ ∀ y, SSCC.fromBinary b = .ok y ↔ SSCC.fromBinary b' = .ok y := by
  refine ⟨by rw [C16_sscc u x cs f t hu ht, C16_sscc u x cs' g t' hu ht'], ?_⟩
  have same : ∀ {cs : SSCC.Coding} {f g : Fin 8} {b b' : Str}, x.binary cs f = .ok b → x.binary cs g = .ok b' →
      ∀ y, SSCC.fromBinary b = .ok y ↔ SSCC.fromBinary b' = .ok y := by
    intro cs f g b b' hb hb' y
    obtain ⟨s, rfl, h⟩ := SSCC.binary_split hb
    rw [h g] at hb'
    injection hb' with hb'
    subst hb'
    exact ⟨SSCC.fromBinary_swap, SSCC.fromBinary_swap⟩
  cases cs; cases cs'
  exact same hb hb'

example : ((do let x ← SSCC.new (py "urn:epc:id:sscc:9521141.1234567890"); let _ ← x.tagUri .sscc96 3; let _ ← x.tagUri .sscc96 5; let _ ← x.binary .sscc96 3; x.binary .sscc96 5) : Except Err Str).isOk = true := by decide +kernel

/-- SGLN: another filter value changes the filter field only. -/
theorem C19_filter_sgln (x : SGLN) (cs : SGLN.Coding) (f g : Fin 8) (b : Str) (hb : x.binary cs f = .ok b) :
    ∃ b', x.binary cs g = .ok b' ∧ b'.length = b.length ∧ b'.take 8 = b.take 8 ∧ b'.drop 11 = b.drop 11 := by
  obtain ⟨s, rfl, h⟩ := SGLN.binary_split hb
  have h8 : cs.header.length = 8 := by cases cs <;> rfl
  have hf : (bin 3 f).length = 3 := length_bin (by omega) (by omega)
  have hg : (bin 3 g).length = 3 := length_bin (by omega) (by omega)
  refine ⟨_, h g, by simp only [List.length_append]; omega, by rw [take_append_eq h8, take_append_eq h8], ?_⟩
  rw [drop_skip (k := 11) (by omega) (by omega), drop_skip (k := 11) (by omega) (by omega)]

example : ((do let x ← SGLN.new (py "urn:epc:id:sgln:9521141.12345.4711"); x.binary .sgln96 3) : Except Err Str).isOk = true := by decide +kernel

/-- SGLN: the object read back does not depend on filter value or coding scheme. -/
theorem C19_sgln (u t t' b b' : Str) (x : SGLN) (cs cs' : SGLN.Coding) (f g : Fin 8) (hu : SGLN.new u = .ok x)
    (ht : x.tagUri cs f = .ok t) (ht' : x.tagUri cs' g = .ok t') (hb : x.binary cs f = .ok b) (hb' : x.binary cs' g = .ok b') :
    SGLN.fromTagUri t = SGLN.fromTagUri t' ∧ ∀ y, SGLN.fromBinary b = .ok y ↔ SGLN.fromBinary b' = .ok y := by
  refine ⟨by rw [C16_sgln u x cs f t hu ht, C16_sgln u x cs' g t' hu ht'], ?_⟩
  have same : ∀ {cs : SGLN.Coding} {f g : Fin 8} {b b' : Str}, x.binary cs f = .ok b → x.binary cs g = .ok b' →
      ∀ y, SGLN.fromBinary b = .ok y ↔ SGLN.fromBinary b' = .ok y := by
    intro cs f g b b' hb hb' y
    obtain ⟨s, rfl, h⟩ := SGLN.binary_split hb
    rw [h g] at hb'
    injection hb' with hb'
    subst hb'
    exact ⟨SGLN.fromBinary_swap, SGLN.fromBinary_swap⟩
  have diff : ∀ {f g : Fin 8} {b b' t : Str}, x.tagUri .sgln96 f = .ok t → x.binary .sgln96 f = .ok b → x.binary .sgln195 g = .ok b' →
      ∀ y, SGLN.fromBinary b = .ok y ↔ SGLN.fromBinary b' = .ok y := by
    intro f g b b' t ht hb hb'
    obtain ⟨z, hz, r1, _, H1⟩ := SGLN.any_sgln96 hu ht
    obtain ⟨z', hz', r2, _, H2⟩ := SGLN.any_sgln195 hu (numeral_canonical (SGLN.serial_of_tagUri hu ht).1)
    rw [hz] at hz'
    injection hz' with hz'
    subst hz'
    have e1 := H1.roundtrip f
    have e2 := H2.roundtrip g
    rw [hb] at e1
    rw [hb'] at e2
    have e1 : SGLN.fromBinary b = _ := e1
    have e2 : SGLN.fromBinary b' = _ := e2
    intro y
    rw [e1, e2]
  cases cs <;> cases cs'
  · exact same hb hb'
  · exact diff ht hb hb'
  · exact fun y => (diff ht' hb' hb y).symm
  · exact same hb hb'

example : ((do let x ← SGLN.new (py "urn:epc:id:sgln:9521141.12345.4711"); let _ ← x.tagUri .sgln96 3; let _ ← x.tagUri .sgln195 5; let _ ← x.binary .sgln96 3; x.binary .sgln195 5) : Except Err Str).isOk = true := by decide +kernel

/-- GRAI: another filter value changes the filter field only. -/
theorem C19_filter_grai (x : GRAI) (cs : GRAI.Coding) (f g : Fin 8) (b : Str) (hb : x.binary cs f = .ok b) :
    ∃ b', x.binary cs g = .ok b' ∧ b'.length = b.length ∧ b'.take 8 = b.take 8 ∧ b'.drop 11 = b.drop 11 := by
  obtain ⟨s, rfl, h⟩ := GRAI.binary_split hb
  have h8 : cs.header.length = 8 := by cases cs <;> rfl
  have hf : (bin 3 f).length = 3 := length_bin (by omega) (by omega)
  have hg : (bin 3 g).length = 3 := length_bin (by omega) (by omega)
  refine ⟨_, h g, by simp only [List.length_append]; omega, by rw [take_append_eq h8, take_append_eq h8], ?_⟩
  rw [drop_skip (k := 11) (by omega) (by omega), drop_skip (k := 11) (by omega) (by omega)]

example : ((do let x ← GRAI.new (py "urn:epc:id:grai:9521141.12345.4711"); x.binary .grai96 3) : Except Err Str).isOk = true := by decide +kernel

/-- GRAI: the object read back does not depend on filter value or coding scheme. -/
theorem C19_grai (u t t' b b' : Str) (x : GRAI) (cs cs' : GRAI.Coding) (f g : Fin 8) (hu : GRAI.new u = .ok x)
    (ht : x.tagUri cs f = .ok t) (ht' : x.tagUri cs' g = .ok t') (hb : x.binary cs f = .ok b) (hb' : x.binary cs' g = .ok b') :
    GRAI.fromTagUri t = GRAI.fromTagUri t' ∧ ∀ y, GRAI.fromBinary b = .ok y ↔ GRAI.fromBinary b' = .ok y := by
  refine ⟨by rw [C16_grai u x cs f t hu ht, C16_grai u x cs' g t' hu ht'], ?_⟩
  have same : ∀ {cs : GRAI.Coding} {f g : Fin 8} {b b' : Str}, x.binary cs f = .ok b → x.binary cs g = .ok b' →
      ∀ y, GRAI.fromBinary b = .ok y ↔ GRAI.fromBinary b' = .ok y := by
    intro cs f g b b' hb hb' y
    obtain ⟨s, rfl, h⟩ := GRAI.binary_split hb
    rw [h g] at hb'
    injection hb' with hb'
    subst hb'
    exact ⟨GRAI.fromBinary_swap, GRAI.fromBinary_swap⟩
  have diff : ∀ {f g : Fin 8} {b b' t : Str}, x.tagUri .grai96 f = .ok t → x.binary .grai96 f = .ok b → x.binary .grai170 g = .ok b' →
      ∀ y, GRAI.fromBinary b = .ok y ↔ GRAI.fromBinary b' = .ok y := by
    intro f g b b' t ht hb hb'
    obtain ⟨z, hz, r1, _, H1⟩ := GRAI.any_grai96 hu ht
    obtain ⟨z', hz', r2, _, H2⟩ := GRAI.any_grai170 hu (numeral_canonical (GRAI.serial_of_tagUri hu ht).1)
    rw [hz] at hz'
    injection hz' with hz'
    subst hz'
    have e1 := H1.roundtrip f
    have e2 := H2.roundtrip g
    rw [hb] at e1
    rw [hb'] at e2
    have e1 : GRAI.fromBinary b = _ := e1
    have e2 : GRAI.fromBinary b' = _ := e2
    intro y
    rw [e1, e2]
  cases cs <;> cases cs'
  · exact same hb hb'
  · exact diff ht hb hb'
  · exact fun y => (diff ht' hb' hb y).symm
  · exact same hb hb'

example : ((do let x ← GRAI.new (py "urn:epc:id:grai:9521141.12345.4711"); let _ ← x.tagUri .grai96 3; let _ ← x.tagUri .grai170 5; let _ ← x.binary .grai96 3; x.binary .grai170 5) : Except Err Str).isOk = true := by decide +kernel

/-- GIAI: another filter value changes the filter field only. -/
theorem C19_filter_giai (x : GIAI) (cs : GIAI.Coding) (f g : Fin 8) (b : Str) (hb : x.binary cs f = .ok b) :
    ∃ b', x.binary cs g = .ok b' ∧ b'.length = b.length ∧ b'.take 8 = b.take 8 ∧ b'.drop 11 = b.drop 11 := by
  obtain ⟨s, rfl, h⟩ := GIAI.binary_split hb
  have h8 : cs.header.length = 8 := by cases cs <;> rfl
  have hf : (bin 3 f).length = 3 := length_bin (by omega) (by omega)
  have hg : (bin 3 g).length = 3 := length_bin (by omega) (by omega)
  refine ⟨_, h g, by simp only [List.length_append]; omega, by rw [take_append_eq h8, take_append_eq h8], ?_⟩
  rw [drop_skip (k := 11) (by omega) (by omega), drop_skip (k := 11) (by omega) (by omega)]

example : ((do let x ← GIAI.new (py "urn:epc:id:giai:9521141.4711"); x.binary .giai96 3) : Except Err Str).isOk = true := by decide +kernel

/-- GIAI: the object read back does not depend on filter value or coding scheme. -/
theorem C19_giai (u t t' b b' : Str) (x : GIAI) (cs cs' : GIAI.Coding) (f g : Fin 8) (hu : GIAI.new u = .ok x)
    (ht : x.tagUri cs f = .ok t) (ht' : x.tagUri cs' g = .ok t') (hb : x.binary cs f = .ok b) (hb' : x.binary cs' g = .ok b') :
    GIAI.fromTagUri t = GIAI.fromTagUri t' ∧ ∀ y, GIAI.fromBinary b = .ok y ↔ GIAI.fromBinary b' = .ok y := by
  refine ⟨by rw [GIAI.tagUri_decodes hu ht, GIAI.tagUri_decodes hu ht'], ?_⟩
  have same : ∀ {cs : GIAI.Coding} {f g : Fin 8} {b b' : Str}, x.binary cs f = .ok b → x.binary cs g = .ok b' →
      ∀ y, GIAI.fromBinary b = .ok y ↔ GIAI.fromBinary b' = .ok y := by
    intro cs f g b b' hb hb' y
    obtain ⟨s, rfl, h⟩ := GIAI.binary_split hb
    rw [h g] at hb'
    injection hb' with hb'
    subst hb'
    exact ⟨GIAI.fromBinary_swap, GIAI.fromBinary_swap⟩
  have diff : ∀ {f g : Fin 8} {b b' t : Str}, x.tagUri .giai96 f = .ok t → x.binary .giai96 f = .ok b → x.binary .giai202 g = .ok b' →
      ∀ y, GIAI.fromBinary b = .ok y ↔ GIAI.fromBinary b' = .ok y := by
    intro f g b b' t ht hb hb'
    obtain ⟨z, hz, r1, _, H1⟩ := GIAI.any_giai96 hu ht
    obtain ⟨z', hz', r2, _, H2⟩ := GIAI.any_giai202 hu (numeral_canonical (GIAI.serial_of_tagUri hu ht).1)
    rw [hz] at hz'
    injection hz' with hz'
    subst hz'
    have e1 := H1.roundtrip f
    have e2 := H2.roundtrip g
    rw [hb] at e1
    rw [hb'] at e2
    have e1 : GIAI.fromBinary b = _ := e1
    have e2 : GIAI.fromBinary b' = _ := e2
    intro y
    rw [e1, e2]
  cases cs <;> cases cs'
  · exact same hb hb'
  · exact diff ht hb hb'
  · exact fun y => (diff ht' hb' hb y).symm
  · exact same hb hb'

example : ((do let x ← GIAI.new (py "urn:epc:id:giai:9521141.4711"); let _ ← x.tagUri .giai96 3; let _ ← x.tagUri .giai202 5; let _ ← x.binary .giai96 3; x.binary .giai202 5) : Except Err Str).isOk = true := by decide +kernel

/-- GSRN: another filter value changes the filter field only. -/
theorem C19_filter_gsrn (x : GSRN) (cs : GSRN.Coding) (f g : Fin 8) (b : Str) (hb : x.binary cs f = .ok b) :
    ∃ b', x.binary cs g = .ok b' ∧ b'.length = b.length ∧ b'.take 8 = b.take 8 ∧ b'.drop 11 = b.drop 11 := by
  obtain ⟨s, rfl, h⟩ := GSRN.binary_split hb
  have h8 : cs.header.length = 8 := by cases cs <;> rfl
  have hf : (bin 3 f).length = 3 := length_bin (by omega) (by omega)
  have hg : (bin 3 g).length = 3 := length_bin (by omega) (by omega)
  refine ⟨_, h g, by simp only [List.length_append]; omega, by rw [take_append_eq h8, take_append_eq h8], ?_⟩
  rw [drop_skip (k := 11) (by omega) (by omega), drop_skip (k := 11) (by omega) (by omega)]

example : ((do let x ← GSRN.new (py "urn:epc:id:gsrn:9521141.1234567890"); x.binary .gsrn96 3) : Except Err Str).isOk = true := by decide +kernel

/-- GSRN: the object read back does not depend on filter value or coding scheme. -/
theorem C19_gsrn (u t t' b b' : Str) (x : GSRN) (cs cs' : GSRN.Coding) (f g : Fin 8) (hu : GSRN.new u = .ok x)
    (ht : x.tagUri cs f = .ok t) (ht' : x.tagUri cs' g = .ok t') (hb : x.binary cs f = .ok b) (hb' : x.binary cs' g = .ok b') :
    GSRN.fromTagUri t = GSRN.fromTagUri t' ∧ ∀ y, GSRN.fromBinary b = .ok y ↔ GSRN.fromBinary b' = .ok y := by
  refine ⟨by rw [C16_gsrn u x cs f t hu ht, C16_gsrn u x cs' g t' hu ht'], ?_⟩
  have same : ∀ {cs : GSRN.Coding} {f g : Fin 8} {b b' : Str}, x.binary cs f = .ok b → x.binary cs g = .ok b' →
      ∀ y, GSRN.fromBinary b = .ok y ↔ GSRN.fromBinary b' = .ok y := by
    intro cs f g b b' hb hb' y
    obtain ⟨s, rfl, h⟩ := GSRN.binary_split hb
    rw [h g] at hb'
    injection hb' with hb'
    subst hb'
    exact ⟨GSRN.fromBinary_swap, GSRN.fromBinary_swap⟩
  cases cs; cases cs'
  exact same hb hb'

example : ((do let x ← GSRN.new (py "urn:epc:id:gsrn:9521141.1234567890"); let _ ← x.tagUri .gsrn96 3; let _ ← x.tagUri .gsrn96 5; let _ ← x.binary .gsrn96 3; x.binary .gsrn96 5) : Except Err Str).isOk = true := by decide +kernel

/-- GSRNP: another filter value changes the filter field only. -/
theorem C19_filter_gsrnp (x : GSRNP) (cs : GSRNP.Coding) (f g : Fin 8) (b : Str) (hb : x.binary cs f = .ok b) :
    ∃ b', x.binary cs g = .ok b' ∧ b'.length = b.length ∧ b'.take 8 = b.take 8 ∧ b'.drop 11 = b.drop 11 := by
  obtain ⟨s, rfl, h⟩ := GSRNP.binary_split hb
  have h8 : cs.header.length = 8 := by cases cs <;> rfl
  have hf : (bin 3 f).length = 3 := length_bin (by omega) (by omega)
  have hg : (bin 3 g).length = 3 := length_bin (by omega) (by omega)
  refine ⟨_, h g, by simp only [List.length_append]; omega, by rw [take_append_eq h8, take_append_eq h8], ?_⟩
  rw [drop_skip (k := 11) (by omega) (by omega), drop_skip (k := 11) (by omega) (by omega)]

example : ((do let x ← GSRNP.new (py "urn:epc:id:gsrnp:9521141.1234567890"); x.binary .gsrnp96 3) : Except Err Str).isOk = true := by decide +kernel

/-- GSRNP: the object read back does not depend on filter value or coding scheme. -/
theorem C19_gsrnp (u t t' b b' : Str) (x : GSRNP) (cs cs' : GSRNP.Coding) (f g : Fin 8) (hu : GSRNP.new u = .ok x)
    (ht : x.tagUri cs f = .ok t) (ht' : x.tagUri cs' g = .ok t') (hb : x.binary cs f = .ok b) (hb' : x.binary cs' g = .ok b') :
    GSRNP.fromTagUri t = GSRNP.fromTagUri t' ∧ ∀ y, GSRNP.fromBinary b = .ok y ↔ GSRNP.fromBinary b' = .ok y := by
  refine ⟨by rw [C16_gsrnp u x cs f t hu ht, C16_gsrnp u x cs' g t' hu ht'], ?_⟩
  have same : ∀ {cs : GSRNP.Coding} {f g : Fin 8} {b b' : Str}, x.binary cs f = .ok b → x.binary cs g = .ok b' →
      ∀ y, GSRNP.fromBinary b = .ok y ↔ GSRNP.fromBinary b' = .ok y := by
    intro cs f g b b' hb hb' y
    obtain ⟨s, rfl, h⟩ := GSRNP.binary_split hb
    rw [h g] at hb'
    injection hb' with hb'
    subst hb'
    exact ⟨GSRNP.fromBinary_swap, GSRNP.fromBinary_swap⟩
  cases cs; cases cs'
  exact same hb hb'

example : ((do let x ← GSRNP.new (py "urn:epc:id:gsrnp:9521141.1234567890"); let _ ← x.tagUri .gsrnp96 3; let _ ← x.tagUri .gsrnp96 5; let _ ← x.binary .gsrnp96 3; x.binary .gsrnp96 5) : Except Err Str).isOk = true := by decide +kernel

/-- GDTI: another filter value changes the filter field only. -/
theorem C19_filter_gdti (x : GDTI) (cs : GDTI.Coding) (f g : Fin 8) (b : Str) (hb : x.binary cs f = .ok b) :
    ∃ b', x.binary cs g = .ok b' ∧ b'.length = b.length ∧ b'.take 8 = b.take 8 ∧ b'.drop 11 = b.drop 11 := by
  obtain ⟨s, rfl, h⟩ := GDTI.binary_split hb
  have h8 : cs.header.length = 8 := by cases cs <;> rfl
  have hf : (bin 3 f).length = 3 := length_bin (by omega) (by omega)
  have hg : (bin 3 g).length = 3 := length_bin (by omega) (by omega)
  refine ⟨_, h g, by simp only [List.length_append]; omega, by rw [take_append_eq h8, take_append_eq h8], ?_⟩
  rw [drop_skip (k := 11) (by omega) (by omega), drop_skip (k := 11) (by omega) (by omega)]

example : ((do let x ← GDTI.new (py "urn:epc:id:gdti:9521141.12345.4711"); x.binary .gdti96 3) : Except Err Str).isOk = true := by decide +kernel

/-- GDTI: the object read back does not depend on filter value or coding scheme. -/
theorem C19_gdti (u t t' b b' : Str) (x : GDTI) (cs cs' : GDTI.Coding) (f g : Fin 8) (hu : GDTI.new u = .ok x)
    (ht : x.tagUri cs f = .ok t) (ht' : x.tagUri cs' g = .ok t') (hb : x.binary cs f = .ok b) (hb' : x.binary cs' g = .ok b') :
    GDTI.fromTagUri t = GDTI.fromTagUri t' ∧ ∀ y, GDTI.fromBinary b = .ok y ↔ GDTI.fromBinary b' = .ok y := by
  refine ⟨by rw [C16_gdti u x cs f t hu ht, C16_gdti u x cs' g t' hu ht'], ?_⟩
  have same : ∀ {cs : GDTI.Coding} {f g : Fin 8} {b b' : Str}, x.binary cs f = .ok b → x.binary cs g = .ok b' →
      ∀ y, GDTI.fromBinary b = .ok y ↔ GDTI.fromBinary b' = .ok y := by
    intro cs f g b b' hb hb' y
    obtain ⟨s, rfl, h⟩ := GDTI.binary_split hb
    rw [h g] at hb'
    injection hb' with hb'
    subst hb'
    exact ⟨GDTI.fromBinary_swap, GDTI.fromBinary_swap⟩
  have diff : ∀ {f g : Fin 8} {b b' t : Str}, x.tagUri .gdti96 f = .ok t → x.binary .gdti96 f = .ok b → x.binary .gdti174 g = .ok b' →
      ∀ y, GDTI.fromBinary b = .ok y ↔ GDTI.fromBinary b' = .ok y := by
    intro f g b b' t ht hb hb'
    obtain ⟨z, hz, r1, _, H1⟩ := GDTI.any_gdti96 hu ht
    obtain ⟨z', hz', r2, _, H2⟩ := GDTI.any_gdti174 hu (numeral_canonical (GDTI.serial_of_tagUri hu ht).1)
    rw [hz] at hz'
    injection hz' with hz'
    subst hz'
    have e1 := H1.roundtrip f
    have e2 := H2.roundtrip g
    rw [hb] at e1
    rw [hb'] at e2
    have e1 : GDTI.fromBinary b = _ := e1
    have e2 : GDTI.fromBinary b' = _ := e2
    intro y
    rw [e1, e2]
  cases cs <;> cases cs'
  · exact same hb hb'
  · exact diff ht hb hb'
  · exact fun y => (diff ht' hb' hb y).symm
  · exact same hb hb'

example : ((do let x ← GDTI.new (py "urn:epc:id:gdti:9521141.12345.4711"); let _ ← x.tagUri .gdti96 3; let _ ← x.tagUri .gdti174 5; let _ ← x.binary .gdti96 3; x.binary .gdti174 5) : Except Err Str).isOk = true := by decide +kernel

/-- CPI: another filter value changes the filter field only. -/
theorem C19_filter_cpi (x : CPI) (cs : CPI.Coding) (f g : Fin 8) (b : Str) (hb : x.binary cs f = .ok b) :
    ∃ b', x.binary cs g = .ok b' ∧ b'.length = b.length ∧ b'.take 8 = b.take 8 ∧ b'.drop 11 = b.drop 11 := by
  obtain ⟨s, rfl, h⟩ := CPI.binary_split hb
  have h8 : cs.header.length = 8 := by cases cs <;> rfl
  have hf : (bin 3 f).length = 3 := length_bin (by omega) (by omega)
  have hg : (bin 3 g).length = 3 := length_bin (by omega) (by omega)
  refine ⟨_, h g, by simp only [List.length_append]; omega, by rw [take_append_eq h8, take_append_eq h8], ?_⟩
  rw [drop_skip (k := 11) (by omega) (by omega), drop_skip (k := 11) (by omega) (by omega)]

example : ((do let x ← CPI.new (py "urn:epc:id:cpi:9521141.98765.12345"); x.binary .cpi96 3) : Except Err Str).isOk = true := by decide +kernel

/-- CPI: the object read back does not depend on filter value or coding scheme. -/
theorem C19_cpi (u t t' b b' : Str) (x : CPI) (cs cs' : CPI.Coding) (f g : Fin 8) (hu : CPI.new u = .ok x)
    (ht : x.tagUri cs f = .ok t) (ht' : x.tagUri cs' g = .ok t') (hb : x.binary cs f = .ok b) (hb' : x.binary cs' g = .ok b') :
    CPI.fromTagUri t = CPI.fromTagUri t' ∧ ∀ y, CPI.fromBinary b = .ok y ↔ CPI.fromBinary b' = .ok y := by
  refine ⟨by rw [C16_cpi u x cs f t hu ht, C16_cpi u x cs' g t' hu ht'], ?_⟩
  have same : ∀ {cs : CPI.Coding} {f g : Fin 8} {b b' : Str}, x.binary cs f = .ok b → x.binary cs g = .ok b' →
      ∀ y, CPI.fromBinary b = .ok y ↔ CPI.fromBinary b' = .ok y := by
    intro cs f g b b' hb hb' y
    obtain ⟨s, rfl, h⟩ := CPI.binary_split hb
    rw [h g] at hb'
    injection hb' with hb'
    subst hb'
    exact ⟨CPI.fromBinary_swap, CPI.fromBinary_swap⟩
  have diff : ∀ {f g : Fin 8} {b b' t : Str}, x.tagUri .cpi96 f = .ok t → x.binary .cpi96 f = .ok b → x.binary .cpiVar g = .ok b' →
      ∀ y, CPI.fromBinary b = .ok y ↔ CPI.fromBinary b' = .ok y := by
    intro f g b b' t ht hb hb'
    obtain ⟨z, hz, r1, _, H1⟩ := CPI.any_cpi96 hu ht
    obtain ⟨z', hz', r2, _, H2⟩ := CPI.any_cpiVar hu
    rw [hz] at hz'
    injection hz' with hz'
    subst hz'
    have e1 := H1.roundtrip f
    have e2 := H2.roundtrip g
    rw [hb] at e1
    rw [hb'] at e2
    have e1 : CPI.fromBinary b = _ := e1
    have e2 : CPI.fromBinary b' = _ := e2
    intro y
    rw [e1, e2]
  cases cs <;> cases cs'
  · exact same hb hb'
  · exact diff ht hb hb'
  · exact fun y => (diff ht' hb' hb y).symm
  · exact same hb hb'

example : ((do let x ← CPI.new (py "urn:epc:id:cpi:9521141.98765.12345"); let _ ← x.tagUri .cpi96 3; let _ ← x.tagUri .cpiVar 5; let _ ← x.binary .cpi96 3; x.binary .cpiVar 5) : Except Err Str).isOk = true := by decide +kernel

/-- SGCN: another filter value changes the filter field only. -/
theorem C19_filter_sgcn (x : SGCN) (cs : SGCN.Coding) (f g : Fin 8) (b : Str) (hb : x.binary cs f = .ok b) :
    ∃ b', x.binary cs g = .ok b' ∧ b'.length = b.length ∧ b'.take 8 = b.take 8 ∧ b'.drop 11 = b.drop 11 := by
  obtain ⟨s, rfl, h⟩ := SGCN.binary_split hb
  have h8 : cs.header.length = 8 := by cases cs <;> rfl
  have hf : (bin 3 f).length = 3 := length_bin (by omega) (by omega)
  have hg : (bin 3 g).length = 3 := length_bin (by omega) (by omega)
  refine ⟨_, h g, by simp only [List.length_append]; omega, by rw [take_append_eq h8, take_append_eq h8], ?_⟩
  rw [drop_skip (k := 11) (by omega) (by omega), drop_skip (k := 11) (by omega) (by omega)]

example : ((do let x ← SGCN.new (py "urn:epc:id:sgcn:9521141.67890.04711"); x.binary .sgcn96 3) : Except Err Str).isOk = true := by decide +kernel

/-- SGCN: the object read back does not depend on filter value or coding scheme. -/
theorem C19_sgcn (u t t' b b' : Str) (x : SGCN) (cs cs' : SGCN.Coding) (f g : Fin 8) (hu : SGCN.new u = .ok x)
    (ht : x.tagUri cs f = .ok t) (ht' : x.tagUri cs' g = .ok t') (hb : x.binary cs f = .ok b) (hb' : x.binary cs' g = .ok b') :
    SGCN.fromTagUri t = SGCN.fromTagUri t' ∧ ∀ y, SGCN.fromBinary b = .ok y ↔ SGCN.fromBinary b' = .ok y := by
  refine ⟨by rw [C16_sgcn u x cs f t hu ht, C16_sgcn u x cs' g t' hu ht'], ?_⟩
  have same : ∀ {cs : SGCN.Coding} {f g : Fin 8} {b b' : Str}, x.binary cs f = .ok b → x.binary cs g = .ok b' →
      ∀ y, SGCN.fromBinary b = .ok y ↔ SGCN.fromBinary b' = .ok y := by
    intro cs f g b b' hb hb' y
    obtain ⟨s, rfl, h⟩ := SGCN.binary_split hb
    rw [h g] at hb'
    injection hb' with hb'
    subst hb'
    exact ⟨SGCN.fromBinary_swap, SGCN.fromBinary_swap⟩
  cases cs; cases cs'
  exact same hb hb'

example : ((do let x ← SGCN.new (py "urn:epc:id:sgcn:9521141.67890.04711"); let _ ← x.tagUri .sgcn96 3; let _ ← x.tagUri .sgcn96 5; let _ ← x.binary .sgcn96 3; x.binary .sgcn96 5) : Except Err Str).isOk = true := by decide +kernel

/-- ITIP: another filter value changes the filter field only. -/
theorem C19_filter_itip (x : ITIP) (cs : ITIP.Coding) (f g : Fin 8) (b : Str) (hb : x.binary cs f = .ok b) :
    ∃ b', x.binary cs g = .ok b' ∧ b'.length = b.length ∧ b'.take 8 = b.take 8 ∧ b'.drop 11 = b.drop 11 := by
  obtain ⟨s, rfl, h⟩ := ITIP.binary_split hb
  have h8 : cs.header.length = 8 := by cases cs <;> rfl
  have hf : (bin 3 f).length = 3 := length_bin (by omega) (by omega)
  have hg : (bin 3 g).length = 3 := length_bin (by omega) (by omega)
  refine ⟨_, h g, by simp only [List.length_append]; omega, by rw [take_append_eq h8, take_append_eq h8], ?_⟩
  rw [drop_skip (k := 11) (by omega) (by omega), drop_skip (k := 11) (by omega) (by omega)]

example : ((do let x ← ITIP.new (py "urn:epc:id:itip:9521141.012345.02.04.981"); x.binary .itip110 3) : Except Err Str).isOk = true := by decide +kernel

/-- ITIP: the object read back does not depend on filter value or coding scheme. -/
theorem C19_itip_partial (u t t' b b' : Str) (x : ITIP) (cs cs' : ITIP.Coding) (f g : Fin 8) (hu : ITIP.new u = .ok x)
    (hp : x.piece.length = 2) (hq : x.total.length = 2)
    (ht : x.tagUri cs f = .ok t) (ht' : x.tagUri cs' g = .ok t') (hb : x.binary cs f = .ok b) (hb' : x.binary cs' g = .ok b') :
    ITIP.fromTagUri t = ITIP.fromTagUri t' ∧ ∀ y, ITIP.fromBinary b = .ok y ↔ ITIP.fromBinary b' = .ok y := by
  refine ⟨by rw [C16_itip u x cs f t hu ht, C16_itip u x cs' g t' hu ht'], ?_⟩
  have same : ∀ {cs : ITIP.Coding} {f g : Fin 8} {b b' : Str}, x.binary cs f = .ok b → x.binary cs g = .ok b' →
      ∀ y, ITIP.fromBinary b = .ok y ↔ ITIP.fromBinary b' = .ok y := by
    intro cs f g b b' hb hb' y
    obtain ⟨s, rfl, h⟩ := ITIP.binary_split hb
    rw [h g] at hb'
    injection hb' with hb'
    subst hb'
    exact ⟨ITIP.fromBinary_swap, ITIP.fromBinary_swap⟩
  have diff : ∀ {f g : Fin 8} {b b' t : Str}, x.tagUri .itip110 f = .ok t → x.binary .itip110 f = .ok b → x.binary .itip212 g = .ok b' →
      ∀ y, ITIP.fromBinary b = .ok y ↔ ITIP.fromBinary b' = .ok y := by
    intro f g b b' t ht hb hb'
    have hn := ITIP.any_small hu hb
    obtain ⟨z, hz, r1, _, H1⟩ := ITIP.any_itip110 hu ⟨hp, hn.1⟩ ⟨hq, hn.2⟩ ht
    obtain ⟨z', hz', r2, _, H2⟩ := ITIP.any_itip212 hu ⟨hp, hn.1⟩ ⟨hq, hn.2⟩ (numeral_canonical (ITIP.serial_of_tagUri hu ht).1)
    rw [hz] at hz'
    injection hz' with hz'
    subst hz'
    have e1 := H1.roundtrip f
    have e2 := H2.roundtrip g
    rw [hb] at e1
    rw [hb'] at e2
    have e1 : ITIP.fromBinary b = _ := e1
    have e2 : ITIP.fromBinary b' = _ := e2
    intro y
    rw [e1, e2]
  cases cs <;> cases cs'
  · exact same hb hb'
  · exact diff ht hb hb'
  · exact fun y => (diff ht' hb' hb y).symm
  · exact same hb hb'

example : ((do let x ← ITIP.new (py "urn:epc:id:itip:9521141.012345.02.04.981"); let _ ← x.tagUri .itip110 3; let _ ← x.tagUri .itip212 5; let _ ← x.binary .itip110 3; x.binary .itip212 5) : Except Err Str).isOk = true := by decide +kernel

/-- GID has one coding scheme and no filter values: there is one binary and one tag URI per object. -/
theorem C19_gid (x : GID) (cs cs' : GID.Coding) : x.binary cs = x.binary cs' ∧ x.tagUri cs = x.tagUri cs' := by
  cases cs; cases cs'; exact ⟨rfl, rfl⟩

/-- USDOD: another filter value changes the filter field only. -/
theorem C19_filter_usdod (x : USDOD) (cs : USDOD.Coding) (f g : Fin 16) (b : Str) (hb : x.binary cs f = .ok b) :
    ∃ b', x.binary cs g = .ok b' ∧ b'.length = b.length ∧ b'.take 8 = b.take 8 ∧ b'.drop 12 = b.drop 12 := by
  obtain ⟨s, rfl, h⟩ := USDOD.binary_split hb
  have h8 : cs.header.length = 8 := by cases cs <;> rfl
  have hf : (bin 4 f).length = 4 := length_bin (by omega) (by omega)
  have hg : (bin 4 g).length = 4 := length_bin (by omega) (by omega)
  refine ⟨_, h g, by simp only [List.length_append]; omega, by rw [take_append_eq h8, take_append_eq h8], ?_⟩
  rw [drop_skip (k := 12) (by omega) (by omega), drop_skip (k := 12) (by omega) (by omega)]

example : ((do let x ← USDOD.new (py "urn:epc:id:usdod:CAGEY.5678"); x.binary .usdod96 3) : Except Err Str).isOk = true := by decide +kernel

/-- USDOD: the object read back does not depend on filter value or coding scheme. -/
theorem C19_usdod (u t t' b b' : Str) (x : USDOD) (cs cs' : USDOD.Coding) (f g : Fin 16) (hu : USDOD.new u = .ok x)
    (ht : x.tagUri cs f = .ok t) (ht' : x.tagUri cs' g = .ok t') (hb : x.binary cs f = .ok b) (hb' : x.binary cs' g = .ok b') :
    USDOD.fromTagUri t = USDOD.fromTagUri t' ∧ ∀ y, USDOD.fromBinary b = .ok y ↔ USDOD.fromBinary b' = .ok y := by
  refine ⟨by rw [C16_usdod u x cs f t hu ht, C16_usdod u x cs' g t' hu ht'], ?_⟩
  have same : ∀ {cs : USDOD.Coding} {f g : Fin 16} {b b' : Str}, x.binary cs f = .ok b → x.binary cs g = .ok b' →
      ∀ y, USDOD.fromBinary b = .ok y ↔ USDOD.fromBinary b' = .ok y := by
    intro cs f g b b' hb hb' y
    obtain ⟨s, rfl, h⟩ := USDOD.binary_split hb
    rw [h g] at hb'
    injection hb' with hb'
    subst hb'
    exact ⟨USDOD.fromBinary_swap, USDOD.fromBinary_swap⟩
  cases cs; cases cs'
  exact same hb hb'

example : ((do let x ← USDOD.new (py "urn:epc:id:usdod:CAGEY.5678"); let _ ← x.tagUri .usdod96 3; let _ ← x.tagUri .usdod96 5; let _ ← x.binary .usdod96 3; x.binary .usdod96 5) : Except Err Str).isOk = true := by decide +kernel

/-- ADI: another filter value changes the filter field only. -/
theorem C19_filter_adi (x : ADI) (cs : ADI.Coding) (f g : Fin 64) (b : Str) (hb : x.binary cs f = .ok b) :
    ∃ b', x.binary cs g = .ok b' ∧ b'.length = b.length ∧ b'.take 8 = b.take 8 ∧ b'.drop 14 = b.drop 14 := by
  obtain ⟨s, rfl, h⟩ := ADI.binary_split hb
  have h8 : cs.header.length = 8 := by cases cs <;> rfl
  have hf : (bin 6 f).length = 6 := length_bin (by omega) (by omega)
  have hg : (bin 6 g).length = 6 := length_bin (by omega) (by omega)
  refine ⟨_, h g, by simp only [List.length_append]; omega, by rw [take_append_eq h8, take_append_eq h8], ?_⟩
  rw [drop_skip (k := 14) (by omega) (by omega), drop_skip (k := 14) (by omega) (by omega)]

example : ((do let x ← ADI.new (py "urn:epc:id:adi:W81X9C.3KL984PX1.2WMA-52"); x.binary .adiVar 3) : Except Err Str).isOk = true := by decide +kernel

/-- ADI: the object read back does not depend on filter value or coding scheme. -/
theorem C19_adi (u t t' b b' : Str) (x : ADI) (cs cs' : ADI.Coding) (f g : Fin 64) (hu : ADI.new u = .ok x)
    (ht : x.tagUri cs f = .ok t) (ht' : x.tagUri cs' g = .ok t') (hb : x.binary cs f = .ok b) (hb' : x.binary cs' g = .ok b') :
    ADI.fromTagUri t = ADI.fromTagUri t' ∧ ∀ y, ADI.fromBinary b = .ok y ↔ ADI.fromBinary b' = .ok y := by
  refine ⟨by rw [C16_adi u x cs f t hu ht, C16_adi u x cs' g t' hu ht'], ?_⟩
  have same : ∀ {cs : ADI.Coding} {f g : Fin 64} {b b' : Str}, x.binary cs f = .ok b → x.binary cs g = .ok b' →
      ∀ y, ADI.fromBinary b = .ok y ↔ ADI.fromBinary b' = .ok y := by
    intro cs f g b b' hb hb' y
    obtain ⟨s, rfl, h⟩ := ADI.binary_split hb
    rw [h g] at hb'
    injection hb' with hb'
    subst hb'
    exact ⟨ADI.fromBinary_swap, ADI.fromBinary_swap⟩
  cases cs; cases cs'
  exact same hb hb'

example : ((do let x ← ADI.new (py "urn:epc:id:adi:W81X9C.3KL984PX1.2WMA-52"); let _ ← x.tagUri .adiVar 3; let _ ← x.tagUri .adiVar 5; let _ ← x.binary .adiVar 3; x.binary .adiVar 5) : Except Err Str).isOk = true := by decide +kernel

/-- The claim for ITIP without the hypotheses on the lengths of piece and total. -/
def C19_itip_claim : Prop := ∀ (u t t' b b' : Str) (x : ITIP) (cs cs' : ITIP.Coding) (f g : Fin 8), ITIP.new u = .ok x →
  x.tagUri cs f = .ok t → x.tagUri cs' g = .ok t' → x.binary cs f = .ok b → x.binary cs' g = .ok b' →
  ∀ y, ITIP.fromBinary b = .ok y ↔ ITIP.fromBinary b' = .ok y

/-- It is false: with piece and total of one digit, the item reference has too many bits for its field. -/
theorem C19_itip_claim_false : ¬ C19_itip_claim := by
  intro h
  have h1 : ((do let x ← ITIP.new (py "urn:epc:id:itip:952114.016777218.2.2.4"); let _ ← x.tagUri .itip110 0; let _ ← x.tagUri .itip212 0; let b ← x.binary .itip110 0; let b' ← x.binary .itip212 0; return (ITIP.fromBinary b).isOk && !(ITIP.fromBinary b').isOk) : Except Err Bool) = .ok true := by
    decide +kernel
  obtain ⟨x, h1, h2⟩ := bind_ok_iff.1 h1
  obtain ⟨t, h3, h2⟩ := bind_ok_iff.1 h2
  obtain ⟨t', h4, h2⟩ := bind_ok_iff.1 h2
  obtain ⟨b, h5, h2⟩ := bind_ok_iff.1 h2
  obtain ⟨b', h6, h2⟩ := bind_ok_iff.1 h2
  injection h2 with h2
  have H := h _ t t' b b' x _ _ 0 0 h1 h3 h4 h5 h6
  rw [Bool.and_eq_true] at h2
  cases hy : ITIP.fromBinary b with
  | error e => rw [hy] at h2; exact absurd h2.1 (by simp [Except.isOk, Except.toBool])
  | ok y => rw [(H y).1 hy] at h2; exact absurd h2.2 (by simp [Except.isOk, Except.toBool])

end Epc
