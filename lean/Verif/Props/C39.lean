/-
C39: binary, hexadecimal and base64 dispatch.

The statements hold for every object, accepted by a constructor or not, every coding scheme and every filter value: whenever the
object has the representation at all, the dispatching function gives what the `from_…` method of the object's class gives.
`.map .sgtin` only embeds the instance of one class in the type of all scheme instances.
Generated by tools/gen_c39.py.
-/
import Verif.Lemmas.BinChars

namespace Epc
open Spec Re

/-- Every header is eight bits long, and no two coding schemes, of the same or different classes, have the same header. -/
theorem C39_headers_distinct :
    (∀ hc ∈ binaryHeaderTable, hc.1.length = 8 ∧ Bits hc.1) ∧ (binaryHeaderTable.map (·.1)).Nodup ∧ binaryHeaderTable.length = 21 := by
  refine ⟨?_, by decide +kernel, by decide +kernel⟩
  have : ∀ hc ∈ binaryHeaderTable, hc.1.length = 8 ∧ ∀ c ∈ hc.1, c = '0' ∨ c = '1' := by decide +kernel
  exact this

/-- The table has every header of every class. -/
theorem C39_headers_complete (c : Cls) (h : Str) : (h, c) ∈ binaryHeaderTable ↔ h ∈ c.binaryHeaders := by
  unfold binaryHeaderTable
  rw [List.mem_flatten]
  constructor
  · rintro ⟨l, hl, hm⟩
    obtain ⟨c', -, rfl⟩ := List.mem_map.1 hl
    obtain ⟨h', hh, e⟩ := List.mem_map.1 hm
    cases e
    exact hh
  · intro hh
    exact ⟨_, List.mem_map.2 ⟨c, by cases c <;> decide, rfl⟩, List.mem_map.2 ⟨h, hh, rfl⟩⟩

/-- A bit string is handed to the class that has its first eight bits as a header, whatever the order of the table. -/
theorem C39_table (t : List (Str × Cls)) (ht : ∀ h c, (h, c) ∈ t ↔ h ∈ c.binaryHeaders) (b : Str) :
    t.lookup (b.take 8) = binaryHeaderTable.lookup (b.take 8) := by
  have key : ∀ (t : List (Str × Cls)), (∀ h c, (h, c) ∈ t ↔ h ∈ c.binaryHeaders) → ∀ h c, t.lookup h = some c ↔ h ∈ c.binaryHeaders := by
    intro t ht h c
    constructor
    · intro e
      exact (ht h c).1 (lookup_mem e)
    · intro hm
      cases e : t.lookup h with
      | none => exact absurd ((ht h c).2 hm) (table_lookup_none e c)
      | some c' =>
        have h1 := lookup_header c' (by cases c' <;> decide) h ((ht h c').1 (lookup_mem e))
        have h2 := lookup_header c (by cases c <;> decide) h hm
        rw [h1] at h2
        exact h2
  cases e : t.lookup (b.take 8) with
  | some c => exact ((key _ (fun h c => C39_headers_complete c h) _ c).2 ((key t ht _ c).1 e)).symm
  | none =>
    cases e' : binaryHeaderTable.lookup (b.take 8) with
    | none => rfl
    | some c =>
      rw [(key t ht _ c).2 ((key _ (fun h c => C39_headers_complete c h) _ c).1 e')] at e
      cases e

/-- A bit string with an unknown header is refused. -/
theorem C39_unknown (b : Str) (h : ∀ c : Cls, b.take 8 ∉ c.binaryHeaders) : binaryToTagEncodable b = .error .convert := by
  unfold binaryToTagEncodable
  cases e : binaryHeaderTable.lookup (b.take 8) with
  | none => rfl
  | some c => exact absurd ((C39_headers_complete c _).1 (lookup_mem e)) (h c)

/-- SGTIN. -/
theorem C39_sgtin (x : SGTIN) (cs : SGTIN.Coding) (f : Fin 8) :
    (∀ b, x.binary cs f = .ok b → binaryToTagEncodable b = (SGTIN.fromBinary b).map .sgtin) ∧
    (∀ h, x.hex cs f = .ok h → hexToTagEncodable h = (SGTIN.fromHex h).map .sgtin) ∧
    (∀ s, x.base64 cs f = .ok s → base64ToTagEncodable s = (SGTIN.fromBase64 s).map .sgtin) :=
  dispatch_all (c := .sgtin) (inj := .sgtin) (SGTIN.header_mem cs) (fun _ => SGTIN.binary_signed) (fun _ => rfl)

/-- SSCC. -/
theorem C39_sscc (x : SSCC) (cs : SSCC.Coding) (f : Fin 8) :
    (∀ b, x.binary cs f = .ok b → binaryToTagEncodable b = (SSCC.fromBinary b).map .sscc) ∧
    (∀ h, x.hex cs f = .ok h → hexToTagEncodable h = (SSCC.fromHex h).map .sscc) ∧
    (∀ s, x.base64 cs f = .ok s → base64ToTagEncodable s = (SSCC.fromBase64 s).map .sscc) :=
  dispatch_all (c := .sscc) (inj := .sscc) (SSCC.header_mem cs) (fun _ => SSCC.binary_signed) (fun _ => rfl)

/-- SGLN. -/
theorem C39_sgln (x : SGLN) (cs : SGLN.Coding) (f : Fin 8) :
    (∀ b, x.binary cs f = .ok b → binaryToTagEncodable b = (SGLN.fromBinary b).map .sgln) ∧
    (∀ h, x.hex cs f = .ok h → hexToTagEncodable h = (SGLN.fromHex h).map .sgln) ∧
    (∀ s, x.base64 cs f = .ok s → base64ToTagEncodable s = (SGLN.fromBase64 s).map .sgln) :=
  dispatch_all (c := .sgln) (inj := .sgln) (SGLN.header_mem cs) (fun _ => SGLN.binary_signed) (fun _ => rfl)

/-- GRAI. -/
theorem C39_grai (x : GRAI) (cs : GRAI.Coding) (f : Fin 8) :
    (∀ b, x.binary cs f = .ok b → binaryToTagEncodable b = (GRAI.fromBinary b).map .grai) ∧
    (∀ h, x.hex cs f = .ok h → hexToTagEncodable h = (GRAI.fromHex h).map .grai) ∧
    (∀ s, x.base64 cs f = .ok s → base64ToTagEncodable s = (GRAI.fromBase64 s).map .grai) :=
  dispatch_all (c := .grai) (inj := .grai) (GRAI.header_mem cs) (fun _ => GRAI.binary_signed) (fun _ => rfl)

/-- GIAI. -/
theorem C39_giai (x : GIAI) (cs : GIAI.Coding) (f : Fin 8) :
    (∀ b, x.binary cs f = .ok b → binaryToTagEncodable b = (GIAI.fromBinary b).map .giai) ∧
    (∀ h, x.hex cs f = .ok h → hexToTagEncodable h = (GIAI.fromHex h).map .giai) ∧
    (∀ s, x.base64 cs f = .ok s → base64ToTagEncodable s = (GIAI.fromBase64 s).map .giai) :=
  dispatch_all (c := .giai) (inj := .giai) (GIAI.header_mem cs) (fun _ => GIAI.binary_signed) (fun _ => rfl)

/-- GSRN. -/
theorem C39_gsrn (x : GSRN) (cs : GSRN.Coding) (f : Fin 8) :
    (∀ b, x.binary cs f = .ok b → binaryToTagEncodable b = (GSRN.fromBinary b).map .gsrn) ∧
    (∀ h, x.hex cs f = .ok h → hexToTagEncodable h = (GSRN.fromHex h).map .gsrn) ∧
    (∀ s, x.base64 cs f = .ok s → base64ToTagEncodable s = (GSRN.fromBase64 s).map .gsrn) :=
  dispatch_all (c := .gsrn) (inj := .gsrn) (GSRN.header_mem cs) (fun _ => GSRN.binary_signed) (fun _ => rfl)

/-- GSRNP. -/
theorem C39_gsrnp (x : GSRNP) (cs : GSRNP.Coding) (f : Fin 8) :
    (∀ b, x.binary cs f = .ok b → binaryToTagEncodable b = (GSRNP.fromBinary b).map .gsrnp) ∧
    (∀ h, x.hex cs f = .ok h → hexToTagEncodable h = (GSRNP.fromHex h).map .gsrnp) ∧
    (∀ s, x.base64 cs f = .ok s → base64ToTagEncodable s = (GSRNP.fromBase64 s).map .gsrnp) :=
  dispatch_all (c := .gsrnp) (inj := .gsrnp) (GSRNP.header_mem cs) (fun _ => GSRNP.binary_signed) (fun _ => rfl)

/-- GDTI. -/
theorem C39_gdti (x : GDTI) (cs : GDTI.Coding) (f : Fin 8) :
    (∀ b, x.binary cs f = .ok b → binaryToTagEncodable b = (GDTI.fromBinary b).map .gdti) ∧
    (∀ h, x.hex cs f = .ok h → hexToTagEncodable h = (GDTI.fromHex h).map .gdti) ∧
    (∀ s, x.base64 cs f = .ok s → base64ToTagEncodable s = (GDTI.fromBase64 s).map .gdti) :=
  dispatch_all (c := .gdti) (inj := .gdti) (GDTI.header_mem cs) (fun _ => GDTI.binary_signed) (fun _ => rfl)

/-- CPI. -/
theorem C39_cpi (x : CPI) (cs : CPI.Coding) (f : Fin 8) :
    (∀ b, x.binary cs f = .ok b → binaryToTagEncodable b = (CPI.fromBinary b).map .cpi) ∧
    (∀ h, x.hex cs f = .ok h → hexToTagEncodable h = (CPI.fromHex h).map .cpi) ∧
    (∀ s, x.base64 cs f = .ok s → base64ToTagEncodable s = (CPI.fromBase64 s).map .cpi) :=
  dispatch_all (c := .cpi) (inj := .cpi) (CPI.header_mem cs) (fun _ => CPI.binary_signed) (fun _ => rfl)

/-- SGCN. -/
theorem C39_sgcn (x : SGCN) (cs : SGCN.Coding) (f : Fin 8) :
    (∀ b, x.binary cs f = .ok b → binaryToTagEncodable b = (SGCN.fromBinary b).map .sgcn) ∧
    (∀ h, x.hex cs f = .ok h → hexToTagEncodable h = (SGCN.fromHex h).map .sgcn) ∧
    (∀ s, x.base64 cs f = .ok s → base64ToTagEncodable s = (SGCN.fromBase64 s).map .sgcn) :=
  dispatch_all (c := .sgcn) (inj := .sgcn) (SGCN.header_mem cs) (fun _ => SGCN.binary_signed) (fun _ => rfl)

/-- ITIP. -/
theorem C39_itip (x : ITIP) (cs : ITIP.Coding) (f : Fin 8) :
    (∀ b, x.binary cs f = .ok b → binaryToTagEncodable b = (ITIP.fromBinary b).map .itip) ∧
    (∀ h, x.hex cs f = .ok h → hexToTagEncodable h = (ITIP.fromHex h).map .itip) ∧
    (∀ s, x.base64 cs f = .ok s → base64ToTagEncodable s = (ITIP.fromBase64 s).map .itip) :=
  dispatch_all (c := .itip) (inj := .itip) (ITIP.header_mem cs) (fun _ => ITIP.binary_signed) (fun _ => rfl)

/-- GID. -/
theorem C39_gid (x : GID) (cs : GID.Coding) :
    (∀ b, x.binary cs = .ok b → binaryToTagEncodable b = (GID.fromBinary b).map .gid) ∧
    (∀ h, x.hex cs = .ok h → hexToTagEncodable h = (GID.fromHex h).map .gid) ∧
    (∀ s, x.base64 cs = .ok s → base64ToTagEncodable s = (GID.fromBase64 s).map .gid) :=
  dispatch_all (c := .gid) (inj := .gid) (GID.header_mem cs) (fun _ => GID.binary_signed) (fun _ => rfl)

/-- USDOD. -/
theorem C39_usdod (x : USDOD) (cs : USDOD.Coding) (f : Fin 16) :
    (∀ b, x.binary cs f = .ok b → binaryToTagEncodable b = (USDOD.fromBinary b).map .usdod) ∧
    (∀ h, x.hex cs f = .ok h → hexToTagEncodable h = (USDOD.fromHex h).map .usdod) ∧
    (∀ s, x.base64 cs f = .ok s → base64ToTagEncodable s = (USDOD.fromBase64 s).map .usdod) :=
  dispatch_all (c := .usdod) (inj := .usdod) (USDOD.header_mem cs) (fun _ => USDOD.binary_signed) (fun _ => rfl)

/-- ADI. -/
theorem C39_adi (x : ADI) (cs : ADI.Coding) (f : Fin 64) :
    (∀ b, x.binary cs f = .ok b → binaryToTagEncodable b = (ADI.fromBinary b).map .adi) ∧
    (∀ h, x.hex cs f = .ok h → hexToTagEncodable h = (ADI.fromHex h).map .adi) ∧
    (∀ s, x.base64 cs f = .ok s → base64ToTagEncodable s = (ADI.fromBase64 s).map .adi) :=
  dispatch_all (c := .adi) (inj := .adi) (ADI.header_mem cs) (fun _ => ADI.binary_signed) (fun _ => rfl)

example : ((SGTIN.new (py "urn:epc:id:sgtin:0614141.812345.6789")).bind fun x => (x.hex .sgtin96 3).bind fun h => (hexToTagEncodable h).map fun y => decide (y = .sgtin x)) = .ok true := by
  decide +kernel

example : ((GID.new (py "urn:epc:id:gid:31415.271828.1414")).bind fun x => (x.hex .gid96).bind fun h => (hexToTagEncodable h).map fun y => decide (y = .gid x)) = .ok true := by
  decide +kernel

example : ((ADI.new (py "urn:epc:id:adi:W81X9C.3KL984PX1.2WMA52")).bind fun x => (x.hex .adiVar 3).bind fun h => (hexToTagEncodable h).map fun y => decide (y = .adi x)) = .ok true := by
  decide +kernel

end Epc
