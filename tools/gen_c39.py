#!/usr/bin/env python3
"""Write lean/Verif/Props/C39.lean."""
CL = ["sgtin","sscc","sgln","grai","giai","gsrn","gsrnp","gdti","cpi","sgcn","itip","gid","usdod","adi"]
FW = {"usdod":16,"adi":64}
out=[r'''/-
C39: binary, hexadecimal and base64 dispatch.

The statements hold for every object, accepted by a constructor or not, every coding scheme and every filter value: whenever the
object has the representation at all, the dispatching function gives what the `from_…` method of the object's class gives.
`.map .sgtin` only embeds the instance of one class in the type of all scheme instances.
Generated by tools/gen_c39.py.
-/
import Verif.Lemmas.BinChars

namespace Epc
open Spec Re

/-- Every header is eight bits long, and no two coding schemes, of the same or different classes, have the same header. -/
theorem C39_headers_distinct :
    (∀ hc ∈ binaryHeaderTable, hc.1.length = 8 ∧ Bits hc.1) ∧ (binaryHeaderTable.map (·.1)).Nodup ∧ binaryHeaderTable.length = 21 := by
  refine ⟨?_, by decide +kernel, by decide +kernel⟩
  have : ∀ hc ∈ binaryHeaderTable, hc.1.length = 8 ∧ ∀ c ∈ hc.1, c = '0' ∨ c = '1' := by decide +kernel
  exact this

/-- The table has every header of every class. -/
theorem C39_headers_complete (c : Cls) (h : Str) : (h, c) ∈ binaryHeaderTable ↔ h ∈ c.binaryHeaders := by
  unfold binaryHeaderTable
  rw [List.mem_flatten]
  constructor
  · rintro ⟨l, hl, hm⟩
    obtain ⟨c', -, rfl⟩ := List.mem_map.1 hl
    obtain ⟨h', hh, e⟩ := List.mem_map.1 hm
    cases e
    exact hh
  · intro hh
    exact ⟨_, List.mem_map.2 ⟨c, by cases c <;> decide, rfl⟩, List.mem_map.2 ⟨h, hh, rfl⟩⟩

/-- A bit string is handed to the class that has its first eight bits as a header, whatever the order of the table. -/
theorem C39_table (t : List (Str × Cls)) (ht : ∀ h c, (h, c) ∈ t ↔ h ∈ c.binaryHeaders) (b : Str) :
    t.lookup (b.take 8) = binaryHeaderTable.lookup (b.take 8) := by
  have key : ∀ (t : List (Str × Cls)), (∀ h c, (h, c) ∈ t ↔ h ∈ c.binaryHeaders) → ∀ h c, t.lookup h = some c ↔ h ∈ c.binaryHeaders := by
    intro t ht h c
    constructor
    · intro e
      exact (ht h c).1 (lookup_mem e)
    · intro hm
      cases e : t.lookup h with
      | none => exact absurd ((ht h c).2 hm) (table_lookup_none e c)
      | some c' =>
        have h1 := lookup_header c' (by cases c' <;> decide) h ((ht h c').1 (lookup_mem e))
        have h2 := lookup_header c (by cases c <;> decide) h hm
        rw [h1] at h2
        exact h2
  cases e : t.lookup (b.take 8) with
  | some c => exact ((key _ (fun h c => C39_headers_complete c h) _ c).2 ((key t ht _ c).1 e)).symm
  | none =>
    cases e' : binaryHeaderTable.lookup (b.take 8) with
    | none => rfl
    | some c =>
      rw [(key t ht _ c).2 ((key _ (fun h c => C39_headers_complete c h) _ c).1 e')] at e
      cases e

/-- A bit string with an unknown header is refused. -/
theorem C39_unknown (b : Str) (h : ∀ c : Cls, b.take 8 ∉ c.binaryHeaders) : binaryToTagEncodable b = .error .convert := by
  unfold binaryToTagEncodable
  cases e : binaryHeaderTable.lookup (b.take 8) with
  | none => rfl
  | some c => exact absurd ((C39_headers_complete c _).1 (lookup_mem e)) (h c)
''']
for n in CL:
    N=n.upper()
    fv="" if n=="gid" else f" (f : Fin {FW.get(n,8)})"
    fa="" if n=="gid" else " f"
    out.append(f'''/-- {N}. -/
theorem C39_{n} (x : {N}) (cs : {N}.Coding){fv} :
    (∀ b, x.binary cs{fa} = .ok b → binaryToTagEncodable b = ({N}.fromBinary b).map .{n}) ∧
    (∀ h, x.hex cs{fa} = .ok h → hexToTagEncodable h = ({N}.fromHex h).map .{n}) ∧
    (∀ s, x.base64 cs{fa} = .ok s → base64ToTagEncodable s = ({N}.fromBase64 s).map .{n}) :=
  dispatch_all (c := .{n}) (inj := .{n}) ({N}.header_mem cs) (fun _ => {N}.binary_signed) (fun _ => rfl)
''')
ex={"sgtin":("urn:epc:id:sgtin:0614141.812345.6789",".sgtin96"," 3"),"gid":("urn:epc:id:gid:31415.271828.1414",".gid96",""),"adi":("urn:epc:id:adi:W81X9C.3KL984PX1.2WMA52",".adiVar"," 3")}
for n,(u,cs,f) in ex.items():
    N=n.upper()
    out.append(f'''example : (({N}.new (py "{u}")).bind fun x => (x.hex {cs}{f}).bind fun h => (hexToTagEncodable h).map fun y => decide (y = .{n} x)) = .ok true := by
  decide +kernel
''')
out.append("end Epc\n")
open("/verif/lean/Verif/Props/C39.lean","w").write("\n".join(out))
