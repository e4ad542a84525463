/-
C40: `get_gs1_key` agrees over all representations.

`x.gs1Key ty` is `x.gs1_key()` (with `gtin_type=ty` if given); `n` is the company prefix length passed to `get_gs1_key` (`none`: not passed).
Generated by tools/gen_c40.py.
-/
import Verif.Lemmas.KeySource
import Verif.Props.C16
import Verif.Props.C37
import Verif.Props.C42

namespace Epc
open Spec Re

/-- Pure identity URI. -/
theorem C40_uri (c : Cls) (u : Str) (x : Scheme) (n : Option Int) (ty : Option GtinType) (hu : c.new u = .ok x) (hk : c.isGs1Keyed = true) :
    getGs1Key u n ty = x.gs1Key ty := by
  rw [getGs1Key_uri hu, if_pos hk]

/-- GS1 element string, parsed with a company prefix length for which it round-trips. -/
theorem C40_element_string (c : Cls) (u : Str) (x : Scheme) (s : Str) (n : Int) (ty : Option GtinType) (hu : c.new u = .ok x)
    (hk : c.isGs1Keyed = true) (hs : x.gs1ElementString = .ok s) (hn : n ≠ 0) (hr : c.fromGs1ElementString s n = .ok x) :
    getGs1Key s (some n) ty = x.gs1Key ty := by
  have hd := C37_dispatch c u x s hu hs n
  rw [hr] at hd
  have hm : Rx.gs1Elem.fullmatch s = true := by
    unfold gs1ElementStringToGs1Element at hd
    cases e : elemCls s with
    | none => rw [e] at hd; cases hd
    | some c' =>
      obtain ⟨r, hr', hm⟩ := elemCls_iff.1 e
      exact gs1Elem_of_cls hr' hm
  have h1 : gs1KeySource s (some n) = some (.ok x) := by rw [source_elem hn hm, hd]
  rw [key_of_source h1, (c.new_facts hu).1, if_pos hk]

/-- Without the company prefix length (or with 0) an element string is refused. -/
theorem C40_element_string_without_length (s : Str) (n : Option Int) (ty : Option GtinType) (hn : n = Option.none ∨ n = some 0)
    (hm : ∃ (c : Cls) (r : Re), c.elemRegex = some r ∧ r.fullmatch s = true) : getGs1Key s n ty = .error .convert :=
  key_of_no_source (source_elem_none (by rcases hn with rfl | rfl <;> rfl) (gs1Elem_iff.2 hm)) ty

/-- Any tag URI that a keyed class reads: the key is that of the object read. -/
theorem C40_tag_uri (c : Cls) (t : Str) (y : Scheme) (n : Option Int) (ty : Option GtinType) (ht : c.fromTagUri t = .ok y) (hk : c.isGs1Keyed = true) :
    getGs1Key t n ty = y.gs1Key ty := by
  have hc : c ≠ .gid := by rintro rfl; cases hk
  rw [key_of_source (source_tag ht hc n), (Cls.fromTagUri_facts ht).1, if_pos hk]

/-- SGTIN: tag URI (whenever there is one), binary and hexadecimal forms (whenever they decode to the object). -/
theorem C40_sgtin (u : Str) (x : SGTIN) (cs : SGTIN.Coding) (f : Fin 8) (n : Option Int) (ty : Option GtinType) (hu : SGTIN.new u = .ok x) :
    (∀ t, x.tagUri cs f = .ok t → getGs1Key t n ty = (Scheme.sgtin x).gs1Key ty) ∧
    (∀ b, x.binary cs f = .ok b → SGTIN.fromBinary b = .ok x → getGs1Key b n ty = (Scheme.sgtin x).gs1Key ty) ∧
    (∀ h, x.hex cs f = .ok h → SGTIN.fromHex h = .ok x → getGs1Key h n ty = (Scheme.sgtin x).gs1Key ty) := by
  refine ⟨?_, key_of_forms (c := .sgtin) (inj := .sgtin) (SGTIN.header_mem cs) (fun _ => SGTIN.binary_signed) (fun _ => rfl) rfl n ty⟩
  intro t ht
  have h1 : Cls.fromTagUri .sgtin t = .ok (.sgtin x) := by show (SGTIN.fromTagUri t).map _ = _; rw [C16_sgtin u x cs f t hu ht]; rfl
  exact C40_tag_uri .sgtin t (.sgtin x) n ty h1 rfl

/-- SSCC: tag URI (whenever there is one), binary and hexadecimal forms (whenever they decode to the object). -/
theorem C40_sscc (u : Str) (x : SSCC) (cs : SSCC.Coding) (f : Fin 8) (n : Option Int) (ty : Option GtinType) (hu : SSCC.new u = .ok x) :
    (∀ t, x.tagUri cs f = .ok t → getGs1Key t n ty = (Scheme.sscc x).gs1Key ty) ∧
    (∀ b, x.binary cs f = .ok b → SSCC.fromBinary b = .ok x → getGs1Key b n ty = (Scheme.sscc x).gs1Key ty) ∧
    (∀ h, x.hex cs f = .ok h → SSCC.fromHex h = .ok x → getGs1Key h n ty = (Scheme.sscc x).gs1Key ty) := by
  refine ⟨?_, key_of_forms (c := .sscc) (inj := .sscc) (SSCC.header_mem cs) (fun _ => SSCC.binary_signed) (fun _ => rfl) rfl n ty⟩
  intro t ht
  have h1 : Cls.fromTagUri .sscc t = .ok (.sscc x) := by show (SSCC.fromTagUri t).map _ = _; rw [C16_sscc u x cs f t hu ht]; rfl
  exact C40_tag_uri .sscc t (.sscc x) n ty h1 rfl

/-- SGLN: tag URI (whenever there is one), binary and hexadecimal forms (whenever they decode to the object). -/
theorem C40_sgln (u : Str) (x : SGLN) (cs : SGLN.Coding) (f : Fin 8) (n : Option Int) (ty : Option GtinType) (hu : SGLN.new u = .ok x) :
    (∀ t, x.tagUri cs f = .ok t → getGs1Key t n ty = (Scheme.sgln x).gs1Key ty) ∧
    (∀ b, x.binary cs f = .ok b → SGLN.fromBinary b = .ok x → getGs1Key b n ty = (Scheme.sgln x).gs1Key ty) ∧
    (∀ h, x.hex cs f = .ok h → SGLN.fromHex h = .ok x → getGs1Key h n ty = (Scheme.sgln x).gs1Key ty) := by
  refine ⟨?_, key_of_forms (c := .sgln) (inj := .sgln) (SGLN.header_mem cs) (fun _ => SGLN.binary_signed) (fun _ => rfl) rfl n ty⟩
  intro t ht
  have h1 : Cls.fromTagUri .sgln t = .ok (.sgln x) := by show (SGLN.fromTagUri t).map _ = _; rw [C16_sgln u x cs f t hu ht]; rfl
  exact C40_tag_uri .sgln t (.sgln x) n ty h1 rfl

/-- GRAI: tag URI (whenever there is one), binary and hexadecimal forms (whenever they decode to the object). -/
theorem C40_grai (u : Str) (x : GRAI) (cs : GRAI.Coding) (f : Fin 8) (n : Option Int) (ty : Option GtinType) (hu : GRAI.new u = .ok x) :
    (∀ t, x.tagUri cs f = .ok t → getGs1Key t n ty = (Scheme.grai x).gs1Key ty) ∧
    (∀ b, x.binary cs f = .ok b → GRAI.fromBinary b = .ok x → getGs1Key b n ty = (Scheme.grai x).gs1Key ty) ∧
    (∀ h, x.hex cs f = .ok h → GRAI.fromHex h = .ok x → getGs1Key h n ty = (Scheme.grai x).gs1Key ty) := by
  refine ⟨?_, key_of_forms (c := .grai) (inj := .grai) (GRAI.header_mem cs) (fun _ => GRAI.binary_signed) (fun _ => rfl) rfl n ty⟩
  intro t ht
  have h1 : Cls.fromTagUri .grai t = .ok (.grai x) := by show (GRAI.fromTagUri t).map _ = _; rw [C16_grai u x cs f t hu ht]; rfl
  exact C40_tag_uri .grai t (.grai x) n ty h1 rfl

/-- GIAI: tag URI (whenever there is one), binary and hexadecimal forms (whenever they decode to the object). -/
theorem C40_giai (u : Str) (x : GIAI) (cs : GIAI.Coding) (f : Fin 8) (n : Option Int) (ty : Option GtinType) (hu : GIAI.new u = .ok x) :
    (∀ t, x.tagUri cs f = .ok t → getGs1Key t n ty = (Scheme.giai x).gs1Key ty) ∧
    (∀ b, x.binary cs f = .ok b → GIAI.fromBinary b = .ok x → getGs1Key b n ty = (Scheme.giai x).gs1Key ty) ∧
    (∀ h, x.hex cs f = .ok h → GIAI.fromHex h = .ok x → getGs1Key h n ty = (Scheme.giai x).gs1Key ty) := by
  refine ⟨?_, key_of_forms (c := .giai) (inj := .giai) (GIAI.header_mem cs) (fun _ => GIAI.binary_signed) (fun _ => rfl) rfl n ty⟩
  intro t ht
  obtain ⟨y, hy, -, -, hk⟩ := C16_giai_components_partial u x cs f t hu ht
  have h1 : Cls.fromTagUri .giai t = .ok (.giai y) := by show (GIAI.fromTagUri t).map _ = _; rw [hy]; rfl
  rw [C40_tag_uri .giai t (.giai y) n ty h1 rfl]
  show Scheme.noKwargs y.gs1Key ty = Scheme.noKwargs x.gs1Key ty
  rw [hk]

/-- GSRN: tag URI (whenever there is one), binary and hexadecimal forms (whenever they decode to the object). -/
theorem C40_gsrn (u : Str) (x : GSRN) (cs : GSRN.Coding) (f : Fin 8) (n : Option Int) (ty : Option GtinType) (hu : GSRN.new u = .ok x) :
    (∀ t, x.tagUri cs f = .ok t → getGs1Key t n ty = (Scheme.gsrn x).gs1Key ty) ∧
    (∀ b, x.binary cs f = .ok b → GSRN.fromBinary b = .ok x → getGs1Key b n ty = (Scheme.gsrn x).gs1Key ty) ∧
    (∀ h, x.hex cs f = .ok h → GSRN.fromHex h = .ok x → getGs1Key h n ty = (Scheme.gsrn x).gs1Key ty) := by
  refine ⟨?_, key_of_forms (c := .gsrn) (inj := .gsrn) (GSRN.header_mem cs) (fun _ => GSRN.binary_signed) (fun _ => rfl) rfl n ty⟩
  intro t ht
  have h1 : Cls.fromTagUri .gsrn t = .ok (.gsrn x) := by show (GSRN.fromTagUri t).map _ = _; rw [C16_gsrn u x cs f t hu ht]; rfl
  exact C40_tag_uri .gsrn t (.gsrn x) n ty h1 rfl

/-- GSRNP: tag URI (whenever there is one), binary and hexadecimal forms (whenever they decode to the object). -/
theorem C40_gsrnp (u : Str) (x : GSRNP) (cs : GSRNP.Coding) (f : Fin 8) (n : Option Int) (ty : Option GtinType) (hu : GSRNP.new u = .ok x) :
    (∀ t, x.tagUri cs f = .ok t → getGs1Key t n ty = (Scheme.gsrnp x).gs1Key ty) ∧
    (∀ b, x.binary cs f = .ok b → GSRNP.fromBinary b = .ok x → getGs1Key b n ty = (Scheme.gsrnp x).gs1Key ty) ∧
    (∀ h, x.hex cs f = .ok h → GSRNP.fromHex h = .ok x → getGs1Key h n ty = (Scheme.gsrnp x).gs1Key ty) := by
  refine ⟨?_, key_of_forms (c := .gsrnp) (inj := .gsrnp) (GSRNP.header_mem cs) (fun _ => GSRNP.binary_signed) (fun _ => rfl) rfl n ty⟩
  intro t ht
  have h1 : Cls.fromTagUri .gsrnp t = .ok (.gsrnp x) := by show (GSRNP.fromTagUri t).map _ = _; rw [C16_gsrnp u x cs f t hu ht]; rfl
  exact C40_tag_uri .gsrnp t (.gsrnp x) n ty h1 rfl

/-- GDTI: tag URI (whenever there is one), binary and hexadecimal forms (whenever they decode to the object). -/
theorem C40_gdti (u : Str) (x : GDTI) (cs : GDTI.Coding) (f : Fin 8) (n : Option Int) (ty : Option GtinType) (hu : GDTI.new u = .ok x) :
    (∀ t, x.tagUri cs f = .ok t → getGs1Key t n ty = (Scheme.gdti x).gs1Key ty) ∧
    (∀ b, x.binary cs f = .ok b → GDTI.fromBinary b = .ok x → getGs1Key b n ty = (Scheme.gdti x).gs1Key ty) ∧
    (∀ h, x.hex cs f = .ok h → GDTI.fromHex h = .ok x → getGs1Key h n ty = (Scheme.gdti x).gs1Key ty) := by
  refine ⟨?_, key_of_forms (c := .gdti) (inj := .gdti) (GDTI.header_mem cs) (fun _ => GDTI.binary_signed) (fun _ => rfl) rfl n ty⟩
  intro t ht
  have h1 : Cls.fromTagUri .gdti t = .ok (.gdti x) := by show (GDTI.fromTagUri t).map _ = _; rw [C16_gdti u x cs f t hu ht]; rfl
  exact C40_tag_uri .gdti t (.gdti x) n ty h1 rfl

/-- SGCN: tag URI (whenever there is one), binary and hexadecimal forms (whenever they decode to the object). -/
theorem C40_sgcn (u : Str) (x : SGCN) (cs : SGCN.Coding) (f : Fin 8) (n : Option Int) (ty : Option GtinType) (hu : SGCN.new u = .ok x) :
    (∀ t, x.tagUri cs f = .ok t → getGs1Key t n ty = (Scheme.sgcn x).gs1Key ty) ∧
    (∀ b, x.binary cs f = .ok b → SGCN.fromBinary b = .ok x → getGs1Key b n ty = (Scheme.sgcn x).gs1Key ty) ∧
    (∀ h, x.hex cs f = .ok h → SGCN.fromHex h = .ok x → getGs1Key h n ty = (Scheme.sgcn x).gs1Key ty) := by
  refine ⟨?_, key_of_forms (c := .sgcn) (inj := .sgcn) (SGCN.header_mem cs) (fun _ => SGCN.binary_signed) (fun _ => rfl) rfl n ty⟩
  intro t ht
  have h1 : Cls.fromTagUri .sgcn t = .ok (.sgcn x) := by show (SGCN.fromTagUri t).map _ = _; rw [C16_sgcn u x cs f t hu ht]; rfl
  exact C40_tag_uri .sgcn t (.sgcn x) n ty h1 rfl

example : (do
    let x ← SGTIN.new (py "urn:epc:id:sgtin:0614141.812345.6789")
    let t ← x.tagUri .sgtin96 3
    let b ← x.binary .sgtin96 3
    let h ← x.hex .sgtin96 3
    let s ← x.gs1ElementString
    let k ← x.gs1Key .gtin14
    let k1 ← getGs1Key x.epcUri
    let k2 ← getGs1Key t
    let k3 ← getGs1Key b
    let k4 ← getGs1Key h
    let k5 ← getGs1Key s (some 7)
    .ok (k, decide (k1 = k ∧ k2 = k ∧ k3 = k ∧ k4 = k ∧ k5 = k)) : Except Err (Str × Bool)) = .ok (py "80614141123458", true) := by
  decide +kernel
/-- The hypotheses about round trips hold in this case. -/
example : (do
    let x ← SGTIN.new (py "urn:epc:id:sgtin:0614141.812345.6789")
    let y ← SGTIN.fromBinary (← x.binary .sgtin96 3)
    let z ← SGTIN.fromHex (← x.hex .sgtin96 3)
    let w ← SGTIN.fromGs1ElementString (← x.gs1ElementString) 7
    .ok (decide (y = x ∧ z = x ∧ w = x)) : Except Err Bool) = .ok true := by decide +kernel

end Epc
