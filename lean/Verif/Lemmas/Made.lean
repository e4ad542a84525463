/-
Every object a parser returns is one that the constructor of its class makes.  Generated by tools/gen_made.py.
-/
import Verif.Lemmas.Dispatch

namespace Epc
open Re

/-- Every result of `r` is a result of `new`. -/
def Made {α : Type} (new : Str → Except Err α) (r : Except Err α) : Prop := ∀ x, r = .ok x → ∃ u, new u = .ok x

theorem Made.new {α : Type} (new : Str → Except Err α) (u : Str) : Made new (new u) := fun _ h => ⟨u, h⟩
theorem Made.error {α : Type} (new : Str → Except Err α) (e : Err) : Made new (.error e) := fun _ h => by cases h
theorem Made.bind {α β : Type} {new : Str → Except Err β} {x : Except Err α} {f : α → Except Err β} (hf : ∀ a, Made new (f a)) :
    Made new (x >>= f) := by
  intro y h
  obtain ⟨a, -, h⟩ := bind_ok_iff.1 h
  exact hf a y h

theorem fromTagUri_made {α : Type} (new : Str → Except Err α) (b : Bool) (t : Str) : Made new (Epc.fromTagUri new b t) := by
  unfold Epc.fromTagUri
  split
  · exact Made.error _ _
  · refine Made.bind fun _ => ?_
    dsimp only
    split <;> exact Made.bind fun _ => Made.bind fun _ => Made.new _ _

theorem ADI.fromBinary_made (b : Str) : Made ADI.new (ADI.fromBinary b) := by
  unfold ADI.fromBinary
  repeat' first
    | exact fromTagUri_made _ _ _
    | (refine Made.bind fun _ => ?_)
    | split

theorem CPI.fromBinary_made (b : Str) : Made CPI.new (CPI.fromBinary b) := by
  unfold CPI.fromBinary
  repeat' first
    | exact fromTagUri_made _ _ _
    | (refine Made.bind fun _ => ?_)
    | split

theorem GDTI.fromBinary_made (b : Str) : Made GDTI.new (GDTI.fromBinary b) := by
  unfold GDTI.fromBinary
  repeat' first
    | exact fromTagUri_made _ _ _
    | (refine Made.bind fun _ => ?_)
    | split

theorem GIAI.fromBinary_made (b : Str) : Made GIAI.new (GIAI.fromBinary b) := by
  unfold GIAI.fromBinary
  repeat' first
    | exact fromTagUri_made _ _ _
    | (refine Made.bind fun _ => ?_)
    | split

theorem GID.fromBinary_made (b : Str) : Made GID.new (GID.fromBinary b) := by
  unfold GID.fromBinary
  repeat' first
    | exact fromTagUri_made _ _ _
    | (refine Made.bind fun _ => ?_)
    | split

theorem GRAI.fromBinary_made (b : Str) : Made GRAI.new (GRAI.fromBinary b) := by
  unfold GRAI.fromBinary
  repeat' first
    | exact fromTagUri_made _ _ _
    | (refine Made.bind fun _ => ?_)
    | split

theorem GSRN.fromBinary_made (b : Str) : Made GSRN.new (GSRN.fromBinary b) := by
  unfold GSRN.fromBinary
  repeat' first
    | exact fromTagUri_made _ _ _
    | (refine Made.bind fun _ => ?_)
    | split

theorem GSRNP.fromBinary_made (b : Str) : Made GSRNP.new (GSRNP.fromBinary b) := by
  unfold GSRNP.fromBinary
  repeat' first
    | exact fromTagUri_made _ _ _
    | (refine Made.bind fun _ => ?_)
    | split

theorem ITIP.fromBinary_made (b : Str) : Made ITIP.new (ITIP.fromBinary b) := by
  unfold ITIP.fromBinary
  repeat' first
    | exact fromTagUri_made _ _ _
    | (refine Made.bind fun _ => ?_)
    | split

theorem SGCN.fromBinary_made (b : Str) : Made SGCN.new (SGCN.fromBinary b) := by
  unfold SGCN.fromBinary
  repeat' first
    | exact fromTagUri_made _ _ _
    | (refine Made.bind fun _ => ?_)
    | split

theorem SGLN.fromBinary_made (b : Str) : Made SGLN.new (SGLN.fromBinary b) := by
  unfold SGLN.fromBinary
  repeat' first
    | exact fromTagUri_made _ _ _
    | (refine Made.bind fun _ => ?_)
    | split

theorem SGTIN.fromBinary_made (b : Str) : Made SGTIN.new (SGTIN.fromBinary b) := by
  unfold SGTIN.fromBinary
  repeat' first
    | exact fromTagUri_made _ _ _
    | (refine Made.bind fun _ => ?_)
    | split

theorem SSCC.fromBinary_made (b : Str) : Made SSCC.new (SSCC.fromBinary b) := by
  unfold SSCC.fromBinary
  repeat' first
    | exact fromTagUri_made _ _ _
    | (refine Made.bind fun _ => ?_)
    | split

theorem USDOD.fromBinary_made (b : Str) : Made USDOD.new (USDOD.fromBinary b) := by
  unfold USDOD.fromBinary
  repeat' first
    | exact fromTagUri_made _ _ _
    | (refine Made.bind fun _ => ?_)
    | split

theorem CPI.fromElem_made (s : Str) (n : Int) : Made CPI.new (CPI.fromGs1ElementString s n) := by
  unfold CPI.fromGs1ElementString
  repeat' first
    | exact Made.new _ _
    | exact Made.error _ _
    | (refine Made.bind fun _ => ?_)
    | split

theorem GDTI.fromElem_made (s : Str) (n : Int) : Made GDTI.new (GDTI.fromGs1ElementString s n) := by
  unfold GDTI.fromGs1ElementString
  repeat' first
    | exact Made.new _ _
    | exact Made.error _ _
    | (refine Made.bind fun _ => ?_)
    | split

theorem GIAI.fromElem_made (s : Str) (n : Int) : Made GIAI.new (GIAI.fromGs1ElementString s n) := by
  unfold GIAI.fromGs1ElementString
  repeat' first
    | exact Made.new _ _
    | exact Made.error _ _
    | (refine Made.bind fun _ => ?_)
    | split

theorem GINC.fromElem_made (s : Str) (n : Int) : Made GINC.new (GINC.fromGs1ElementString s n) := by
  unfold GINC.fromGs1ElementString
  repeat' first
    | exact Made.new _ _
    | exact Made.error _ _
    | (refine Made.bind fun _ => ?_)
    | split

theorem GRAI.fromElem_made (s : Str) (n : Int) : Made GRAI.new (GRAI.fromGs1ElementString s n) := by
  unfold GRAI.fromGs1ElementString
  repeat' first
    | exact Made.new _ _
    | exact Made.error _ _
    | (refine Made.bind fun _ => ?_)
    | split

theorem GSIN.fromElem_made (s : Str) (n : Int) : Made GSIN.new (GSIN.fromGs1ElementString s n) := by
  unfold GSIN.fromGs1ElementString
  repeat' first
    | exact Made.new _ _
    | exact Made.error _ _
    | (refine Made.bind fun _ => ?_)
    | split

theorem GSRN.fromElem_made (s : Str) (n : Int) : Made GSRN.new (GSRN.fromGs1ElementString s n) := by
  unfold GSRN.fromGs1ElementString
  repeat' first
    | exact Made.new _ _
    | exact Made.error _ _
    | (refine Made.bind fun _ => ?_)
    | split

theorem GSRNP.fromElem_made (s : Str) (n : Int) : Made GSRNP.new (GSRNP.fromGs1ElementString s n) := by
  unfold GSRNP.fromGs1ElementString
  repeat' first
    | exact Made.new _ _
    | exact Made.error _ _
    | (refine Made.bind fun _ => ?_)
    | split

theorem ITIP.fromElem_made (s : Str) (n : Int) : Made ITIP.new (ITIP.fromGs1ElementString s n) := by
  unfold ITIP.fromGs1ElementString
  repeat' first
    | exact Made.new _ _
    | exact Made.error _ _
    | (refine Made.bind fun _ => ?_)
    | split

theorem LGTIN.fromElem_made (s : Str) (n : Int) : Made LGTIN.new (LGTIN.fromGs1ElementString s n) := by
  unfold LGTIN.fromGs1ElementString
  repeat' first
    | exact Made.new _ _
    | exact Made.error _ _
    | (refine Made.bind fun _ => ?_)
    | split

theorem PGLN.fromElem_made (s : Str) (n : Int) : Made PGLN.new (PGLN.fromGs1ElementString s n) := by
  unfold PGLN.fromGs1ElementString
  repeat' first
    | exact Made.new _ _
    | exact Made.error _ _
    | (refine Made.bind fun _ => ?_)
    | split

theorem SGCN.fromElem_made (s : Str) (n : Int) : Made SGCN.new (SGCN.fromGs1ElementString s n) := by
  unfold SGCN.fromGs1ElementString
  repeat' first
    | exact Made.new _ _
    | exact Made.error _ _
    | (refine Made.bind fun _ => ?_)
    | split

theorem SGLN.fromElem_made (s : Str) (n : Int) : Made SGLN.new (SGLN.fromGs1ElementString s n) := by
  unfold SGLN.fromGs1ElementString
  repeat' first
    | exact Made.new _ _
    | exact Made.error _ _
    | (refine Made.bind fun _ => ?_)
    | split

theorem SGTIN.fromElem_made (s : Str) (n : Int) : Made SGTIN.new (SGTIN.fromGs1ElementString s n) := by
  unfold SGTIN.fromGs1ElementString
  repeat' first
    | exact Made.new _ _
    | exact Made.error _ _
    | (refine Made.bind fun _ => ?_)
    | split

theorem SSCC.fromElem_made (s : Str) (n : Int) : Made SSCC.new (SSCC.fromGs1ElementString s n) := by
  unfold SSCC.fromGs1ElementString
  repeat' first
    | exact Made.new _ _
    | exact Made.error _ _
    | (refine Made.bind fun _ => ?_)
    | split

theorem UPUI.fromElem_made (s : Str) (n : Int) : Made UPUI.new (UPUI.fromGs1ElementString s n) := by
  unfold UPUI.fromGs1ElementString
  repeat' first
    | exact Made.new _ _
    | exact Made.error _ _
    | (refine Made.bind fun _ => ?_)
    | split

theorem Made.cls {α : Type} {c : Cls} {new : Str → Except Err α} {inj : α → Scheme} (hc : ∀ u, c.new u = (new u).map inj) {r : Except Err α}
    (h : Made new r) {x : Scheme} (hx : r.map inj = .ok x) : c.new x.epcUri = .ok x ∧ x.cls = c := by
  obtain ⟨a, ha, rfl⟩ := map_ok_iff.1 hx
  obtain ⟨u, hu⟩ := h a ha
  have : c.new u = .ok (inj a) := by rw [hc, hu]; rfl
  obtain ⟨h1, h2, -⟩ := Cls.new_facts this
  exact ⟨by rw [h2]; exact this, h1⟩

theorem Cls.fromTagUri_made {c : Cls} {t : Str} {x : Scheme} (h : c.fromTagUri t = .ok x) : c.new x.epcUri = .ok x ∧ x.cls = c := by
  cases c
  · exact Made.cls (fun _ => rfl) (Epc.fromTagUri_made ADI.new _ t) h
  · cases h
  · exact Made.cls (fun _ => rfl) (Epc.fromTagUri_made CPI.new _ t) h
  · exact Made.cls (fun _ => rfl) (Epc.fromTagUri_made GDTI.new _ t) h
  · exact Made.cls (fun _ => rfl) (Epc.fromTagUri_made GIAI.new _ t) h
  · exact Made.cls (fun _ => rfl) (Epc.fromTagUri_made GID.new _ t) h
  · cases h
  · exact Made.cls (fun _ => rfl) (Epc.fromTagUri_made GRAI.new _ t) h
  · cases h
  · exact Made.cls (fun _ => rfl) (Epc.fromTagUri_made GSRN.new _ t) h
  · exact Made.cls (fun _ => rfl) (Epc.fromTagUri_made GSRNP.new _ t) h
  · cases h
  · exact Made.cls (fun _ => rfl) (Epc.fromTagUri_made ITIP.new _ t) h
  · cases h
  · cases h
  · exact Made.cls (fun _ => rfl) (Epc.fromTagUri_made SGCN.new _ t) h
  · exact Made.cls (fun _ => rfl) (Epc.fromTagUri_made SGLN.new _ t) h
  · exact Made.cls (fun _ => rfl) (Epc.fromTagUri_made SGTIN.new _ t) h
  · exact Made.cls (fun _ => rfl) (Epc.fromTagUri_made SSCC.new _ t) h
  · cases h
  · exact Made.cls (fun _ => rfl) (Epc.fromTagUri_made USDOD.new _ t) h

theorem Cls.fromBinary_made {c : Cls} {t : Str} {x : Scheme} (h : c.fromBinary t = .ok x) : c.new x.epcUri = .ok x ∧ x.cls = c := by
  cases c
  · exact Made.cls (fun _ => rfl) (ADI.fromBinary_made t) h
  · cases h
  · exact Made.cls (fun _ => rfl) (CPI.fromBinary_made t) h
  · exact Made.cls (fun _ => rfl) (GDTI.fromBinary_made t) h
  · exact Made.cls (fun _ => rfl) (GIAI.fromBinary_made t) h
  · exact Made.cls (fun _ => rfl) (GID.fromBinary_made t) h
  · cases h
  · exact Made.cls (fun _ => rfl) (GRAI.fromBinary_made t) h
  · cases h
  · exact Made.cls (fun _ => rfl) (GSRN.fromBinary_made t) h
  · exact Made.cls (fun _ => rfl) (GSRNP.fromBinary_made t) h
  · cases h
  · exact Made.cls (fun _ => rfl) (ITIP.fromBinary_made t) h
  · cases h
  · cases h
  · exact Made.cls (fun _ => rfl) (SGCN.fromBinary_made t) h
  · exact Made.cls (fun _ => rfl) (SGLN.fromBinary_made t) h
  · exact Made.cls (fun _ => rfl) (SGTIN.fromBinary_made t) h
  · exact Made.cls (fun _ => rfl) (SSCC.fromBinary_made t) h
  · cases h
  · exact Made.cls (fun _ => rfl) (USDOD.fromBinary_made t) h

theorem Cls.fromElem_made {c : Cls} {s : Str} {n : Int} {x : Scheme} (h : c.fromGs1ElementString s n = .ok x) : c.new x.epcUri = .ok x ∧ x.cls = c := by
  cases c
  · cases h
  · cases h
  · exact Made.cls (fun _ => rfl) (CPI.fromElem_made s n) h
  · exact Made.cls (fun _ => rfl) (GDTI.fromElem_made s n) h
  · exact Made.cls (fun _ => rfl) (GIAI.fromElem_made s n) h
  · cases h
  · exact Made.cls (fun _ => rfl) (GINC.fromElem_made s n) h
  · exact Made.cls (fun _ => rfl) (GRAI.fromElem_made s n) h
  · exact Made.cls (fun _ => rfl) (GSIN.fromElem_made s n) h
  · exact Made.cls (fun _ => rfl) (GSRN.fromElem_made s n) h
  · exact Made.cls (fun _ => rfl) (GSRNP.fromElem_made s n) h
  · cases h
  · exact Made.cls (fun _ => rfl) (ITIP.fromElem_made s n) h
  · exact Made.cls (fun _ => rfl) (LGTIN.fromElem_made s n) h
  · exact Made.cls (fun _ => rfl) (PGLN.fromElem_made s n) h
  · exact Made.cls (fun _ => rfl) (SGCN.fromElem_made s n) h
  · exact Made.cls (fun _ => rfl) (SGLN.fromElem_made s n) h
  · exact Made.cls (fun _ => rfl) (SGTIN.fromElem_made s n) h
  · exact Made.cls (fun _ => rfl) (SSCC.fromElem_made s n) h
  · exact Made.cls (fun _ => rfl) (UPUI.fromElem_made s n) h
  · cases h

end Epc
