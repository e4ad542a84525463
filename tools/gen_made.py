"""Generate lean/Verif/Lemmas/Made.lean: every object a parser returns is an object its class's constructor makes."""
ALL = "ADI BIC CPI GDTI GIAI GID GINC GRAI GSIN GSRN GSRNP IMOVN ITIP LGTIN PGLN SGCN SGLN SGTIN SSCC UPUI USDOD".split()
TAG = "ADI CPI GDTI GIAI GID GRAI GSRN GSRNP ITIP SGCN SGLN SGTIN SSCC USDOD".split()
ELEM = "CPI GDTI GIAI GINC GRAI GSIN GSRN GSRNP ITIP LGTIN PGLN SGCN SGLN SGTIN SSCC UPUI".split()
out = ['''/-
Every object a parser returns is one that the constructor of its class makes.  Generated by tools/gen_made.py.
-/
import Verif.Lemmas.Dispatch

namespace Epc
open Re

/-- Every result of `r` is a result of `new`. -/
def Made {α : Type} (new : Str → Except Err α) (r : Except Err α) : Prop := ∀ x, r = .ok x → ∃ u, new u = .ok x

theorem Made.new {α : Type} (new : Str → Except Err α) (u : Str) : Made new (new u) := fun _ h => ⟨u, h⟩
theorem Made.error {α : Type} (new : Str → Except Err α) (e : Err) : Made new (.error e) := fun _ h => by cases h
theorem Made.bind {α β : Type} {new : Str → Except Err β} {x : Except Err α} {f : α → Except Err β} (hf : ∀ a, Made new (f a)) :
    Made new (x >>= f) := by
  intro y h
  obtain ⟨a, -, h⟩ := bind_ok_iff.1 h
  exact hf a y h

theorem fromTagUri_made {α : Type} (new : Str → Except Err α) (b : Bool) (t : Str) : Made new (Epc.fromTagUri new b t) := by
  unfold Epc.fromTagUri
  split
  · exact Made.error _ _
  · refine Made.bind fun _ => ?_
    dsimp only
    split <;> exact Made.bind fun _ => Made.bind fun _ => Made.new _ _
''']
W = out.append
for c in TAG:
    W(f'''theorem {c}.fromBinary_made (b : Str) : Made {c}.new ({c}.fromBinary b) := by
  unfold {c}.fromBinary
  repeat' first
    | exact fromTagUri_made _ _ _
    | (refine Made.bind fun _ => ?_)
    | split
''')
for c in ELEM:
    W(f'''theorem {c}.fromElem_made (s : Str) (n : Int) : Made {c}.new ({c}.fromGs1ElementString s n) := by
  unfold {c}.fromGs1ElementString
  repeat' first
    | exact Made.new _ _
    | exact Made.error _ _
    | (refine Made.bind fun _ => ?_)
    | split
''')
W('''theorem Made.cls {α : Type} {c : Cls} {new : Str → Except Err α} {inj : α → Scheme} (hc : ∀ u, c.new u = (new u).map inj) {r : Except Err α}
    (h : Made new r) {x : Scheme} (hx : r.map inj = .ok x) : c.new x.epcUri = .ok x ∧ x.cls = c := by
  obtain ⟨a, ha, rfl⟩ := map_ok_iff.1 hx
  obtain ⟨u, hu⟩ := h a ha
  have : c.new u = .ok (inj a) := by rw [hc, hu]; rfl
  obtain ⟨h1, h2, -⟩ := Cls.new_facts this
  exact ⟨by rw [h2]; exact this, h1⟩
''')
W("theorem Cls.fromTagUri_made {c : Cls} {t : Str} {x : Scheme} (h : c.fromTagUri t = .ok x) : c.new x.epcUri = .ok x ∧ x.cls = c := by\n  cases c")
for c in ALL:
    W(f"  · exact Made.cls (fun _ => rfl) (Epc.fromTagUri_made {c}.new _ t) h" if c in TAG else "  · cases h")
W("\ntheorem Cls.fromBinary_made {c : Cls} {t : Str} {x : Scheme} (h : c.fromBinary t = .ok x) : c.new x.epcUri = .ok x ∧ x.cls = c := by\n  cases c")
for c in ALL:
    W(f"  · exact Made.cls (fun _ => rfl) ({c}.fromBinary_made t) h" if c in TAG else "  · cases h")
W("\ntheorem Cls.fromElem_made {c : Cls} {s : Str} {n : Int} {x : Scheme} (h : c.fromGs1ElementString s n = .ok x) : c.new x.epcUri = .ok x ∧ x.cls = c := by\n  cases c")
for c in ALL:
    W(f"  · exact Made.cls (fun _ => rfl) ({c}.fromElem_made s n) h" if c in ELEM else "  · cases h")
open("/verif/lean/Verif/Lemmas/Made.lean", "w").write("\n".join(out) + "\n\nend Epc\n")
