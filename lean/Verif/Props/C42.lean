/-
C42: `get_gs1_key` refuses sources without a GS1 key.
-/
import Verif.Lemmas.Dispatch

namespace Epc
open Spec

/-- `get_gs1_key` of the URI of any accepted object: its key if its class has keys, otherwise `ConvertException`. -/
theorem getGs1Key_uri {c : Cls} {u : Str} {x : Scheme} (h : c.new u = .ok x) (n : Option Int) (t : Option GtinType) :
    getGs1Key u n t = if c.isGs1Keyed then x.gs1Key t else .error .convert := by
  obtain ⟨hc, -, hm, -⟩ := Cls.new_facts h
  unfold getGs1Key gs1KeySource
  rw [if_pos (epcUri_of_cls c hm), scheme_of_new h]
  dsimp only
  rw [ok_bind]
  unfold requireCls
  rw [hc]
  cases c.isGs1Keyed <;> rfl

/-- Whatever the company prefix length and the GTIN type. -/
theorem C42_refused (c : Cls) (u : Str) (x : Scheme) (n : Option Int) (t : Option GtinType) (h : c.new u = .ok x)
    (hc : c = .adi ∨ c = .bic ∨ c = .cpi ∨ c = .gid ∨ c = .imovn ∨ c = .itip ∨ c = .upui ∨ c = .usdod) :
    getGs1Key u n t = .error .convert := by
  rw [getGs1Key_uri h]
  rcases hc with rfl | rfl | rfl | rfl | rfl | rfl | rfl | rfl <;> rfl

example : Cls.new .cpi (py "urn:epc:id:cpi:0614141.123ABC.123456789") = .ok (.cpi ⟨py "urn:epc:id:cpi:0614141.123ABC.123456789", py "0614141",
    py "123ABC", py "123456789"⟩) := by decide +kernel
example : getGs1Key (py "urn:epc:id:cpi:0614141.123ABC.123456789") = .error .convert := by decide +kernel

end Epc
