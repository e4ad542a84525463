/-
What is left of /repo/epcpy/epc_schemes/base_scheme.py: equality, the methods the base classes declare, positional arguments of `hex` and
`base64`, and the flag of `from_tag_uri`.
-/
import Verif.Refine.Parsers

namespace Epc.Src
open Epc.Spec

/-- The text of an EPC object, read from the source object. -/
theorem read_epc_uri (L : Level) (x : Scheme) : getAttr L (objScheme x) .epc_uri = .ok (.str x.epcUri) := by cases x <;> rfl

theorem isinstance_scheme (x : Scheme) : builtinCall .isinstance [objScheme x, .cls .EPCScheme] = .ok (.bool true) := by
  cases x <;> rfl

theorem attr_eq (L : Level) (x : Scheme) : getAttr L (objScheme x) .__eq__ = .ok (.bound EPCScheme.__eq__ (objScheme x)) := by cases x <;> rfl

theorem sem_eq (n : Nat) (x y : Scheme) :
    (level (n + 1)).app (.bound EPCScheme.__eq__ (objScheme x)) [objScheme y] [] = .ok (.bool (x.eq y)) := by
  rw [app_bound]
  exe [EPCScheme.__eq__, isinstance_scheme, read_epc_uri, Scheme.eq]
  congr 2
  rw [Bool.eq_iff_iff, beq_iff_eq, decide_eq_true_iff]

theorem sem_eq_other (n : Nat) (x : Scheme) (v : Val) (h : builtinCall .isinstance [v, .cls .EPCScheme] = .ok (.bool false)) :
    (level (n + 1)).app (.bound EPCScheme.__eq__ (objScheme x)) [v] [] = .ok (.bool false) := by
  rw [app_bound]
  exe [EPCScheme.__eq__, h]

theorem hex_args (n : Nat) {c : Cl} {as : List (Nm × Val)} {d : FunDef} {kw : List (Nm × Val)} {b : Except Err Str} (l : List Val)
    (hg : ∀ L, getAttr L (.obj c as) .binary = .ok (.bound d (.obj c as))) (hk : get .self kw = none)
    (h : (level (n + 10)).app (.bound d (.obj c as)) [] kw = (lift b).map .str) :
    (level (n + 11)).app (.bound TagEncodable.hex (.obj c as)) l kw = (lift (hexOf b)).map .str := by
  rw [app_bound]
  exe [TagEncodable.hex, hexOf, hg, hk, h, mod_sixteen, sixteen_sub_mod]

theorem base64_args (n : Nat) {c : Cl} {as : List (Nm × Val)} {kw : List (Nm × Val)} {b : Except Err Str} (l : List Val)
    (hg : ∀ L, getAttr L (.obj c as) .hex = .ok (.bound TagEncodable.hex (.obj c as))) (hk : get .self kw = none)
    (h : (level (n + 11)).app (.bound TagEncodable.hex (.obj c as)) [] kw = (lift (hexOf b)).map .str) :
    (level (n + 12)).app (.bound TagEncodable.base64 (.obj c as)) l kw = (lift (base64Of b)).map .str := by
  rw [app_bound]
  exe [TagEncodable.base64, base64Of, hg, hk, h, sem_hex_to_base64]

/-- The declarations of the base classes raise NotImplementedError. -/
theorem not_implemented (n : Nat) (o : Val) (args : List Val) (kw : List (Nm × Val)) (hk : get .self kw = none) :
    (level (n + 1)).app (.bound TagEncodable.tag_uri o) args kw = .error .notImplemented ∧
    (level (n + 1)).app (.bound TagEncodable.binary o) args kw = .error .notImplemented ∧
    (level (n + 1)).app (.bound GS1Element.gs1_element_string o) args kw = .error .notImplemented ∧
    (level (n + 1)).app (.bound GS1Keyed.gs1_key o) args kw = .error .notImplemented := by
  refine ⟨?_, ?_, ?_, ?_⟩ <;> rw [app_bound] <;>
    exe [TagEncodable.tag_uri, TagEncodable.binary, GS1Element.gs1_element_string, GS1Keyed.gs1_key, hk]

theorem not_implemented_from (n : Nat) (o s k : Val) :
    (level (n + 1)).app (.bound TagEncodable.from_binary o) [s] [] = .error .notImplemented ∧
    (level (n + 1)).app (.bound GS1Element.from_gs1_element_string o) [s, k] [] = .error .notImplemented := ⟨rfl, rfl⟩

end Epc.Src
