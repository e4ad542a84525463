/-
C86: the methods of the classes.

`PyCls`: the scheme classes, their base classes and `object`; `dispatch c fuel m`: what becomes of the call of the method `m` of an object of
class `c` (`fuel`: how many methods of the object are called in turn, at most three: `base64`, `hex`, `binary`); `Derives` (`Spec/Class`):
derivation of classes through their base classes.
-/
import Verif.Lemmas.Class

namespace Epc
open Spec

/-- `issubclass` is derivation. -/
theorem C86_subclass (c d : PyCls) : c.issubclass d = true ↔ Derives (fun c : PyCls => c.stmt.bases) c d := by
  rw [PyCls.issubclass, List.contains_iff_mem]
  exact mro_mem c.mro_some d

/-- The three families of classes the library distinguishes. -/
theorem C86_families (c : Cls) :
    (c.isTagEncodable = true ↔ Derives (fun c : PyCls => c.stmt.bases) (.scheme c) .tagEncodable) ∧
    (c.isGs1Element = true ↔ Derives (fun c : PyCls => c.stmt.bases) (.scheme c) .gs1Element) ∧
    (c.isGs1Keyed = true ↔ Derives (fun c : PyCls => c.stmt.bases) (.scheme c) .gs1Keyed) := by
  rw [← C86_subclass, ← C86_subclass, ← C86_subclass]
  revert c
  have : ∀ c ∈ Cls.all, (c.isTagEncodable = true ↔ (PyCls.scheme c).issubclass .tagEncodable = true) ∧
      (c.isGs1Element = true ↔ (PyCls.scheme c).issubclass .gs1Element = true) ∧
      (c.isGs1Keyed = true ↔ (PyCls.scheme c).issubclass .gs1Keyed = true) := by decide +kernel
  exact fun c => this c (Cls.mem_all c)

/-- Methods of tags. -/
theorem C86_tag (c : Cls) (m : Str) :
    (m ∈ [py "tag_uri", py "binary", py "from_binary"] →
      (PyCls.scheme c).dispatch 3 m = if c.isTagEncodable = true then .runs (.scheme c) else .attributeError) ∧
    (m ∈ [py "hex", py "base64", py "from_hex", py "from_base64"] →
      (PyCls.scheme c).dispatch 3 m = if c.isTagEncodable = true then .runs .tagEncodable else .attributeError) ∧
    (m = py "from_tag_uri" →
      (PyCls.scheme c).dispatch 3 m = if c = .gid then .runs (.scheme .gid) else if c.isTagEncodable = true then .runs .tagEncodable else .attributeError) := by
  have key : ∀ c ∈ Cls.all,
      (∀ m ∈ [py "tag_uri", py "binary", py "from_binary"],
        (PyCls.scheme c).dispatch 3 m = if c.isTagEncodable = true then .runs (.scheme c) else .attributeError) ∧
      (∀ m ∈ [py "hex", py "base64", py "from_hex", py "from_base64"],
        (PyCls.scheme c).dispatch 3 m = if c.isTagEncodable = true then .runs .tagEncodable else .attributeError) ∧
      (PyCls.scheme c).dispatch 3 (py "from_tag_uri") =
        if c = .gid then .runs (.scheme .gid) else if c.isTagEncodable = true then .runs .tagEncodable else .attributeError := by
    decide +kernel
  obtain ⟨h1, h2, h3⟩ := key c (Cls.mem_all c)
  exact ⟨fun h => h1 m h, fun h => h2 m h, fun h => h ▸ h3⟩

/-- Methods of GS1 identifiers, and the one of all. -/
theorem C86_gs1 (c : Cls) (m : Str) :
    (m ∈ [py "gs1_element_string", py "from_gs1_element_string"] →
      (PyCls.scheme c).dispatch 3 m = if c.isGs1Element = true then .runs (.scheme c) else .attributeError) ∧
    (m = py "gs1_key" → (PyCls.scheme c).dispatch 3 m = if c.isGs1Keyed = true then .runs (.scheme c) else .attributeError) ∧
    (m = py "from_epc_uri" → (PyCls.scheme c).dispatch 3 m = .runs .epcScheme) := by
  have key : ∀ c ∈ Cls.all,
      (∀ m ∈ [py "gs1_element_string", py "from_gs1_element_string"],
        (PyCls.scheme c).dispatch 3 m = if c.isGs1Element = true then .runs (.scheme c) else .attributeError) ∧
      ((PyCls.scheme c).dispatch 3 (py "gs1_key") = if c.isGs1Keyed = true then .runs (.scheme c) else .attributeError) ∧
      (PyCls.scheme c).dispatch 3 (py "from_epc_uri") = .runs .epcScheme := by
    decide +kernel
  obtain ⟨h1, h2, h3⟩ := key c (Cls.mem_all c)
  exact ⟨fun h => h1 m h, fun h => h ▸ h2, fun h => h ▸ h3⟩

/-- Whatever method is called of an object of a scheme class, NotImplementedError is not raised. -/
theorem C86_implemented (c : Cls) (m : Str) : (PyCls.scheme c).dispatch 3 m ≠ .notImplemented := by
  have key : ∀ c ∈ Cls.all, ∀ m ∈ [py "tag_uri", py "binary", py "from_binary", py "gs1_element_string", py "from_gs1_element_string", py "gs1_key",
      py "hex", py "base64", py "from_hex", py "from_base64"], (PyCls.scheme c).dispatch 3 m ≠ .notImplemented := by decide +kernel
  by_cases hm : m ∈ [py "tag_uri", py "binary", py "from_binary", py "gs1_element_string", py "from_gs1_element_string", py "gs1_key"] ++
      [py "hex", py "base64", py "from_hex", py "from_base64"]
  · exact key c (Cls.mem_all c) m hm
  · rw [List.mem_append, not_or] at hm
    unfold PyCls.dispatch
    split
    · intro h; cases h
    · rename_i d b _
      split
      · rename_i hs; exact absurd (stub_names hs) hm.1
      · split
        · intro h; cases h
        · rename_i m' hn; exact absurd (next_names hn) hm.2

/-- Constructing an object runs the `__init__` of each base class once: they assign the URI, and for tags the four caches. -/
theorem C86_init (c : Cls) :
    (PyCls.scheme c).baseAttributes =
      py "epc_uri" :: if c.isTagEncodable = true then [py "_base64", py "_binary", py "_hex", py "_tag_uri"] else [] := by
  have key : ∀ c ∈ Cls.all, (PyCls.scheme c).baseAttributes =
      py "epc_uri" :: if c.isTagEncodable = true then [py "_base64", py "_binary", py "_hex", py "_tag_uri"] else [] := by decide +kernel
  exact key c (Cls.mem_all c)

/-- The method resolution orders of the kinds of classes there are. -/
example : (PyCls.scheme .sgtin).mro = [.scheme .sgtin, .tagEncodable, .gs1Keyed, .gs1Element, .epcScheme, .object] ∧
    (PyCls.scheme .cpi).mro = [.scheme .cpi, .gs1Element, .tagEncodable, .epcScheme, .object] := by decide +kernel

/-- The stubs of the base classes do raise NotImplementedError. -/
example : PyCls.dispatch .tagEncodable 3 (py "base64") = .notImplemented ∧ PyCls.dispatch .gs1Keyed 3 (py "gs1_element_string") = .notImplemented := by
  decide +kernel

end Epc
