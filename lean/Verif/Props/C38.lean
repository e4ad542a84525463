/-
C38: pure identity dispatch.

`Cls.name c` is the lower-case name of class `c`, `c.new u` the constructor, `FourthField u id` (Verif/Spec/Field.lean) says that `id`
is the scheme name written in `u`.
-/
import Verif.Lemmas.Dispatch
import Verif.Spec.Field

namespace Epc
open Spec Re

theorem length_split (c : Char) (s : Str) : (split c s).length = s.count c + 1 := by
  induction s with
  | nil => rfl
  | cons x s ih =>
    by_cases h : x = c
    · subst h; rw [split_cons_sep, List.length_cons, ih, List.count_cons_self]
    · rw [split_cons_ne h, List.count_cons_of_ne h, ← ih]
      cases hs : split c s with
      | nil => exact absurd hs (split_ne_nil c s)
      | cons a l => rfl

theorem exists_sep {c : Char} {s : Str} (h : c ∈ s) : ∃ a b, s = a ++ c :: b ∧ c ∉ a := by
  induction s with
  | nil => cases h
  | cons x s ih =>
    by_cases e : x = c
    · exact ⟨[], s, by rw [e]; rfl, List.not_mem_nil⟩
    · obtain ⟨a, b, rfl, ha⟩ := ih (List.mem_of_ne_of_mem (fun h' => e h'.symm) h)
      refine ⟨x :: a, b, rfl, ?_⟩
      intro hm
      rcases List.mem_cons.1 hm with h1 | h1
      · exact e h1.symm
      · exact ha h1

theorem fourth_split {u id : Str} (h : FourthField u id) : (split ':' u)[3]? = some id := by
  obtain ⟨a, b, d, r, rfl, ha, hb, hd, hi, hr⟩ := h
  rw [split_append_sep ha, split_append_sep hb, split_append_sep hd]
  rcases hr with rfl | ⟨t, rfl⟩
  · rw [List.append_nil, split_notMem hi]; rfl
  · rw [split_append_sep hi]; rfl

/-- The class named in the URI decides: the result, value or exception, is that of its constructor. -/
theorem C38_dispatch (u : Str) (c : Cls) (h : FourthField u c.name) : epcPureIdentityToScheme u = c.new u := by
  rw [scheme_of_part (fourth_split h), clsByName_some.2 ⟨rfl, rfl⟩]

/-- An unknown scheme name is refused. -/
theorem C38_unknown (u id : Str) (h : FourthField u id) (hid : ∀ c : Cls, c.name ≠ id) : epcPureIdentityToScheme u = .error .convert := by
  rw [scheme_of_part (fourth_split h), clsByName_none.2 (fun c _ => hid c)]

/-- A string with fewer than three colons has no scheme name; here the code raises `IndexError`. -/
theorem C38_no_name (u : Str) (h : u.count ':' < 3) : epcPureIdentityToScheme u = .error .index := by
  unfold epcPureIdentityToScheme
  have hl : (split ':' u).length = u.count ':' + 1 := length_split ':' u
  have : (split ':' u)[3]? = Option.none := List.getElem?_eq_none (by omega)
  unfold getPart
  rw [this]
  rfl

/-- These three cases are all there is. -/
theorem C38_cases (u : Str) : (∃ c : Cls, FourthField u c.name) ∨ (∃ id, FourthField u id ∧ ∀ c : Cls, c.name ≠ id) ∨ u.count ':' < 3 := by
  by_cases h : u.count ':' < 3
  · exact .inr (.inr h)
  · have : ∃ id, FourthField u id := by
      obtain ⟨a, u1, e1, ha⟩ := exists_sep (s := u) (c := ':') (List.count_pos_iff.1 (by omega))
      have h1 : u1.count ':' = u.count ':' - 1 := by
        rw [e1, List.count_append, List.count_cons_self, List.count_eq_zero.2 ha]; omega
      obtain ⟨b, u2, e2, hb⟩ := exists_sep (s := u1) (c := ':') (List.count_pos_iff.1 (by omega))
      have h2 : u2.count ':' = u1.count ':' - 1 := by
        rw [e2, List.count_append, List.count_cons_self, List.count_eq_zero.2 hb]; omega
      obtain ⟨d, u3, e3, hd⟩ := exists_sep (s := u2) (c := ':') (List.count_pos_iff.1 (by omega))
      by_cases h4 : ':' ∈ u3
      · obtain ⟨i, u4, e4, hi⟩ := exists_sep h4
        exact ⟨i, a, b, d, ':' :: u4, by rw [e1, e2, e3, e4], ha, hb, hd, hi, .inr ⟨u4, rfl⟩⟩
      · exact ⟨u3, a, b, d, [], by rw [e1, e2, e3, List.append_nil], ha, hb, hd, h4, .inl rfl⟩
    obtain ⟨id, hid⟩ := this
    by_cases hc : ∃ c : Cls, c.name = id
    · obtain ⟨c, rfl⟩ := hc
      exact .inl ⟨c, hid⟩
    · exact .inr (.inl ⟨id, hid, fun c e => hc ⟨c, e⟩⟩)

/-- Every URI that some class accepts is dispatched to that class, and the object has that URI. -/
theorem C38_accepted (c : Cls) (u : Str) (x : Scheme) (h : c.new u = .ok x) :
    epcPureIdentityToScheme u = .ok x ∧ x.epcUri = u ∧ x.cls = c :=
  ⟨scheme_of_new h, (c.new_facts h).2.1, (c.new_facts h).1⟩

/-- Conversely everything it returns is returned by some class, which is unique. -/
theorem C38_returns (u : Str) (x : Scheme) (h : epcPureIdentityToScheme u = .ok x) :
    ∃ c : Cls, c.new u = .ok x ∧ ∀ (c' : Cls) (y : Scheme), c'.new u = .ok y → c' = c ∧ y = x := by
  obtain ⟨c, hc⟩ := scheme_ok_iff.1 h
  exact ⟨c, hc, fun c' y hy => Cls.new_unique hy hc⟩

/-- The three restricted variants: the same object if its class has the property, otherwise `ConvertException`; exceptions pass. -/
theorem C38_variants (u : Str) :
    (∀ x, epcPureIdentityToScheme u = .ok x →
      epcPureIdentityToGs1Element u = (if x.cls.isGs1Element then .ok x else .error .convert) ∧
      epcPureIdentityToGs1Keyed u = (if x.cls.isGs1Keyed then .ok x else .error .convert) ∧
      epcPureIdentityToTagEncodable u = (if x.cls.isTagEncodable then .ok x else .error .convert)) ∧
    (∀ e, epcPureIdentityToScheme u = .error e →
      epcPureIdentityToGs1Element u = .error e ∧ epcPureIdentityToGs1Keyed u = .error e ∧ epcPureIdentityToTagEncodable u = .error e) := by
  unfold epcPureIdentityToGs1Element epcPureIdentityToGs1Keyed epcPureIdentityToTagEncodable
  constructor
  · intro x hx
    simp only [hx, ok_bind, requireCls, and_self]
  · intro e he
    simp only [he, error_bind, and_self]

/-- The two string variants print what the object prints. -/
theorem C38_strings (u : Str) (x : Scheme) (t : Option GtinType) (h : epcPureIdentityToScheme u = .ok x) :
    epcPureIdentityToGs1ElementString u = (if x.cls.isGs1Element then x.gs1ElementString else .error .convert) ∧
    epcPureIdentityToGs1Key u t = (if x.cls.isGs1Keyed then x.gs1Key t else .error .convert) := by
  unfold epcPureIdentityToGs1ElementString epcPureIdentityToGs1Key
  obtain ⟨h1, h2, -⟩ := (C38_variants u).1 x h
  rw [h1, h2]
  constructor
  · cases x.cls.isGs1Element <;> rfl
  · cases x.cls.isGs1Keyed <;> rfl

/-- Which classes these are. -/
theorem C38_classes (c : Cls) :
    (c.isGs1Element = true ↔ c.name ∈ [py "cpi", py "gdti", py "giai", py "ginc", py "grai", py "gsin", py "gsrn", py "gsrnp", py "itip", py "lgtin",
      py "pgln", py "sgcn", py "sgln", py "sgtin", py "sscc", py "upui"]) ∧
    (c.isGs1Keyed = true ↔ c.isGs1Element = true ∧ c.name ∉ [py "cpi", py "itip", py "upui"]) ∧
    (c.isTagEncodable = true ↔ c.name ∉ [py "bic", py "ginc", py "gsin", py "imovn", py "lgtin", py "pgln", py "upui"]) := by
  cases c <;> decide

example : FourthField (py "urn:epc:id:sgtin:0614141.812345.6789") (Cls.name .sgtin) :=
  ⟨py "urn", py "epc", py "id", py ":0614141.812345.6789", rfl, by decide, by decide, by decide, by decide, .inr ⟨_, rfl⟩⟩
example : FourthField (py "urn:epc:id:nope:1") (py "nope") ∧ ∀ c : Cls, c.name ≠ py "nope" :=
  ⟨⟨py "urn", py "epc", py "id", py ":1", rfl, by decide, by decide, by decide, by decide, .inr ⟨_, rfl⟩⟩, by intro c; cases c <;> decide⟩
example : (epcPureIdentityToGs1ElementString (py "urn:epc:id:sscc:0614141.1234567890")) = .ok (py "(00)106141412345678908") := by decide +kernel
example : (epcPureIdentityToGs1Keyed (py "urn:epc:id:gid:31415.271828.1414")) = .error .convert := by decide +kernel

end Epc
