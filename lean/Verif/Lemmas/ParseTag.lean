/-
Generated by tools/gen_c18.py.  Dispatch of tag URIs to classes.
-/
import Verif.Lemmas.TagForm
import Verif.Model.Parsers

namespace Epc
open Spec Re

theorem map_ok {α β : Type} {e : Except Err α} {f : α → β} {y : β} (h : e.map f = .ok y) : ∃ x, e = .ok x ∧ f x = y := by
  cases e with
  | error e => cases h
  | ok x => exact ⟨x, rfl, by injection h⟩

theorem Cls.mem_all (c : Cls) : c ∈ Cls.all := by cases c <;> decide

theorem Cls.name_facts (c : Cls) : ':' ∉ c.name ∧ '-' ∉ c.name := by cases c <;> decide

theorem Cls.name_inj {c c' : Cls} (h : c.name = c'.name) : c = c' := by
  have : ∀ c ∈ Cls.all, ∀ c' ∈ Cls.all, c.name = c'.name → c = c' := by decide +kernel
  exact this c (mem_all c) c' (mem_all c') h

theorem clsByName_some {p : Cls → Bool} {id : Str} {c : Cls} : clsByName p id = some c ↔ p c = true ∧ c.name = id := by
  unfold clsByName
  constructor
  · intro h
    have := List.find?_some h
    simpa using this
  · rintro ⟨h1, rfl⟩
    cases hf : Cls.all.find? (fun c' => p c' && decide (c'.name = c.name)) with
    | none =>
      have := List.find?_eq_none.1 hf c (Cls.mem_all c)
      simp [h1] at this
    | some c' =>
      have := List.find?_some hf
      simp only [Bool.and_eq_true, decide_eq_true_eq] at this
      rw [Cls.name_inj this.2]

theorem SGTIN.fromTagUri_prefix {t : Str} {x : SGTIN} (h : SGTIN.fromTagUri t = .ok x) :
    ∃ size r, ':' ∉ size ∧ t = tagUriPrefix ++ py "sgtin" ++ '-' :: (size ++ ':' :: r) := by
  obtain ⟨cs, f, b, -, rfl, -⟩ := SGTIN.fromTagUri_iff.1 h
  exact ⟨cs.value.drop 6, f ++ '.' :: b, by cases cs <;> decide, by cases cs <;> simp [SGTIN.Coding.value]⟩

theorem SSCC.fromTagUri_prefix {t : Str} {x : SSCC} (h : SSCC.fromTagUri t = .ok x) :
    ∃ size r, ':' ∉ size ∧ t = tagUriPrefix ++ py "sscc" ++ '-' :: (size ++ ':' :: r) := by
  obtain ⟨cs, f, b, -, rfl, -⟩ := SSCC.fromTagUri_iff.1 h
  exact ⟨cs.value.drop 5, f ++ '.' :: b, by cases cs <;> decide, by cases cs <;> simp [SSCC.Coding.value]⟩

theorem SGLN.fromTagUri_prefix {t : Str} {x : SGLN} (h : SGLN.fromTagUri t = .ok x) :
    ∃ size r, ':' ∉ size ∧ t = tagUriPrefix ++ py "sgln" ++ '-' :: (size ++ ':' :: r) := by
  obtain ⟨cs, f, b, -, rfl, -⟩ := SGLN.fromTagUri_iff.1 h
  exact ⟨cs.value.drop 5, f ++ '.' :: b, by cases cs <;> decide, by cases cs <;> simp [SGLN.Coding.value]⟩

theorem GRAI.fromTagUri_prefix {t : Str} {x : GRAI} (h : GRAI.fromTagUri t = .ok x) :
    ∃ size r, ':' ∉ size ∧ t = tagUriPrefix ++ py "grai" ++ '-' :: (size ++ ':' :: r) := by
  obtain ⟨cs, f, b, -, rfl, -⟩ := GRAI.fromTagUri_iff.1 h
  exact ⟨cs.value.drop 5, f ++ '.' :: b, by cases cs <;> decide, by cases cs <;> simp [GRAI.Coding.value]⟩

theorem GIAI.fromTagUri_prefix {t : Str} {x : GIAI} (h : GIAI.fromTagUri t = .ok x) :
    ∃ size r, ':' ∉ size ∧ t = tagUriPrefix ++ py "giai" ++ '-' :: (size ++ ':' :: r) := by
  obtain ⟨cs, f, b, -, rfl, -⟩ := GIAI.fromTagUri_iff.1 h
  exact ⟨cs.value.drop 5, f ++ '.' :: b, by cases cs <;> decide, by cases cs <;> simp [GIAI.Coding.value]⟩

theorem GSRN.fromTagUri_prefix {t : Str} {x : GSRN} (h : GSRN.fromTagUri t = .ok x) :
    ∃ size r, ':' ∉ size ∧ t = tagUriPrefix ++ py "gsrn" ++ '-' :: (size ++ ':' :: r) := by
  obtain ⟨cs, f, b, -, rfl, -⟩ := GSRN.fromTagUri_iff.1 h
  exact ⟨cs.value.drop 5, f ++ '.' :: b, by cases cs <;> decide, by cases cs <;> simp [GSRN.Coding.value]⟩

theorem GSRNP.fromTagUri_prefix {t : Str} {x : GSRNP} (h : GSRNP.fromTagUri t = .ok x) :
    ∃ size r, ':' ∉ size ∧ t = tagUriPrefix ++ py "gsrnp" ++ '-' :: (size ++ ':' :: r) := by
  obtain ⟨cs, f, b, -, rfl, -⟩ := GSRNP.fromTagUri_iff.1 h
  exact ⟨cs.value.drop 6, f ++ '.' :: b, by cases cs <;> decide, by cases cs <;> simp [GSRNP.Coding.value]⟩

theorem GDTI.fromTagUri_prefix {t : Str} {x : GDTI} (h : GDTI.fromTagUri t = .ok x) :
    ∃ size r, ':' ∉ size ∧ t = tagUriPrefix ++ py "gdti" ++ '-' :: (size ++ ':' :: r) := by
  obtain ⟨cs, f, b, -, rfl, -⟩ := GDTI.fromTagUri_iff.1 h
  exact ⟨cs.value.drop 5, f ++ '.' :: b, by cases cs <;> decide, by cases cs <;> simp [GDTI.Coding.value]⟩

theorem CPI.fromTagUri_prefix {t : Str} {x : CPI} (h : CPI.fromTagUri t = .ok x) :
    ∃ size r, ':' ∉ size ∧ t = tagUriPrefix ++ py "cpi" ++ '-' :: (size ++ ':' :: r) := by
  obtain ⟨cs, f, b, -, rfl, -⟩ := CPI.fromTagUri_iff.1 h
  exact ⟨cs.value.drop 4, f ++ '.' :: b, by cases cs <;> decide, by cases cs <;> simp [CPI.Coding.value]⟩

theorem SGCN.fromTagUri_prefix {t : Str} {x : SGCN} (h : SGCN.fromTagUri t = .ok x) :
    ∃ size r, ':' ∉ size ∧ t = tagUriPrefix ++ py "sgcn" ++ '-' :: (size ++ ':' :: r) := by
  obtain ⟨cs, f, b, -, rfl, -⟩ := SGCN.fromTagUri_iff.1 h
  exact ⟨cs.value.drop 5, f ++ '.' :: b, by cases cs <;> decide, by cases cs <;> simp [SGCN.Coding.value]⟩

theorem ITIP.fromTagUri_prefix {t : Str} {x : ITIP} (h : ITIP.fromTagUri t = .ok x) :
    ∃ size r, ':' ∉ size ∧ t = tagUriPrefix ++ py "itip" ++ '-' :: (size ++ ':' :: r) := by
  obtain ⟨cs, f, b, -, rfl, -⟩ := ITIP.fromTagUri_iff.1 h
  exact ⟨cs.value.drop 5, f ++ '.' :: b, by cases cs <;> decide, by cases cs <;> simp [ITIP.Coding.value]⟩

theorem USDOD.fromTagUri_prefix {t : Str} {x : USDOD} (h : USDOD.fromTagUri t = .ok x) :
    ∃ size r, ':' ∉ size ∧ t = tagUriPrefix ++ py "usdod" ++ '-' :: (size ++ ':' :: r) := by
  obtain ⟨cs, f, b, -, rfl, -⟩ := USDOD.fromTagUri_iff.1 h
  exact ⟨cs.value.drop 6, f ++ '.' :: b, by cases cs <;> decide, by cases cs <;> simp [USDOD.Coding.value]⟩

theorem ADI.fromTagUri_prefix {t : Str} {x : ADI} (h : ADI.fromTagUri t = .ok x) :
    ∃ size r, ':' ∉ size ∧ t = tagUriPrefix ++ py "adi" ++ '-' :: (size ++ ':' :: r) := by
  obtain ⟨cs, f, b, -, rfl, -⟩ := ADI.fromTagUri_iff.1 h
  exact ⟨cs.value.drop 4, f ++ '.' :: b, by cases cs <;> decide, by cases cs <;> simp [ADI.Coding.value]⟩

theorem GID.fromTagUri_prefix {t : Str} {x : GID} (h : GID.fromTagUri t = .ok x) :
    ∃ size r, ':' ∉ size ∧ t = tagUriPrefix ++ py "gid" ++ '-' :: (size ++ ':' :: r) := by
  obtain ⟨b, r, -, rfl, -⟩ := GID.fromTagUri_iff.1 h
  exact ⟨py "96", b ++ r, by decide, by simp [GID.Coding.value]⟩

theorem Cls.fromTagUri_facts {c : Cls} {t : Str} {y : Scheme} (h : c.fromTagUri t = .ok y) :
    y.cls = c ∧ c.isTagEncodable = true ∧ ∃ size r, ':' ∉ size ∧ t = tagUriPrefix ++ c.name ++ '-' :: (size ++ ':' :: r) := by
  cases c <;> first | cases h | skip
  · obtain ⟨x, hx, rfl⟩ := map_ok h; exact ⟨rfl, rfl, ADI.fromTagUri_prefix hx⟩
  · obtain ⟨x, hx, rfl⟩ := map_ok h; exact ⟨rfl, rfl, CPI.fromTagUri_prefix hx⟩
  · obtain ⟨x, hx, rfl⟩ := map_ok h; exact ⟨rfl, rfl, GDTI.fromTagUri_prefix hx⟩
  · obtain ⟨x, hx, rfl⟩ := map_ok h; exact ⟨rfl, rfl, GIAI.fromTagUri_prefix hx⟩
  · obtain ⟨x, hx, rfl⟩ := map_ok h; exact ⟨rfl, rfl, GID.fromTagUri_prefix hx⟩
  · obtain ⟨x, hx, rfl⟩ := map_ok h; exact ⟨rfl, rfl, GRAI.fromTagUri_prefix hx⟩
  · obtain ⟨x, hx, rfl⟩ := map_ok h; exact ⟨rfl, rfl, GSRN.fromTagUri_prefix hx⟩
  · obtain ⟨x, hx, rfl⟩ := map_ok h; exact ⟨rfl, rfl, GSRNP.fromTagUri_prefix hx⟩
  · obtain ⟨x, hx, rfl⟩ := map_ok h; exact ⟨rfl, rfl, ITIP.fromTagUri_prefix hx⟩
  · obtain ⟨x, hx, rfl⟩ := map_ok h; exact ⟨rfl, rfl, SGCN.fromTagUri_prefix hx⟩
  · obtain ⟨x, hx, rfl⟩ := map_ok h; exact ⟨rfl, rfl, SGLN.fromTagUri_prefix hx⟩
  · obtain ⟨x, hx, rfl⟩ := map_ok h; exact ⟨rfl, rfl, SGTIN.fromTagUri_prefix hx⟩
  · obtain ⟨x, hx, rfl⟩ := map_ok h; exact ⟨rfl, rfl, SSCC.fromTagUri_prefix hx⟩
  · obtain ⟨x, hx, rfl⟩ := map_ok h; exact ⟨rfl, rfl, USDOD.fromTagUri_prefix hx⟩

theorem tagUriToTagEncodable_iff (t : Str) (y : Scheme) :
    tagUriToTagEncodable t = .ok y ↔ ∃ c : Cls, c.fromTagUri t = .ok y := by
  constructor
  · intro h
    unfold tagUriToTagEncodable at h
    obtain ⟨part, -, h⟩ := bind_ok_iff.1 h
    obtain ⟨id, -, h⟩ := bind_ok_iff.1 h
    split at h
    · cases h
    · exact ⟨_, h⟩
  · rintro ⟨c, h⟩
    obtain ⟨h1, h2, size, r, hs, ht⟩ := Cls.fromTagUri_facts h
    unfold tagUriToTagEncodable
    have e1 : split ':' t = [py "urn", py "epc", py "tag", c.name ++ '-' :: size] ++ split ':' r := by
      have h3 : ':' ∉ c.name ++ '-' :: size := by
        simp only [List.mem_append, List.mem_cons, not_or]
        exact ⟨(Cls.name_facts c).1, by decide, hs⟩
      have : t = py "urn" ++ ':' :: (py "epc" ++ ':' :: (py "tag" ++ ':' :: ((c.name ++ '-' :: size) ++ ':' :: r))) := by
        rw [ht]; simp [tagUriPrefix]
      rw [this, split_append_sep (by decide), split_append_sep (by decide), split_append_sep (by decide), split_append_sep h3]
      rfl
    rw [getPart_ok (s := c.name ++ '-' :: size) (by rw [e1]; rfl), ok_bind, split_append_sep (Cls.name_facts c).2,
      getPart_ok (s := c.name) rfl, ok_bind, clsByName_some.2 ⟨h2, rfl⟩]
    exact h

end Epc
