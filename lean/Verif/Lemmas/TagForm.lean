/-
Generated by tools/gen_c16.py.  What `tag_uri` returns, when it returns: the body of the pure identity URI behind the name of the
coding scheme and the filter value.
-/
import Verif.Lemmas.Serial

namespace Epc
open Spec Re

theorem SGTIN.tagUri_form {u t : Str} {x : SGTIN} {cs : SGTIN.Coding} {f : Fin 8} (hu : SGTIN.new u = .ok x) (ht : x.tagUri cs f = .ok t) :
    ∃ b, u = py "urn:epc:id:sgtin:" ++ b ∧ t = tagUriPrefix ++ cs.value ++ ':' :: (natStr f ++ '.' :: b) := by
  obtain ⟨_, _, _, _, _, rfl, rfl⟩ := SGTIN.new_iff.1 hu
  unfold tagUri at ht
  obtain ⟨bad, -, ht⟩ := bind_ok_iff.1 ht
  split at ht
  · cases ht
  · injection ht with ht
    subst ht
    exact ⟨_, rfl, by simp [filterStr]⟩

theorem SSCC.tagUri_form {u t : Str} {x : SSCC} {cs : SSCC.Coding} {f : Fin 8} (hu : SSCC.new u = .ok x) (ht : x.tagUri cs f = .ok t) :
    ∃ b, u = py "urn:epc:id:sscc:" ++ b ∧ t = tagUriPrefix ++ cs.value ++ ':' :: (natStr f ++ '.' :: b) := by
  obtain ⟨_, _, _, _, rfl, rfl⟩ := SSCC.new_iff.1 hu
  unfold tagUri at ht
  injection ht with ht
  subst ht
  exact ⟨_, rfl, by simp [filterStr]⟩

theorem SGLN.tagUri_form {u t : Str} {x : SGLN} {cs : SGLN.Coding} {f : Fin 8} (hu : SGLN.new u = .ok x) (ht : x.tagUri cs f = .ok t) :
    ∃ b, u = py "urn:epc:id:sgln:" ++ b ∧ t = tagUriPrefix ++ cs.value ++ ':' :: (natStr f ++ '.' :: b) := by
  obtain ⟨_, _, _, _, _, rfl, rfl⟩ := SGLN.new_iff.1 hu
  unfold tagUri at ht
  obtain ⟨bad, -, ht⟩ := bind_ok_iff.1 ht
  split at ht
  · cases ht
  · injection ht with ht
    subst ht
    exact ⟨_, rfl, by simp [filterStr]⟩

theorem GRAI.tagUri_form {u t : Str} {x : GRAI} {cs : GRAI.Coding} {f : Fin 8} (hu : GRAI.new u = .ok x) (ht : x.tagUri cs f = .ok t) :
    ∃ b, u = py "urn:epc:id:grai:" ++ b ∧ t = tagUriPrefix ++ cs.value ++ ':' :: (natStr f ++ '.' :: b) := by
  obtain ⟨_, _, _, _, _, rfl, rfl⟩ := GRAI.new_iff.1 hu
  unfold tagUri at ht
  obtain ⟨bad, -, ht⟩ := bind_ok_iff.1 ht
  split at ht
  · cases ht
  · injection ht with ht
    subst ht
    exact ⟨_, rfl, by simp [filterStr]⟩

theorem GSRN.tagUri_form {u t : Str} {x : GSRN} {cs : GSRN.Coding} {f : Fin 8} (hu : GSRN.new u = .ok x) (ht : x.tagUri cs f = .ok t) :
    ∃ b, u = py "urn:epc:id:gsrn:" ++ b ∧ t = tagUriPrefix ++ cs.value ++ ':' :: (natStr f ++ '.' :: b) := by
  obtain ⟨_, _, _, _, rfl, rfl⟩ := GSRN.new_iff.1 hu
  unfold tagUri at ht
  injection ht with ht
  subst ht
  exact ⟨_, rfl, by simp [filterStr]⟩

theorem GSRNP.tagUri_form {u t : Str} {x : GSRNP} {cs : GSRNP.Coding} {f : Fin 8} (hu : GSRNP.new u = .ok x) (ht : x.tagUri cs f = .ok t) :
    ∃ b, u = py "urn:epc:id:gsrnp:" ++ b ∧ t = tagUriPrefix ++ cs.value ++ ':' :: (natStr f ++ '.' :: b) := by
  obtain ⟨_, _, _, _, rfl, rfl⟩ := GSRNP.new_iff.1 hu
  unfold tagUri at ht
  injection ht with ht
  subst ht
  exact ⟨_, rfl, by simp [filterStr]⟩

theorem GDTI.tagUri_form {u t : Str} {x : GDTI} {cs : GDTI.Coding} {f : Fin 8} (hu : GDTI.new u = .ok x) (ht : x.tagUri cs f = .ok t) :
    ∃ b, u = py "urn:epc:id:gdti:" ++ b ∧ t = tagUriPrefix ++ cs.value ++ ':' :: (natStr f ++ '.' :: b) := by
  obtain ⟨_, _, _, _, _, rfl, rfl⟩ := GDTI.new_iff.1 hu
  unfold tagUri at ht
  obtain ⟨bad, -, ht⟩ := bind_ok_iff.1 ht
  split at ht
  · cases ht
  · injection ht with ht
    subst ht
    exact ⟨_, rfl, by simp [filterStr]⟩

theorem CPI.tagUri_form {u t : Str} {x : CPI} {cs : CPI.Coding} {f : Fin 8} (hu : CPI.new u = .ok x) (ht : x.tagUri cs f = .ok t) :
    ∃ b, u = py "urn:epc:id:cpi:" ++ b ∧ t = tagUriPrefix ++ cs.value ++ ':' :: (natStr f ++ '.' :: b) := by
  obtain ⟨_, _, _, _, _, rfl, rfl⟩ := CPI.new_iff.1 hu
  unfold tagUri at ht
  obtain ⟨bad, -, ht⟩ := bind_ok_iff.1 ht
  split at ht
  · cases ht
  · injection ht with ht
    subst ht
    exact ⟨_, rfl, by simp [filterStr]⟩

theorem SGCN.tagUri_form {u t : Str} {x : SGCN} {cs : SGCN.Coding} {f : Fin 8} (hu : SGCN.new u = .ok x) (ht : x.tagUri cs f = .ok t) :
    ∃ b, u = py "urn:epc:id:sgcn:" ++ b ∧ t = tagUriPrefix ++ cs.value ++ ':' :: (natStr f ++ '.' :: b) := by
  obtain ⟨_, _, _, _, _, rfl, rfl⟩ := SGCN.new_iff.1 hu
  unfold tagUri at ht
  injection ht with ht
  subst ht
  exact ⟨_, rfl, by simp [filterStr]⟩

theorem ITIP.tagUri_form {u t : Str} {x : ITIP} {cs : ITIP.Coding} {f : Fin 8} (hu : ITIP.new u = .ok x) (ht : x.tagUri cs f = .ok t) :
    ∃ b, u = py "urn:epc:id:itip:" ++ b ∧ t = tagUriPrefix ++ cs.value ++ ':' :: (natStr f ++ '.' :: b) := by
  obtain ⟨_, _, _, _, _, _, _, rfl, rfl⟩ := ITIP.new_iff.1 hu
  unfold tagUri at ht
  obtain ⟨bad, -, ht⟩ := bind_ok_iff.1 ht
  split at ht
  · cases ht
  · injection ht with ht
    subst ht
    exact ⟨_, rfl, by simp [filterStr]⟩

theorem USDOD.tagUri_form {u t : Str} {x : USDOD} {cs : USDOD.Coding} {f : Fin 16} (hu : USDOD.new u = .ok x) (ht : x.tagUri cs f = .ok t) :
    ∃ b, u = py "urn:epc:id:usdod:" ++ b ∧ t = tagUriPrefix ++ cs.value ++ ':' :: (natStr f ++ '.' :: b) := by
  obtain ⟨_, _, _, _, rfl, rfl⟩ := USDOD.new_iff.1 hu
  unfold tagUri at ht
  injection ht with ht
  subst ht
  exact ⟨_, rfl, by simp [filterStr]⟩

theorem ADI.tagUri_form {u t : Str} {x : ADI} {cs : ADI.Coding} {f : Fin 64} (hu : ADI.new u = .ok x) (ht : x.tagUri cs f = .ok t) :
    ∃ b, u = py "urn:epc:id:adi:" ++ b ∧ t = tagUriPrefix ++ cs.value ++ ':' :: (natStr f ++ '.' :: b) := by
  obtain ⟨_, _, _, _, _, rfl, rfl⟩ := ADI.new_iff.1 hu
  unfold tagUri at ht
  injection ht with ht
  subst ht
  exact ⟨_, rfl, by simp [filterStr]⟩

theorem GID.tagUri_form {u t : Str} {x : GID} {cs : GID.Coding} (hu : GID.new u = .ok x) (ht : x.tagUri cs = .ok t) :
    ∃ b, u = py "urn:epc:id:gid:" ++ b ∧ t = tagUriPrefix ++ GID.Coding.value .gid96 ++ ':' :: b := by
  obtain ⟨_, _, _, _, _, rfl, rfl⟩ := GID.new_iff.1 hu
  unfold tagUri at ht
  injection ht with ht
  subst ht
  exact ⟨_, rfl, by simp [GID.Coding.value]⟩

/-- For GIAI the tag URI carries the asset reference up to its first colon. -/
theorem GIAI.tagUri_form {u t : Str} {x : GIAI} {cs : GIAI.Coding} {f : Fin 8} (hu : GIAI.new u = .ok x) (ht : x.tagUri cs f = .ok t) :
    ∃ C S, (C ≠ [] ∧ Dec C) ∧ Lang Rx.gs3a3 S ∧ u = py "urn:epc:id:giai:" ++ (C ++ '.' :: S) ∧ x.companyPref = C ∧ x.assetRef = (split ':' S).headD [] ∧
      t = tagUriPrefix ++ cs.value ++ ':' :: (natStr f ++ '.' :: (C ++ '.' :: (split ':' S).headD [])) := by
  obtain ⟨C, S, ⟨hC, hS⟩, _, rfl, rfl⟩ := GIAI.new_iff.1 hu
  unfold tagUri at ht
  obtain ⟨bad, -, ht⟩ := bind_ok_iff.1 ht
  split at ht
  · cases ht
  · injection ht with ht
    subst ht
    exact ⟨C, S, hC, hS, rfl, rfl, rfl, by simp [filterStr]⟩

end Epc
