/-
C57: a tag URI determines the class, the coding scheme, the filter value and the EPC it was made from.

The tag URIs of accepted objects are read back by the general parser as that very object (so objects of different classes never share a tag URI),
and two accepted objects of a class with the same tag URI are equal and were printed with the same coding scheme and filter value.
For GIAI this needs an asset reference without colon; without that condition the coding scheme, the filter value and the two components that
tag_uri prints are determined (C57_giai_partial) and the object is not (C57_giai_claim_false).
Generated by tools/gen_c57.py.
-/
import Verif.Props.C16
import Verif.Lemmas.ParseTag
import Verif.Lemmas.TagForm

namespace Epc
open Spec Re

private theorem sep_inj {s : Char} : ∀ {a a' b b' : Str}, s ∉ a → s ∉ a' → a ++ s :: b = a' ++ s :: b' → a = a' ∧ b = b'
  | [], [], _, _, _, _, h => by simp at h; exact ⟨rfl, h⟩
  | [], c :: _, _, _, _, h', h => by simp at h; exact absurd h.1 (fun e => h' (by simp [e]))
  | c :: _, [], _, _, h', _, h => by simp at h; exact absurd h.1 (fun e => h' (by simp [e]))
  | c :: a, d :: a', _, _, h1, h2, h => by
    simp at h h1 h2
    obtain ⟨e1, e2⟩ := sep_inj h1.2 h2.2 h.2
    exact ⟨by rw [h.1, e1], e2⟩

private theorem value_split {n n' a a' : Str} (hn : ':' ∉ n) (hn' : ':' ∉ n') (h : tagUriPrefix ++ n ++ ':' :: a = tagUriPrefix ++ n' ++ ':' :: a') :
    n = n' ∧ a = a' := by
  rw [List.append_assoc, List.append_assoc, List.append_cancel_left_eq] at h
  exact sep_inj hn hn' h

private theorem filter_split {f g : Nat} {b b' : Str} (h : natStr f ++ '.' :: b = natStr g ++ '.' :: b') : f = g ∧ b = b' := by
  have hd : ∀ n, '.' ∉ natStr n := fun n hm => absurd (Digits_natStr n '.' hm) (by decide)
  obtain ⟨h1, h2⟩ := sep_inj (hd f) (hd g) h
  exact ⟨by rw [← number_natStr f, ← number_natStr g, h1], h2⟩

/-- SGTIN. -/
theorem C57_sgtin (u : Str) (x : SGTIN) (cs : SGTIN.Coding) (f : Fin 8) (t : Str) (hu : SGTIN.new u = .ok x) (ht : x.tagUri cs f = .ok t) :
    tagUriToTagEncodable t = .ok (.sgtin x) ∧
    ∀ (v : Str) (y : SGTIN) (cs' : SGTIN.Coding) (g : Fin 8), SGTIN.new v = .ok y → y.tagUri cs' g = .ok t → cs' = cs ∧ g = f ∧ y = x := by
  constructor
  · refine (tagUriToTagEncodable_iff t _).2 ⟨.sgtin, ?_⟩
    show (SGTIN.fromTagUri t).map Scheme.sgtin = _
    rw [C16_sgtin u x cs f t hu ht]; rfl
  · intro v y cs' g hv hy
    obtain ⟨b, rfl, rfl⟩ := SGTIN.tagUri_form hu ht
    obtain ⟨b', rfl, e⟩ := SGTIN.tagUri_form hv hy
    have hc : ∀ c : SGTIN.Coding, ':' ∉ c.value := by intro c; cases c <;> decide
    obtain ⟨e1, e2⟩ := value_split (hc _) (hc _) e
    obtain ⟨e3, rfl⟩ := filter_split e2
    refine ⟨?_, (Fin.ext e3).symm, ?_⟩
    · revert e1; cases cs <;> cases cs' <;> decide
    · rw [hu] at hv; injection hv with hv; exact hv.symm

example : ((SGTIN.new (py "urn:epc:id:sgtin:9521141.012345.32a%2Fb")).bind fun x => x.tagUri .sgtin198 3).isOk = true := by decide +kernel

/-- SSCC. -/
theorem C57_sscc (u : Str) (x : SSCC) (cs : SSCC.Coding) (f : Fin 8) (t : Str) (hu : SSCC.new u = .ok x) (ht : x.tagUri cs f = .ok t) :
    tagUriToTagEncodable t = .ok (.sscc x) ∧
    ∀ (v : Str) (y : SSCC) (cs' : SSCC.Coding) (g : Fin 8), SSCC.new v = .ok y → y.tagUri cs' g = .ok t → cs' = cs ∧ g = f ∧ y = x := by
  constructor
  · refine (tagUriToTagEncodable_iff t _).2 ⟨.sscc, ?_⟩
    show (SSCC.fromTagUri t).map Scheme.sscc = _
    rw [C16_sscc u x cs f t hu ht]; rfl
  · intro v y cs' g hv hy
    obtain ⟨b, rfl, rfl⟩ := SSCC.tagUri_form hu ht
    obtain ⟨b', rfl, e⟩ := SSCC.tagUri_form hv hy
    have hc : ∀ c : SSCC.Coding, ':' ∉ c.value := by intro c; cases c <;> decide
    obtain ⟨e1, e2⟩ := value_split (hc _) (hc _) e
    obtain ⟨e3, rfl⟩ := filter_split e2
    refine ⟨?_, (Fin.ext e3).symm, ?_⟩
    · revert e1; cases cs <;> cases cs' <;> decide
    · rw [hu] at hv; injection hv with hv; exact hv.symm

example : ((SSCC.new (py "urn:epc:id:sscc:9521141.1234567890")).bind fun x => x.tagUri .sscc96 3).isOk = true := by decide +kernel

/-- SGLN. -/
theorem C57_sgln (u : Str) (x : SGLN) (cs : SGLN.Coding) (f : Fin 8) (t : Str) (hu : SGLN.new u = .ok x) (ht : x.tagUri cs f = .ok t) :
    tagUriToTagEncodable t = .ok (.sgln x) ∧
    ∀ (v : Str) (y : SGLN) (cs' : SGLN.Coding) (g : Fin 8), SGLN.new v = .ok y → y.tagUri cs' g = .ok t → cs' = cs ∧ g = f ∧ y = x := by
  constructor
  · refine (tagUriToTagEncodable_iff t _).2 ⟨.sgln, ?_⟩
    show (SGLN.fromTagUri t).map Scheme.sgln = _
    rw [C16_sgln u x cs f t hu ht]; rfl
  · intro v y cs' g hv hy
    obtain ⟨b, rfl, rfl⟩ := SGLN.tagUri_form hu ht
    obtain ⟨b', rfl, e⟩ := SGLN.tagUri_form hv hy
    have hc : ∀ c : SGLN.Coding, ':' ∉ c.value := by intro c; cases c <;> decide
    obtain ⟨e1, e2⟩ := value_split (hc _) (hc _) e
    obtain ⟨e3, rfl⟩ := filter_split e2
    refine ⟨?_, (Fin.ext e3).symm, ?_⟩
    · revert e1; cases cs <;> cases cs' <;> decide
    · rw [hu] at hv; injection hv with hv; exact hv.symm

example : ((SGLN.new (py "urn:epc:id:sgln:9521141.12345.32a%2Fb")).bind fun x => x.tagUri .sgln195 3).isOk = true := by decide +kernel

/-- GRAI. -/
theorem C57_grai (u : Str) (x : GRAI) (cs : GRAI.Coding) (f : Fin 8) (t : Str) (hu : GRAI.new u = .ok x) (ht : x.tagUri cs f = .ok t) :
    tagUriToTagEncodable t = .ok (.grai x) ∧
    ∀ (v : Str) (y : GRAI) (cs' : GRAI.Coding) (g : Fin 8), GRAI.new v = .ok y → y.tagUri cs' g = .ok t → cs' = cs ∧ g = f ∧ y = x := by
  constructor
  · refine (tagUriToTagEncodable_iff t _).2 ⟨.grai, ?_⟩
    show (GRAI.fromTagUri t).map Scheme.grai = _
    rw [C16_grai u x cs f t hu ht]; rfl
  · intro v y cs' g hv hy
    obtain ⟨b, rfl, rfl⟩ := GRAI.tagUri_form hu ht
    obtain ⟨b', rfl, e⟩ := GRAI.tagUri_form hv hy
    have hc : ∀ c : GRAI.Coding, ':' ∉ c.value := by intro c; cases c <;> decide
    obtain ⟨e1, e2⟩ := value_split (hc _) (hc _) e
    obtain ⟨e3, rfl⟩ := filter_split e2
    refine ⟨?_, (Fin.ext e3).symm, ?_⟩
    · revert e1; cases cs <;> cases cs' <;> decide
    · rw [hu] at hv; injection hv with hv; exact hv.symm

example : ((GRAI.new (py "urn:epc:id:grai:9521141.12345.32a%2Fb")).bind fun x => x.tagUri .grai170 3).isOk = true := by decide +kernel

/-- GSRN. -/
theorem C57_gsrn (u : Str) (x : GSRN) (cs : GSRN.Coding) (f : Fin 8) (t : Str) (hu : GSRN.new u = .ok x) (ht : x.tagUri cs f = .ok t) :
    tagUriToTagEncodable t = .ok (.gsrn x) ∧
    ∀ (v : Str) (y : GSRN) (cs' : GSRN.Coding) (g : Fin 8), GSRN.new v = .ok y → y.tagUri cs' g = .ok t → cs' = cs ∧ g = f ∧ y = x := by
  constructor
  · refine (tagUriToTagEncodable_iff t _).2 ⟨.gsrn, ?_⟩
    show (GSRN.fromTagUri t).map Scheme.gsrn = _
    rw [C16_gsrn u x cs f t hu ht]; rfl
  · intro v y cs' g hv hy
    obtain ⟨b, rfl, rfl⟩ := GSRN.tagUri_form hu ht
    obtain ⟨b', rfl, e⟩ := GSRN.tagUri_form hv hy
    have hc : ∀ c : GSRN.Coding, ':' ∉ c.value := by intro c; cases c <;> decide
    obtain ⟨e1, e2⟩ := value_split (hc _) (hc _) e
    obtain ⟨e3, rfl⟩ := filter_split e2
    refine ⟨?_, (Fin.ext e3).symm, ?_⟩
    · revert e1; cases cs <;> cases cs' <;> decide
    · rw [hu] at hv; injection hv with hv; exact hv.symm

example : ((GSRN.new (py "urn:epc:id:gsrn:9521141.1234567890")).bind fun x => x.tagUri .gsrn96 3).isOk = true := by decide +kernel

/-- GSRNP. -/
theorem C57_gsrnp (u : Str) (x : GSRNP) (cs : GSRNP.Coding) (f : Fin 8) (t : Str) (hu : GSRNP.new u = .ok x) (ht : x.tagUri cs f = .ok t) :
    tagUriToTagEncodable t = .ok (.gsrnp x) ∧
    ∀ (v : Str) (y : GSRNP) (cs' : GSRNP.Coding) (g : Fin 8), GSRNP.new v = .ok y → y.tagUri cs' g = .ok t → cs' = cs ∧ g = f ∧ y = x := by
  constructor
  · refine (tagUriToTagEncodable_iff t _).2 ⟨.gsrnp, ?_⟩
    show (GSRNP.fromTagUri t).map Scheme.gsrnp = _
    rw [C16_gsrnp u x cs f t hu ht]; rfl
  · intro v y cs' g hv hy
    obtain ⟨b, rfl, rfl⟩ := GSRNP.tagUri_form hu ht
    obtain ⟨b', rfl, e⟩ := GSRNP.tagUri_form hv hy
    have hc : ∀ c : GSRNP.Coding, ':' ∉ c.value := by intro c; cases c <;> decide
    obtain ⟨e1, e2⟩ := value_split (hc _) (hc _) e
    obtain ⟨e3, rfl⟩ := filter_split e2
    refine ⟨?_, (Fin.ext e3).symm, ?_⟩
    · revert e1; cases cs <;> cases cs' <;> decide
    · rw [hu] at hv; injection hv with hv; exact hv.symm

example : ((GSRNP.new (py "urn:epc:id:gsrnp:9521141.1234567890")).bind fun x => x.tagUri .gsrnp96 3).isOk = true := by decide +kernel

/-- GDTI. -/
theorem C57_gdti (u : Str) (x : GDTI) (cs : GDTI.Coding) (f : Fin 8) (t : Str) (hu : GDTI.new u = .ok x) (ht : x.tagUri cs f = .ok t) :
    tagUriToTagEncodable t = .ok (.gdti x) ∧
    ∀ (v : Str) (y : GDTI) (cs' : GDTI.Coding) (g : Fin 8), GDTI.new v = .ok y → y.tagUri cs' g = .ok t → cs' = cs ∧ g = f ∧ y = x := by
  constructor
  · refine (tagUriToTagEncodable_iff t _).2 ⟨.gdti, ?_⟩
    show (GDTI.fromTagUri t).map Scheme.gdti = _
    rw [C16_gdti u x cs f t hu ht]; rfl
  · intro v y cs' g hv hy
    obtain ⟨b, rfl, rfl⟩ := GDTI.tagUri_form hu ht
    obtain ⟨b', rfl, e⟩ := GDTI.tagUri_form hv hy
    have hc : ∀ c : GDTI.Coding, ':' ∉ c.value := by intro c; cases c <;> decide
    obtain ⟨e1, e2⟩ := value_split (hc _) (hc _) e
    obtain ⟨e3, rfl⟩ := filter_split e2
    refine ⟨?_, (Fin.ext e3).symm, ?_⟩
    · revert e1; cases cs <;> cases cs' <;> decide
    · rw [hu] at hv; injection hv with hv; exact hv.symm

example : ((GDTI.new (py "urn:epc:id:gdti:9521141.12345.32a%2Fb")).bind fun x => x.tagUri .gdti174 3).isOk = true := by decide +kernel

/-- CPI. -/
theorem C57_cpi (u : Str) (x : CPI) (cs : CPI.Coding) (f : Fin 8) (t : Str) (hu : CPI.new u = .ok x) (ht : x.tagUri cs f = .ok t) :
    tagUriToTagEncodable t = .ok (.cpi x) ∧
    ∀ (v : Str) (y : CPI) (cs' : CPI.Coding) (g : Fin 8), CPI.new v = .ok y → y.tagUri cs' g = .ok t → cs' = cs ∧ g = f ∧ y = x := by
  constructor
  · refine (tagUriToTagEncodable_iff t _).2 ⟨.cpi, ?_⟩
    show (CPI.fromTagUri t).map Scheme.cpi = _
    rw [C16_cpi u x cs f t hu ht]; rfl
  · intro v y cs' g hv hy
    obtain ⟨b, rfl, rfl⟩ := CPI.tagUri_form hu ht
    obtain ⟨b', rfl, e⟩ := CPI.tagUri_form hv hy
    have hc : ∀ c : CPI.Coding, ':' ∉ c.value := by intro c; cases c <;> decide
    obtain ⟨e1, e2⟩ := value_split (hc _) (hc _) e
    obtain ⟨e3, rfl⟩ := filter_split e2
    refine ⟨?_, (Fin.ext e3).symm, ?_⟩
    · revert e1; cases cs <;> cases cs' <;> decide
    · rw [hu] at hv; injection hv with hv; exact hv.symm

example : ((CPI.new (py "urn:epc:id:cpi:9521141.5PQ7%2FZ43.12345")).bind fun x => x.tagUri .cpiVar 3).isOk = true := by decide +kernel

/-- SGCN. -/
theorem C57_sgcn (u : Str) (x : SGCN) (cs : SGCN.Coding) (f : Fin 8) (t : Str) (hu : SGCN.new u = .ok x) (ht : x.tagUri cs f = .ok t) :
    tagUriToTagEncodable t = .ok (.sgcn x) ∧
    ∀ (v : Str) (y : SGCN) (cs' : SGCN.Coding) (g : Fin 8), SGCN.new v = .ok y → y.tagUri cs' g = .ok t → cs' = cs ∧ g = f ∧ y = x := by
  constructor
  · refine (tagUriToTagEncodable_iff t _).2 ⟨.sgcn, ?_⟩
    show (SGCN.fromTagUri t).map Scheme.sgcn = _
    rw [C16_sgcn u x cs f t hu ht]; rfl
  · intro v y cs' g hv hy
    obtain ⟨b, rfl, rfl⟩ := SGCN.tagUri_form hu ht
    obtain ⟨b', rfl, e⟩ := SGCN.tagUri_form hv hy
    have hc : ∀ c : SGCN.Coding, ':' ∉ c.value := by intro c; cases c <;> decide
    obtain ⟨e1, e2⟩ := value_split (hc _) (hc _) e
    obtain ⟨e3, rfl⟩ := filter_split e2
    refine ⟨?_, (Fin.ext e3).symm, ?_⟩
    · revert e1; cases cs <;> cases cs' <;> decide
    · rw [hu] at hv; injection hv with hv; exact hv.symm

example : ((SGCN.new (py "urn:epc:id:sgcn:9521141.67890.04711")).bind fun x => x.tagUri .sgcn96 3).isOk = true := by decide +kernel

/-- ITIP. -/
theorem C57_itip (u : Str) (x : ITIP) (cs : ITIP.Coding) (f : Fin 8) (t : Str) (hu : ITIP.new u = .ok x) (ht : x.tagUri cs f = .ok t) :
    tagUriToTagEncodable t = .ok (.itip x) ∧
    ∀ (v : Str) (y : ITIP) (cs' : ITIP.Coding) (g : Fin 8), ITIP.new v = .ok y → y.tagUri cs' g = .ok t → cs' = cs ∧ g = f ∧ y = x := by
  constructor
  · refine (tagUriToTagEncodable_iff t _).2 ⟨.itip, ?_⟩
    show (ITIP.fromTagUri t).map Scheme.itip = _
    rw [C16_itip u x cs f t hu ht]; rfl
  · intro v y cs' g hv hy
    obtain ⟨b, rfl, rfl⟩ := ITIP.tagUri_form hu ht
    obtain ⟨b', rfl, e⟩ := ITIP.tagUri_form hv hy
    have hc : ∀ c : ITIP.Coding, ':' ∉ c.value := by intro c; cases c <;> decide
    obtain ⟨e1, e2⟩ := value_split (hc _) (hc _) e
    obtain ⟨e3, rfl⟩ := filter_split e2
    refine ⟨?_, (Fin.ext e3).symm, ?_⟩
    · revert e1; cases cs <;> cases cs' <;> decide
    · rw [hu] at hv; injection hv with hv; exact hv.symm

example : ((ITIP.new (py "urn:epc:id:itip:9521141.012345.01.02.mw133")).bind fun x => x.tagUri .itip212 3).isOk = true := by decide +kernel

/-- USDOD. -/
theorem C57_usdod (u : Str) (x : USDOD) (cs : USDOD.Coding) (f : Fin 16) (t : Str) (hu : USDOD.new u = .ok x) (ht : x.tagUri cs f = .ok t) :
    tagUriToTagEncodable t = .ok (.usdod x) ∧
    ∀ (v : Str) (y : USDOD) (cs' : USDOD.Coding) (g : Fin 16), USDOD.new v = .ok y → y.tagUri cs' g = .ok t → cs' = cs ∧ g = f ∧ y = x := by
  constructor
  · refine (tagUriToTagEncodable_iff t _).2 ⟨.usdod, ?_⟩
    show (USDOD.fromTagUri t).map Scheme.usdod = _
    rw [C16_usdod u x cs f t hu ht]; rfl
  · intro v y cs' g hv hy
    obtain ⟨b, rfl, rfl⟩ := USDOD.tagUri_form hu ht
    obtain ⟨b', rfl, e⟩ := USDOD.tagUri_form hv hy
    have hc : ∀ c : USDOD.Coding, ':' ∉ c.value := by intro c; cases c <;> decide
    obtain ⟨e1, e2⟩ := value_split (hc _) (hc _) e
    obtain ⟨e3, rfl⟩ := filter_split e2
    refine ⟨?_, (Fin.ext e3).symm, ?_⟩
    · revert e1; cases cs <;> cases cs' <;> decide
    · rw [hu] at hv; injection hv with hv; exact hv.symm

example : ((USDOD.new (py "urn:epc:id:usdod:2S194.12345678901")).bind fun x => x.tagUri .usdod96 3).isOk = true := by decide +kernel

/-- ADI. -/
theorem C57_adi (u : Str) (x : ADI) (cs : ADI.Coding) (f : Fin 64) (t : Str) (hu : ADI.new u = .ok x) (ht : x.tagUri cs f = .ok t) :
    tagUriToTagEncodable t = .ok (.adi x) ∧
    ∀ (v : Str) (y : ADI) (cs' : ADI.Coding) (g : Fin 64), ADI.new v = .ok y → y.tagUri cs' g = .ok t → cs' = cs ∧ g = f ∧ y = x := by
  constructor
  · refine (tagUriToTagEncodable_iff t _).2 ⟨.adi, ?_⟩
    show (ADI.fromTagUri t).map Scheme.adi = _
    rw [C16_adi u x cs f t hu ht]; rfl
  · intro v y cs' g hv hy
    obtain ⟨b, rfl, rfl⟩ := ADI.tagUri_form hu ht
    obtain ⟨b', rfl, e⟩ := ADI.tagUri_form hv hy
    have hc : ∀ c : ADI.Coding, ':' ∉ c.value := by intro c; cases c <;> decide
    obtain ⟨e1, e2⟩ := value_split (hc _) (hc _) e
    obtain ⟨e3, rfl⟩ := filter_split e2
    refine ⟨?_, (Fin.ext e3).symm, ?_⟩
    · revert e1; cases cs <;> cases cs' <;> decide
    · rw [hu] at hv; injection hv with hv; exact hv.symm

example : ((ADI.new (py "urn:epc:id:adi:35962.PQ7VZ4.M37GXB92")).bind fun x => x.tagUri .adiVar 3).isOk = true := by decide +kernel

/-- GID (no filter value). -/
theorem C57_gid (u : Str) (x : GID) (cs : GID.Coding) (t : Str) (hu : GID.new u = .ok x) (ht : x.tagUri cs = .ok t) :
    tagUriToTagEncodable t = .ok (.gid x) ∧
    ∀ (v : Str) (y : GID) (cs' : GID.Coding), GID.new v = .ok y → y.tagUri cs' = .ok t → cs' = cs ∧ y = x := by
  constructor
  · refine (tagUriToTagEncodable_iff t _).2 ⟨.gid, ?_⟩
    show (GID.fromTagUri t).map Scheme.gid = _
    rw [C16_gid u x cs t hu ht]; rfl
  · intro v y cs' hv hy
    obtain ⟨b, rfl, rfl⟩ := GID.tagUri_form hu ht
    obtain ⟨b', rfl, e⟩ := GID.tagUri_form hv hy
    obtain ⟨-, rfl⟩ := value_split (by decide) (by decide) e
    refine ⟨by cases cs; cases cs'; rfl, ?_⟩
    rw [hu] at hv; injection hv with hv; exact hv.symm

example : ((GID.new (py "urn:epc:id:gid:31415.271828.1414")).bind fun x => x.tagUri .gid96).isOk = true := by decide +kernel

/-- GIAI without colon in the URI body. -/
theorem C57_giai (body : Str) (x : GIAI) (cs : GIAI.Coding) (f : Fin 8) (t : Str) (hc : ':' ∉ body)
    (hu : GIAI.new (py "urn:epc:id:giai:" ++ body) = .ok x) (ht : x.tagUri cs f = .ok t) :
    tagUriToTagEncodable t = .ok (.giai x) ∧
    ∀ (body' : Str) (y : GIAI) (cs' : GIAI.Coding) (g : Fin 8), ':' ∉ body' → GIAI.new (py "urn:epc:id:giai:" ++ body') = .ok y →
      y.tagUri cs' g = .ok t → cs' = cs ∧ g = f ∧ y = x := by
  constructor
  · refine (tagUriToTagEncodable_iff t _).2 ⟨.giai, ?_⟩
    show (GIAI.fromTagUri t).map Scheme.giai = _
    rw [C16_giai_partial body x cs f t hc hu ht]; rfl
  · intro v y cs' g hc' hv hy
    have k1 := C16_giai_partial body x cs f t hc hu ht
    have k2 := C16_giai_partial v y cs' g t hc' hv hy
    rw [k1] at k2; injection k2 with k2; subst k2
    obtain ⟨C, S, _, _, _, _, _, rfl⟩ := GIAI.tagUri_form hu ht
    obtain ⟨C', S', _, _, _, _, _, e⟩ := GIAI.tagUri_form hv hy
    have hc : ∀ c : GIAI.Coding, ':' ∉ c.value := by intro c; cases c <;> decide
    obtain ⟨e1, e2⟩ := value_split (hc _) (hc _) e
    obtain ⟨e3, -⟩ := filter_split e2
    refine ⟨?_, (Fin.ext e3).symm, rfl⟩
    revert e1; cases cs <;> cases cs' <;> decide

example : ((GIAI.new (py "urn:epc:id:giai:9521141.32a%2Fb")).bind fun x => x.tagUri .giai202 3).isOk = true := by decide +kernel

/-- GIAI in general: what tag_uri prints is determined. -/
theorem C57_giai_partial (u v : Str) (x y : GIAI) (cs cs' : GIAI.Coding) (f g : Fin 8) (t : Str) (hu : GIAI.new u = .ok x) (ht : x.tagUri cs f = .ok t)
    (hv : GIAI.new v = .ok y) (hy : y.tagUri cs' g = .ok t) :
    cs' = cs ∧ g = f ∧ y.companyPref = x.companyPref ∧ y.assetRef = x.assetRef := by
  obtain ⟨C, S, hC, _, _, rfl, h2, rfl⟩ := GIAI.tagUri_form hu ht
  obtain ⟨C', S', hC', _, _, rfl, h2', e⟩ := GIAI.tagUri_form hv hy
  have hc : ∀ c : GIAI.Coding, ':' ∉ c.value := by intro c; cases c <;> decide
  obtain ⟨e1, e2⟩ := value_split (hc _) (hc _) e
  obtain ⟨e3, e4⟩ := filter_split e2
  have hdot : ∀ {C : Str}, Dec C → '.' ∉ C := fun h hm => absurd (h _ hm) (by decide)
  obtain ⟨e5, e6⟩ := sep_inj (hdot hC.2) (hdot hC'.2) e4
  refine ⟨?_, (Fin.ext e3).symm, e5.symm, ?_⟩
  · revert e1; cases cs <;> cases cs' <;> decide
  · rw [h2, h2', e6]

/-- GIAI: the same tag URI comes from different objects. -/
theorem C57_giai_claim_false : ¬ ∀ (u v : Str) (x y : GIAI) (cs : GIAI.Coding) (f : Fin 8) (t : Str),
    GIAI.new u = .ok x → x.tagUri cs f = .ok t → GIAI.new v = .ok y → y.tagUri cs f = .ok t → y = x := by
  intro h
  have e : ∃ x y t, GIAI.new (py "urn:epc:id:giai:9521141.12:3") = .ok x ∧ x.tagUri .giai202 0 = .ok t ∧ GIAI.new (py "urn:epc:id:giai:9521141.12") = .ok y ∧
      y.tagUri .giai202 0 = .ok t ∧ y ≠ x :=
    ⟨_, _, _, rfl, rfl, rfl, rfl, by decide⟩
  obtain ⟨x, y, t, h1, h2, h3, h4, h5⟩ := e
  exact h5 (h _ _ x y _ _ t h1 h2 h3 h4)

end Epc
