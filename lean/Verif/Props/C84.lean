/-
C84: coding schemes of other classes.

`AnyCoding`: a member of the `BinaryCodingScheme` of some class, `cls` the class it belongs to; a filter value of any class is a number
below 64.  `tagUriAny`, `binaryAny`, `hexAny`, `base64Any` are `tag_uri`, `binary`, `hex`, `base64` with such arguments.
Generated by tools/gen_foreign.py.
-/
import Verif.Lemmas.Foreign

set_option linter.unusedVariables false

namespace Epc
open Spec

/-- Which coding schemes there are. -/
example : ∀ c : Cls, (∃ cs : AnyCoding, cs.cls = c) ↔ c.isTagEncodable = true := by
  intro c
  constructor
  · rintro ⟨cs, rfl⟩; cases cs <;> rfl
  · intro h
    cases c <;> first | exact Bool.noConfusion h | skip
    · exact ⟨.adi .adiVar, rfl⟩
    · exact ⟨.cpi .cpi96, rfl⟩
    · exact ⟨.gdti .gdti96, rfl⟩
    · exact ⟨.giai .giai96, rfl⟩
    · exact ⟨.gid .gid96, rfl⟩
    · exact ⟨.grai .grai96, rfl⟩
    · exact ⟨.gsrn .gsrn96, rfl⟩
    · exact ⟨.gsrnp .gsrnp96, rfl⟩
    · exact ⟨.itip .itip110, rfl⟩
    · exact ⟨.sgcn .sgcn96, rfl⟩
    · exact ⟨.sgln .sgln96, rfl⟩
    · exact ⟨.sgtin .sgtin96, rfl⟩
    · exact ⟨.sscc .sscc96, rfl⟩
    · exact ⟨.usdod .usdod96, rfl⟩

theorem C84_sgtin_claim_false : ¬ ∀ (u : Str) (x : SGTIN) (cs : AnyCoding) (f : Fin 64) , SGTIN.new u = .ok x → cs.cls ≠ .sgtin →
    ∀ t, x.tagUriAny cs f ≠ .ok t ∧ x.binaryAny cs f ≠ .ok t := by
  intro h
  obtain ⟨x, hx⟩ := ok_of_toBool (show (SGTIN.new (py "urn:epc:id:sgtin:0614141.812345.6789")).toBool = true by decide +kernel)
  exact (h _ x (.gsrn .gsrn96) 0 hx (by decide) _).1 (SGTIN.tagUriAny_other (by decide))

theorem C84_sgtin_partial {u : Str} {x : SGTIN} {cs : AnyCoding} {f : Fin 64} (hu : SGTIN.new u = .ok x) (hc : cs.cls ≠ .sgtin) :
    x.binaryAny cs f = .error .key ∧ x.hexAny cs f = .error .key ∧ x.base64Any cs f = .error .key ∧
    ∃ b t, u = py "urn:epc:id:sgtin:" ++ b ∧ t = py "urn:epc:tag:" ++ cs.value ++ ':' :: (natStr f ++ '.' :: b) ∧ x.tagUriAny cs f = .ok t ∧
      SGTIN.fromTagUri t = .error .convert ∧ ∀ y, tagUriToTagEncodable t = .ok y → y.cls = cs.cls := by
  refine ⟨SGTIN.binaryAny_other hc, ?_, ?_, ?_⟩
  · rw [SGTIN.hexAny, SGTIN.binaryAny_other hc]; rfl
  · rw [SGTIN.base64Any, SGTIN.binaryAny_other hc]; rfl
  · have ht := SGTIN.tagUriAny_other (x := x) (f := f) hc
    exact ⟨_, _, SGTIN.uri_rest hu, rfl, ht, foreign_tag (SGTIN.new_foreign hc), fun y hy => foreign_parse hy⟩

theorem C84_sscc_claim_false : ¬ ∀ (u : Str) (x : SSCC) (cs : AnyCoding) (f : Fin 64) , SSCC.new u = .ok x → cs.cls ≠ .sscc →
    ∀ t, x.tagUriAny cs f ≠ .ok t ∧ x.binaryAny cs f ≠ .ok t := by
  intro h
  obtain ⟨x, hx⟩ := ok_of_toBool (show (SSCC.new (py "urn:epc:id:sscc:0614141.1234567890")).toBool = true by decide +kernel)
  exact (h _ x (.gsrn .gsrn96) 0 hx (by decide) _).1 (SSCC.tagUriAny_other (by decide))

theorem C84_sscc_partial {u : Str} {x : SSCC} {cs : AnyCoding} {f : Fin 64} (hu : SSCC.new u = .ok x) (hc : cs.cls ≠ .sscc) :
    x.binaryAny cs f = .error .key ∧ x.hexAny cs f = .error .key ∧ x.base64Any cs f = .error .key ∧
    ∃ b t, u = py "urn:epc:id:sscc:" ++ b ∧ t = py "urn:epc:tag:" ++ cs.value ++ ':' :: (natStr f ++ '.' :: b) ∧ x.tagUriAny cs f = .ok t ∧
      SSCC.fromTagUri t = .error .convert ∧ ∀ y, tagUriToTagEncodable t = .ok y → y.cls = cs.cls := by
  refine ⟨SSCC.binaryAny_other hc, ?_, ?_, ?_⟩
  · rw [SSCC.hexAny, SSCC.binaryAny_other hc]; rfl
  · rw [SSCC.base64Any, SSCC.binaryAny_other hc]; rfl
  · have ht := SSCC.tagUriAny_other (x := x) (f := f) hc
    exact ⟨_, _, SSCC.uri_rest hu, rfl, ht, foreign_tag (SSCC.new_foreign hc), fun y hy => foreign_parse hy⟩

theorem C84_sgln_claim_false : ¬ ∀ (u : Str) (x : SGLN) (cs : AnyCoding) (f : Fin 64) , SGLN.new u = .ok x → cs.cls ≠ .sgln →
    ∀ t, x.tagUriAny cs f ≠ .ok t ∧ x.binaryAny cs f ≠ .ok t := by
  intro h
  obtain ⟨x, hx⟩ := ok_of_toBool (show (SGLN.new (py "urn:epc:id:sgln:0614141.12345.400")).toBool = true by decide +kernel)
  exact (h _ x (.gsrn .gsrn96) 0 hx (by decide) _).1 (SGLN.tagUriAny_other (by decide))

theorem C84_sgln_partial {u : Str} {x : SGLN} {cs : AnyCoding} {f : Fin 64} (hu : SGLN.new u = .ok x) (hc : cs.cls ≠ .sgln) :
    x.binaryAny cs f = .error .key ∧ x.hexAny cs f = .error .key ∧ x.base64Any cs f = .error .key ∧
    ∃ b t, u = py "urn:epc:id:sgln:" ++ b ∧ t = py "urn:epc:tag:" ++ cs.value ++ ':' :: (natStr f ++ '.' :: b) ∧ x.tagUriAny cs f = .ok t ∧
      SGLN.fromTagUri t = .error .convert ∧ ∀ y, tagUriToTagEncodable t = .ok y → y.cls = cs.cls := by
  refine ⟨SGLN.binaryAny_other hc, ?_, ?_, ?_⟩
  · rw [SGLN.hexAny, SGLN.binaryAny_other hc]; rfl
  · rw [SGLN.base64Any, SGLN.binaryAny_other hc]; rfl
  · have ht := SGLN.tagUriAny_other (x := x) (f := f) hc
    exact ⟨_, _, SGLN.uri_rest hu, rfl, ht, foreign_tag (SGLN.new_foreign hc), fun y hy => foreign_parse hy⟩

theorem C84_grai_claim_false : ¬ ∀ (u : Str) (x : GRAI) (cs : AnyCoding) (f : Fin 64) , GRAI.new u = .ok x → cs.cls ≠ .grai →
    ∀ t, x.tagUriAny cs f ≠ .ok t ∧ x.binaryAny cs f ≠ .ok t := by
  intro h
  obtain ⟨x, hx⟩ := ok_of_toBool (show (GRAI.new (py "urn:epc:id:grai:0614141.12345.400")).toBool = true by decide +kernel)
  exact (h _ x (.gsrn .gsrn96) 0 hx (by decide) _).1 (GRAI.tagUriAny_other (by decide))

theorem C84_grai_partial {u : Str} {x : GRAI} {cs : AnyCoding} {f : Fin 64} (hu : GRAI.new u = .ok x) (hc : cs.cls ≠ .grai) :
    x.binaryAny cs f = .error .key ∧ x.hexAny cs f = .error .key ∧ x.base64Any cs f = .error .key ∧
    ∃ b t, u = py "urn:epc:id:grai:" ++ b ∧ t = py "urn:epc:tag:" ++ cs.value ++ ':' :: (natStr f ++ '.' :: b) ∧ x.tagUriAny cs f = .ok t ∧
      GRAI.fromTagUri t = .error .convert ∧ ∀ y, tagUriToTagEncodable t = .ok y → y.cls = cs.cls := by
  refine ⟨GRAI.binaryAny_other hc, ?_, ?_, ?_⟩
  · rw [GRAI.hexAny, GRAI.binaryAny_other hc]; rfl
  · rw [GRAI.base64Any, GRAI.binaryAny_other hc]; rfl
  · have ht := GRAI.tagUriAny_other (x := x) (f := f) hc
    exact ⟨_, _, GRAI.uri_rest hu, rfl, ht, foreign_tag (GRAI.new_foreign hc), fun y hy => foreign_parse hy⟩

theorem C84_giai_claim_false : ¬ ∀ (u : Str) (x : GIAI) (cs : AnyCoding) (f : Fin 64) , GIAI.new u = .ok x → cs.cls ≠ .giai →
    ∀ t, x.tagUriAny cs f ≠ .ok t ∧ x.binaryAny cs f ≠ .ok t := by
  intro h
  obtain ⟨x, hx⟩ := ok_of_toBool (show (GIAI.new (py "urn:epc:id:giai:0614141.12345400")).toBool = true by decide +kernel)
  exact (h _ x (.gsrn .gsrn96) 0 hx (by decide) _).1 (GIAI.tagUriAny_other (by decide))

/-- (Of the asset reference of a GIAI the tag URI has what comes before the first colon.) -/
theorem C84_giai_partial {u : Str} {x : GIAI} {cs : AnyCoding} {f : Fin 64} (hu : GIAI.new u = .ok x) (hc : cs.cls ≠ .giai) :
    x.binaryAny cs f = .error .key ∧ x.hexAny cs f = .error .key ∧ x.base64Any cs f = .error .key ∧
    ∃ b t, u = py "urn:epc:id:giai:" ++ b ∧ t = py "urn:epc:tag:" ++ cs.value ++ ':' :: (natStr f ++ '.' :: (split ':' b).headD []) ∧ x.tagUriAny cs f = .ok t ∧
      GIAI.fromTagUri t = .error .convert ∧ ∀ y, tagUriToTagEncodable t = .ok y → y.cls = cs.cls := by
  refine ⟨GIAI.binaryAny_other hc, ?_, ?_, ?_⟩
  · rw [GIAI.hexAny, GIAI.binaryAny_other hc]; rfl
  · rw [GIAI.base64Any, GIAI.binaryAny_other hc]; rfl
  · obtain ⟨C, S, ⟨hC, hS⟩, _, rfl, rfl⟩ := GIAI.new_iff.1 hu
    have hd : (split ':' (C ++ '.' :: S)).headD [] = C ++ '.' :: (split ':' S).headD [] := by
      have := split_append_of_notMem (c := ':') (a := C ++ ['.']) (by simp [hC.2.no_colon]) S
      rw [show C ++ '.' :: S = (C ++ ['.']) ++ S by simp, this]
      simp
    refine ⟨C ++ '.' :: S, _, rfl, rfl, ?_, foreign_tag (GIAI.new_foreign hc), fun y hy => foreign_parse hy⟩
    rw [hd]
    exact GIAI.tagUriAny_other hc

theorem C84_gsrn_claim_false : ¬ ∀ (u : Str) (x : GSRN) (cs : AnyCoding) (f : Fin 64) , GSRN.new u = .ok x → cs.cls ≠ .gsrn →
    ∀ t, x.tagUriAny cs f ≠ .ok t ∧ x.binaryAny cs f ≠ .ok t := by
  intro h
  obtain ⟨x, hx⟩ := ok_of_toBool (show (GSRN.new (py "urn:epc:id:gsrn:0614141.1234567890")).toBool = true by decide +kernel)
  exact (h _ x (.sscc .sscc96) 0 hx (by decide) _).1 (GSRN.tagUriAny_other (by decide))

theorem C84_gsrn_partial {u : Str} {x : GSRN} {cs : AnyCoding} {f : Fin 64} (hu : GSRN.new u = .ok x) (hc : cs.cls ≠ .gsrn) :
    x.binaryAny cs f = .error .key ∧ x.hexAny cs f = .error .key ∧ x.base64Any cs f = .error .key ∧
    ∃ b t, u = py "urn:epc:id:gsrn:" ++ b ∧ t = py "urn:epc:tag:" ++ cs.value ++ ':' :: (natStr f ++ '.' :: b) ∧ x.tagUriAny cs f = .ok t ∧
      GSRN.fromTagUri t = .error .convert ∧ ∀ y, tagUriToTagEncodable t = .ok y → y.cls = cs.cls := by
  refine ⟨GSRN.binaryAny_other hc, ?_, ?_, ?_⟩
  · rw [GSRN.hexAny, GSRN.binaryAny_other hc]; rfl
  · rw [GSRN.base64Any, GSRN.binaryAny_other hc]; rfl
  · have ht := GSRN.tagUriAny_other (x := x) (f := f) hc
    exact ⟨_, _, GSRN.uri_rest hu, rfl, ht, foreign_tag (GSRN.new_foreign hc), fun y hy => foreign_parse hy⟩

theorem C84_gsrnp_claim_false : ¬ ∀ (u : Str) (x : GSRNP) (cs : AnyCoding) (f : Fin 64) , GSRNP.new u = .ok x → cs.cls ≠ .gsrnp →
    ∀ t, x.tagUriAny cs f ≠ .ok t ∧ x.binaryAny cs f ≠ .ok t := by
  intro h
  obtain ⟨x, hx⟩ := ok_of_toBool (show (GSRNP.new (py "urn:epc:id:gsrnp:0614141.1234567890")).toBool = true by decide +kernel)
  exact (h _ x (.gsrn .gsrn96) 0 hx (by decide) _).1 (GSRNP.tagUriAny_other (by decide))

theorem C84_gsrnp_partial {u : Str} {x : GSRNP} {cs : AnyCoding} {f : Fin 64} (hu : GSRNP.new u = .ok x) (hc : cs.cls ≠ .gsrnp) :
    x.binaryAny cs f = .error .key ∧ x.hexAny cs f = .error .key ∧ x.base64Any cs f = .error .key ∧
    ∃ b t, u = py "urn:epc:id:gsrnp:" ++ b ∧ t = py "urn:epc:tag:" ++ cs.value ++ ':' :: (natStr f ++ '.' :: b) ∧ x.tagUriAny cs f = .ok t ∧
      GSRNP.fromTagUri t = .error .convert ∧ ∀ y, tagUriToTagEncodable t = .ok y → y.cls = cs.cls := by
  refine ⟨GSRNP.binaryAny_other hc, ?_, ?_, ?_⟩
  · rw [GSRNP.hexAny, GSRNP.binaryAny_other hc]; rfl
  · rw [GSRNP.base64Any, GSRNP.binaryAny_other hc]; rfl
  · have ht := GSRNP.tagUriAny_other (x := x) (f := f) hc
    exact ⟨_, _, GSRNP.uri_rest hu, rfl, ht, foreign_tag (GSRNP.new_foreign hc), fun y hy => foreign_parse hy⟩

theorem C84_gdti_claim_false : ¬ ∀ (u : Str) (x : GDTI) (cs : AnyCoding) (f : Fin 64) , GDTI.new u = .ok x → cs.cls ≠ .gdti →
    ∀ t, x.tagUriAny cs f ≠ .ok t ∧ x.binaryAny cs f ≠ .ok t := by
  intro h
  obtain ⟨x, hx⟩ := ok_of_toBool (show (GDTI.new (py "urn:epc:id:gdti:0614141.12345.400")).toBool = true by decide +kernel)
  exact (h _ x (.gsrn .gsrn96) 0 hx (by decide) _).1 (GDTI.tagUriAny_other (by decide))

theorem C84_gdti_partial {u : Str} {x : GDTI} {cs : AnyCoding} {f : Fin 64} (hu : GDTI.new u = .ok x) (hc : cs.cls ≠ .gdti) :
    x.binaryAny cs f = .error .key ∧ x.hexAny cs f = .error .key ∧ x.base64Any cs f = .error .key ∧
    ∃ b t, u = py "urn:epc:id:gdti:" ++ b ∧ t = py "urn:epc:tag:" ++ cs.value ++ ':' :: (natStr f ++ '.' :: b) ∧ x.tagUriAny cs f = .ok t ∧
      GDTI.fromTagUri t = .error .convert ∧ ∀ y, tagUriToTagEncodable t = .ok y → y.cls = cs.cls := by
  refine ⟨GDTI.binaryAny_other hc, ?_, ?_, ?_⟩
  · rw [GDTI.hexAny, GDTI.binaryAny_other hc]; rfl
  · rw [GDTI.base64Any, GDTI.binaryAny_other hc]; rfl
  · have ht := GDTI.tagUriAny_other (x := x) (f := f) hc
    exact ⟨_, _, GDTI.uri_rest hu, rfl, ht, foreign_tag (GDTI.new_foreign hc), fun y hy => foreign_parse hy⟩

theorem C84_cpi_claim_false : ¬ ∀ (u : Str) (x : CPI) (cs : AnyCoding) (f : Fin 64) , CPI.new u = .ok x → cs.cls ≠ .cpi →
    ∀ t, x.tagUriAny cs f ≠ .ok t ∧ x.binaryAny cs f ≠ .ok t := by
  intro h
  obtain ⟨x, hx⟩ := ok_of_toBool (show (CPI.new (py "urn:epc:id:cpi:0614141.123456.123456789")).toBool = true by decide +kernel)
  exact (h _ x (.gsrn .gsrn96) 0 hx (by decide) _).1 (CPI.tagUriAny_other (by decide))

theorem C84_cpi_partial {u : Str} {x : CPI} {cs : AnyCoding} {f : Fin 64} (hu : CPI.new u = .ok x) (hc : cs.cls ≠ .cpi) :
    x.binaryAny cs f = .error .key ∧ x.hexAny cs f = .error .key ∧ x.base64Any cs f = .error .key ∧
    ∃ b t, u = py "urn:epc:id:cpi:" ++ b ∧ t = py "urn:epc:tag:" ++ cs.value ++ ':' :: (natStr f ++ '.' :: b) ∧ x.tagUriAny cs f = .ok t ∧
      CPI.fromTagUri t = .error .convert ∧ ∀ y, tagUriToTagEncodable t = .ok y → y.cls = cs.cls := by
  refine ⟨CPI.binaryAny_other hc, ?_, ?_, ?_⟩
  · rw [CPI.hexAny, CPI.binaryAny_other hc]; rfl
  · rw [CPI.base64Any, CPI.binaryAny_other hc]; rfl
  · have ht := CPI.tagUriAny_other (x := x) (f := f) hc
    exact ⟨_, _, CPI.uri_rest hu, rfl, ht, foreign_tag (CPI.new_foreign hc), fun y hy => foreign_parse hy⟩

theorem C84_sgcn_claim_false : ¬ ∀ (u : Str) (x : SGCN) (cs : AnyCoding) (f : Fin 64) , SGCN.new u = .ok x → cs.cls ≠ .sgcn →
    ∀ t, x.tagUriAny cs f ≠ .ok t ∧ x.binaryAny cs f ≠ .ok t := by
  intro h
  obtain ⟨x, hx⟩ := ok_of_toBool (show (SGCN.new (py "urn:epc:id:sgcn:4012345.67890.04711")).toBool = true by decide +kernel)
  exact (h _ x (.gsrn .gsrn96) 0 hx (by decide) _).1 (SGCN.tagUriAny_other (by decide))

theorem C84_sgcn_partial {u : Str} {x : SGCN} {cs : AnyCoding} {f : Fin 64} (hu : SGCN.new u = .ok x) (hc : cs.cls ≠ .sgcn) :
    x.binaryAny cs f = .error .key ∧ x.hexAny cs f = .error .key ∧ x.base64Any cs f = .error .key ∧
    ∃ b t, u = py "urn:epc:id:sgcn:" ++ b ∧ t = py "urn:epc:tag:" ++ cs.value ++ ':' :: (natStr f ++ '.' :: b) ∧ x.tagUriAny cs f = .ok t ∧
      SGCN.fromTagUri t = .error .convert ∧ ∀ y, tagUriToTagEncodable t = .ok y → y.cls = cs.cls := by
  refine ⟨SGCN.binaryAny_other hc, ?_, ?_, ?_⟩
  · rw [SGCN.hexAny, SGCN.binaryAny_other hc]; rfl
  · rw [SGCN.base64Any, SGCN.binaryAny_other hc]; rfl
  · have ht := SGCN.tagUriAny_other (x := x) (f := f) hc
    exact ⟨_, _, SGCN.uri_rest hu, rfl, ht, foreign_tag (SGCN.new_foreign hc), fun y hy => foreign_parse hy⟩

theorem C84_itip_claim_false : ¬ ∀ (u : Str) (x : ITIP) (cs : AnyCoding) (f : Fin 64) , ITIP.new u = .ok x → cs.cls ≠ .itip →
    ∀ t, x.tagUriAny cs f ≠ .ok t ∧ x.binaryAny cs f ≠ .ok t := by
  intro h
  obtain ⟨x, hx⟩ := ok_of_toBool (show (ITIP.new (py "urn:epc:id:itip:4012345.012345.01.02.987")).toBool = true by decide +kernel)
  exact (h _ x (.gsrn .gsrn96) 0 hx (by decide) _).1 (ITIP.tagUriAny_other (by decide))

theorem C84_itip_partial {u : Str} {x : ITIP} {cs : AnyCoding} {f : Fin 64} (hu : ITIP.new u = .ok x) (hc : cs.cls ≠ .itip) :
    x.binaryAny cs f = .error .key ∧ x.hexAny cs f = .error .key ∧ x.base64Any cs f = .error .key ∧
    ∃ b t, u = py "urn:epc:id:itip:" ++ b ∧ t = py "urn:epc:tag:" ++ cs.value ++ ':' :: (natStr f ++ '.' :: b) ∧ x.tagUriAny cs f = .ok t ∧
      ITIP.fromTagUri t = .error .convert ∧ ∀ y, tagUriToTagEncodable t = .ok y → y.cls = cs.cls := by
  refine ⟨ITIP.binaryAny_other hc, ?_, ?_, ?_⟩
  · rw [ITIP.hexAny, ITIP.binaryAny_other hc]; rfl
  · rw [ITIP.base64Any, ITIP.binaryAny_other hc]; rfl
  · have ht := ITIP.tagUriAny_other (x := x) (f := f) hc
    exact ⟨_, _, ITIP.uri_rest hu, rfl, ht, foreign_tag (ITIP.new_foreign hc), fun y hy => foreign_parse hy⟩

theorem C84_gid_claim_false : ¬ ∀ (u : Str) (x : GID) (cs : AnyCoding) , GID.new u = .ok x → cs.cls ≠ .gid →
    ∀ t, x.tagUriAny cs ≠ .ok t ∧ x.binaryAny cs ≠ .ok t := by
  intro h
  obtain ⟨x, hx⟩ := ok_of_toBool (show (GID.new (py "urn:epc:id:gid:952056.2718.1414")).toBool = true by decide +kernel)
  exact (h _ x (.gsrn .gsrn96) hx (by decide) _).1 (GID.tagUriAny_other (by decide))

theorem C84_gid_partial {u : Str} {x : GID} {cs : AnyCoding} (hu : GID.new u = .ok x) (hc : cs.cls ≠ .gid) :
    x.binaryAny cs = .error .key ∧ x.hexAny cs = .error .key ∧ x.base64Any cs = .error .key ∧
    ∃ b t, u = py "urn:epc:id:gid:" ++ b ∧ t = py "urn:epc:tag:" ++ cs.value ++ ':' :: b ∧ x.tagUriAny cs = .ok t ∧
      GID.fromTagUri t = .error .convert ∧ ∀ y, tagUriToTagEncodable t = .ok y → y.cls = cs.cls := by
  refine ⟨GID.binaryAny_other hc, ?_, ?_, ?_⟩
  · rw [GID.hexAny, GID.binaryAny_other hc]; rfl
  · rw [GID.base64Any, GID.binaryAny_other hc]; rfl
  · have ht := GID.tagUriAny_other (x := x) hc
    exact ⟨_, _, GID.uri_rest hu, rfl, ht, foreign_tag' (GID.new_foreign hc), fun y hy => foreign_parse hy⟩

theorem C84_usdod_claim_false : ¬ ∀ (u : Str) (x : USDOD) (cs : AnyCoding) (f : Fin 64) , USDOD.new u = .ok x → cs.cls ≠ .usdod →
    ∀ t, x.tagUriAny cs f ≠ .ok t ∧ x.binaryAny cs f ≠ .ok t := by
  intro h
  obtain ⟨x, hx⟩ := ok_of_toBool (show (USDOD.new (py "urn:epc:id:usdod:2S194.12345678901")).toBool = true by decide +kernel)
  exact (h _ x (.gsrn .gsrn96) 0 hx (by decide) _).1 (USDOD.tagUriAny_other (by decide))

theorem C84_usdod_partial {u : Str} {x : USDOD} {cs : AnyCoding} {f : Fin 64} (hu : USDOD.new u = .ok x) (hc : cs.cls ≠ .usdod) :
    x.binaryAny cs f = .error .key ∧ x.hexAny cs f = .error .key ∧ x.base64Any cs f = .error .key ∧
    ∃ b t, u = py "urn:epc:id:usdod:" ++ b ∧ t = py "urn:epc:tag:" ++ cs.value ++ ':' :: (natStr f ++ '.' :: b) ∧ x.tagUriAny cs f = .ok t ∧
      USDOD.fromTagUri t = .error .convert ∧ ∀ y, tagUriToTagEncodable t = .ok y → y.cls = cs.cls := by
  refine ⟨USDOD.binaryAny_other hc, ?_, ?_, ?_⟩
  · rw [USDOD.hexAny, USDOD.binaryAny_other hc]; rfl
  · rw [USDOD.base64Any, USDOD.binaryAny_other hc]; rfl
  · have ht := USDOD.tagUriAny_other (x := x) (f := f) hc
    exact ⟨_, _, USDOD.uri_rest hu, rfl, ht, foreign_tag (USDOD.new_foreign hc), fun y hy => foreign_parse hy⟩

theorem C84_adi_claim_false : ¬ ∀ (u : Str) (x : ADI) (cs : AnyCoding) (f : Fin 64) , ADI.new u = .ok x → cs.cls ≠ .adi →
    ∀ t, x.tagUriAny cs f ≠ .ok t ∧ x.binaryAny cs f ≠ .ok t := by
  intro h
  obtain ⟨x, hx⟩ := ok_of_toBool (show (ADI.new (py "urn:epc:id:adi:35962.PQ7VZ4.M37GXB92")).toBool = true by decide +kernel)
  exact (h _ x (.gsrn .gsrn96) 0 hx (by decide) _).1 (ADI.tagUriAny_other (by decide))

theorem C84_adi_partial {u : Str} {x : ADI} {cs : AnyCoding} {f : Fin 64} (hu : ADI.new u = .ok x) (hc : cs.cls ≠ .adi) :
    x.binaryAny cs f = .error .key ∧ x.hexAny cs f = .error .key ∧ x.base64Any cs f = .error .key ∧
    ∃ b t, u = py "urn:epc:id:adi:" ++ b ∧ t = py "urn:epc:tag:" ++ cs.value ++ ':' :: (natStr f ++ '.' :: b) ∧ x.tagUriAny cs f = .ok t ∧
      ADI.fromTagUri t = .error .convert ∧ ∀ y, tagUriToTagEncodable t = .ok y → y.cls = cs.cls := by
  refine ⟨ADI.binaryAny_other hc, ?_, ?_, ?_⟩
  · rw [ADI.hexAny, ADI.binaryAny_other hc]; rfl
  · rw [ADI.base64Any, ADI.binaryAny_other hc]; rfl
  · have ht := ADI.tagUriAny_other (x := x) (f := f) hc
    exact ⟨_, _, ADI.uri_rest hu, rfl, ht, foreign_tag (ADI.new_foreign hc), fun y hy => foreign_parse hy⟩

/-- An SSCC written with the coding scheme of GSRN is read as the GSRN of the same number. -/
example : ((SSCC.new (py "urn:epc:id:sscc:0614141.1234567890")).toOption.map fun x => x.tagUriAny (.gsrn .gsrn96) 0) =
      some (.ok (py "urn:epc:tag:gsrn-96:0.0614141.1234567890")) ∧
    ((tagUriToTagEncodable (py "urn:epc:tag:gsrn-96:0.0614141.1234567890")).toOption.map Scheme.epcUri) =
      some (py "urn:epc:id:gsrn:0614141.1234567890") := by decide +kernel

/-- A GID written with the coding scheme of SSCC: its first number is taken for the filter value. -/
example : ((GID.new (py "urn:epc:id:gid:3.614141.12345678901")).toOption.map fun x => x.tagUriAny (.sscc .sscc96)) =
      some (.ok (py "urn:epc:tag:sscc-96:3.614141.12345678901")) ∧
    ((tagUriToTagEncodable (py "urn:epc:tag:sscc-96:3.614141.12345678901")).toOption.map Scheme.epcUri) =
      some (py "urn:epc:id:sscc:614141.12345678901") := by decide +kernel

end Epc
