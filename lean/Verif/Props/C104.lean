/-
C104: the members of the enumerations, named in a call as a user names them, executed from the source: what `GTIN_TYPE.GTIN13`,
`SGTIN.BinaryCodingScheme.SGTIN_96` and `SGTINFilterValue.POS_ITEM` make `gtin`, `gs1_key`, `tag_uri` and `binary` write.
-/
import Verif.Spec.Members
import Verif.Lemmas.Program
import Verif.Lemmas.TagForm
import Verif.Lemmas.BinSplit
import Verif.Lemmas.Unusual
import Verif.Lemmas.Shape
import Verif.Lemmas.ParseTag
import Verif.Props.C34

namespace Epc.Src
open Spec

private theorem new_of {c : Cls} {u : Str} {o : Val} (h : construct (clOf c) [.str u] = .ok o) : ∃ x, c.new u = .ok x ∧ o = objScheme x := by
  rw [(C91_constructors c u).1] at h
  cases e : c.new u with
  | ok x => rw [e] at h; cases h; exact ⟨x, rfl, rfl⟩
  | error e' => rw [e] at h; cases h

private theorem tag_gen {Coding : Type} {n w : Nat} {cod : Coding → Val} {val hdr : Coding → Str} {o : Val} {T B : Coding → Fin n → Except Err Str}
    {fields : Str} {c : Cl} {m : Mod} {e : Nm} {names : List Nm} {cods : List (Nm × Str × Str)}
    (hn : n = 2 ^ w) (hw : 0 < w)
    (hi : ∀ cs f v, IsFilter f v → invoke o .tag_uri [] [(.binary_coding_scheme, cod cs), (.filter_value, v)] = outcome .str (T cs f) ∧
      invoke o .binary [] [(.binary_coding_scheme, cod cs), (.filter_value, v)] = outcome .str (B cs f))
    (hT : ∀ cs f t, T cs f = .ok t → t = py "urn:epc:tag:" ++ val cs ++ ':' :: (natStr f ++ '.' :: fields))
    (hB : ∀ cs f b, B cs f = .ok b → ∃ r, b = hdr cs ++ (bin w f ++ r)) (h8 : ∀ cs, (hdr cs).length = 8)
    (hf : names.map (fun x => (moduleMember m e x).toOption.bind memberValue) = (List.range n).map fun k => some (filterStr k))
    (hc : ∀ p ∈ cods, ∃ cs, codingMember c p.1 = .ok (cod cs) ∧ val cs = p.2.1 ∧ hdr cs = p.2.2)
    (p : Nm × Str × Str) (hp : p ∈ cods) (k : Nat) (x : Nm) (hk : names[k]? = some x) :
    ∃ s f, codingMember c p.1 = .ok s ∧ moduleMember m e x = .ok f ∧ NamedTag o s f p.2.1 p.2.2 fields w k := by
  obtain ⟨cs, h1, h2, h3⟩ := hc p hp
  have hkn : k < n := by
    have hl := congrArg List.length hf
    simp only [List.length_map, List.length_range] at hl
    have := (List.getElem?_eq_some_iff.1 hk).1
    omega
  have hm := congrArg (fun l => l[k]?) hf
  simp only [List.getElem?_map, hk, Option.map_some, List.getElem?_range hkn, Option.some.injEq] at hm
  cases hv : moduleMember m e x with
  | error e' => rw [hv] at hm; simp [Except.toOption] at hm
  | ok v =>
    rw [hv] at hm
    have hF : IsFilter (⟨k, hkn⟩ : Fin n) v := by
      cases v <;> simp only [Except.toOption, Option.bind_some, memberValue, Option.some.injEq, reduceCtorEq] at hm
      subst hm
      exact ⟨_, _, _, _, rfl⟩
    refine ⟨cod cs, v, h1, rfl, fun t ht => ?_, fun b hb => ?_⟩
    · rw [(hi cs _ v hF).1, outcome_str_ok] at ht
      rw [← h2]
      exact hT cs _ t ht
    · rw [(hi cs _ v hF).2, outcome_str_ok] at hb
      obtain ⟨r, rfl⟩ := hB cs _ b hb
      have hl : (bin w (⟨k, hkn⟩ : Fin n)).length = w := length_bin hw (hn ▸ hkn)
      rw [List.take_append_of_le_length (by rw [h8]; exact Nat.le_refl 8), List.drop_append_of_le_length (by rw [h8]; exact Nat.le_refl 8)]
      rw [List.take_of_length_le (by rw [h8]; exact Nat.le_refl 8), List.drop_of_length_le (by rw [h8]; exact Nat.le_refl 8), List.nil_append,
        List.take_append_of_le_length (by omega), List.take_of_length_le (by omega)]
      exact ⟨h3, bitsNumber_bin w k⟩

private theorem GIAI_fields {C S : Str} (hC : Dec C) : (C ++ '.' :: S).takeWhile (fun c => !decide (c = ':')) = C ++ '.' :: (split ':' S).headD [] := by
  have h := head_colon (C ++ '.' :: S)
  simp only [ne_eq, decide_not] at h
  rw [← h, split_append_of_notMem hC.no_colon, split_cons_ne (by decide)]
  cases e : split ':' S with
  | nil => exact absurd e (split_ne_nil ':' S)
  | cons a l => rfl

private theorem tag_SGTIN {u : Str} {x : Epc.SGTIN} (hu : Epc.SGTIN.new u = .ok x) (p : Nm × Str × Str) (hp : p ∈ codingNames .sgtin) (k : Nat) (n : Nm)
    (hk : (filterNames .sgtin)[k]? = some n) :
    ∃ s f, codingMember .SGTIN p.1 = .ok s ∧ moduleMember .sgtin .SGTINFilterValue n = .ok f ∧ NamedTag (objSGTIN x) s f p.2.1 p.2.2 (fieldsOf .sgtin u) 3 k := by
  refine tag_gen (n := 8) (cod := codSGTIN) (val := Epc.SGTIN.Coding.value) (hdr := Epc.SGTIN.Coding.header) rfl (by decide)
    (fun cs f v hv => ⟨(C92_sgtin x cs f v hv []).1, (C92_sgtin x cs f v hv []).2.1⟩) (fun cs f t ht => ?_)
    (fun cs f b hb => let ⟨r, h, _⟩ := Epc.SGTIN.binary_split hb; ⟨r, h⟩) (fun cs => by cases cs <;> rfl) (by decide +kernel) ?_ p hp k n hk
  · obtain ⟨b, rfl, rfl⟩ := Epc.SGTIN.tagUri_form hu ht
    simp [fieldsOf, afterColons, tagUriPrefix]
  · intro p hp
    simp only [codingNames, List.mem_cons, List.not_mem_nil, or_false] at hp
    rcases hp with rfl | rfl
    · exact ⟨.sgtin96, rfl, rfl, rfl⟩
    · exact ⟨.sgtin198, rfl, rfl, rfl⟩

private theorem tag_SSCC {u : Str} {x : Epc.SSCC} (hu : Epc.SSCC.new u = .ok x) (p : Nm × Str × Str) (hp : p ∈ codingNames .sscc) (k : Nat) (n : Nm)
    (hk : (filterNames .sscc)[k]? = some n) :
    ∃ s f, codingMember .SSCC p.1 = .ok s ∧ moduleMember .sscc .SSCCFilterValue n = .ok f ∧ NamedTag (objSSCC x) s f p.2.1 p.2.2 (fieldsOf .sscc u) 3 k := by
  refine tag_gen (n := 8) (cod := codSSCC) (val := Epc.SSCC.Coding.value) (hdr := Epc.SSCC.Coding.header) rfl (by decide)
    (fun cs f v hv => ⟨(C92_sscc x cs f v hv []).1, (C92_sscc x cs f v hv []).2.1⟩) (fun cs f t ht => ?_)
    (fun cs f b hb => let ⟨r, h, _⟩ := Epc.SSCC.binary_split hb; ⟨r, h⟩) (fun cs => by cases cs <;> rfl) (by decide +kernel) ?_ p hp k n hk
  · obtain ⟨b, rfl, rfl⟩ := Epc.SSCC.tagUri_form hu ht
    simp [fieldsOf, afterColons, tagUriPrefix]
  · intro p hp
    simp only [codingNames, List.mem_cons, List.not_mem_nil, or_false] at hp
    subst hp
    exact ⟨.sscc96, rfl, rfl, rfl⟩

private theorem tag_SGLN {u : Str} {x : Epc.SGLN} (hu : Epc.SGLN.new u = .ok x) (p : Nm × Str × Str) (hp : p ∈ codingNames .sgln) (k : Nat) (n : Nm)
    (hk : (filterNames .sgln)[k]? = some n) :
    ∃ s f, codingMember .SGLN p.1 = .ok s ∧ moduleMember .sgln .SGLNFilterValue n = .ok f ∧ NamedTag (objSGLN x) s f p.2.1 p.2.2 (fieldsOf .sgln u) 3 k := by
  refine tag_gen (n := 8) (cod := codSGLN) (val := Epc.SGLN.Coding.value) (hdr := Epc.SGLN.Coding.header) rfl (by decide)
    (fun cs f v hv => ⟨(C92_sgln x cs f v hv []).1, (C92_sgln x cs f v hv []).2.1⟩) (fun cs f t ht => ?_)
    (fun cs f b hb => let ⟨r, h, _⟩ := Epc.SGLN.binary_split hb; ⟨r, h⟩) (fun cs => by cases cs <;> rfl) (by decide +kernel) ?_ p hp k n hk
  · obtain ⟨b, rfl, rfl⟩ := Epc.SGLN.tagUri_form hu ht
    simp [fieldsOf, afterColons, tagUriPrefix]
  · intro p hp
    simp only [codingNames, List.mem_cons, List.not_mem_nil, or_false] at hp
    rcases hp with rfl | rfl
    · exact ⟨.sgln96, rfl, rfl, rfl⟩
    · exact ⟨.sgln195, rfl, rfl, rfl⟩

private theorem tag_GRAI {u : Str} {x : Epc.GRAI} (hu : Epc.GRAI.new u = .ok x) (p : Nm × Str × Str) (hp : p ∈ codingNames .grai) (k : Nat) (n : Nm)
    (hk : (filterNames .grai)[k]? = some n) :
    ∃ s f, codingMember .GRAI p.1 = .ok s ∧ moduleMember .grai .GRAIFilterValue n = .ok f ∧ NamedTag (objGRAI x) s f p.2.1 p.2.2 (fieldsOf .grai u) 3 k := by
  refine tag_gen (n := 8) (cod := codGRAI) (val := Epc.GRAI.Coding.value) (hdr := Epc.GRAI.Coding.header) rfl (by decide)
    (fun cs f v hv => ⟨(C92_grai x cs f v hv []).1, (C92_grai x cs f v hv []).2.1⟩) (fun cs f t ht => ?_)
    (fun cs f b hb => let ⟨r, h, _⟩ := Epc.GRAI.binary_split hb; ⟨r, h⟩) (fun cs => by cases cs <;> rfl) (by decide +kernel) ?_ p hp k n hk
  · obtain ⟨b, rfl, rfl⟩ := Epc.GRAI.tagUri_form hu ht
    simp [fieldsOf, afterColons, tagUriPrefix]
  · intro p hp
    simp only [codingNames, List.mem_cons, List.not_mem_nil, or_false] at hp
    rcases hp with rfl | rfl
    · exact ⟨.grai96, rfl, rfl, rfl⟩
    · exact ⟨.grai170, rfl, rfl, rfl⟩

private theorem tag_GIAI {u : Str} {x : Epc.GIAI} (hu : Epc.GIAI.new u = .ok x) (p : Nm × Str × Str) (hp : p ∈ codingNames .giai) (k : Nat) (n : Nm)
    (hk : (filterNames .giai)[k]? = some n) :
    ∃ s f, codingMember .GIAI p.1 = .ok s ∧ moduleMember .giai .GIAIFilterValue n = .ok f ∧ NamedTag (objGIAI x) s f p.2.1 p.2.2 (fieldsOf .giai u) 3 k := by
  refine tag_gen (n := 8) (cod := codGIAI) (val := Epc.GIAI.Coding.value) (hdr := Epc.GIAI.Coding.header) rfl (by decide)
    (fun cs f v hv => ⟨(C92_giai x cs f v hv []).1, (C92_giai x cs f v hv []).2.1⟩) (fun cs f t ht => ?_)
    (fun cs f b hb => let ⟨r, h, _⟩ := Epc.GIAI.binary_split hb; ⟨r, h⟩) (fun cs => by cases cs <;> rfl) (by decide +kernel) ?_ p hp k n hk
  · obtain ⟨C, S, hC, -, rfl, -, -, rfl⟩ := Epc.GIAI.tagUri_form hu ht
    simp [fieldsOf, afterColons, GIAI_fields hC.2, tagUriPrefix]
  · intro p hp
    simp only [codingNames, List.mem_cons, List.not_mem_nil, or_false] at hp
    rcases hp with rfl | rfl
    · exact ⟨.giai96, rfl, rfl, rfl⟩
    · exact ⟨.giai202, rfl, rfl, rfl⟩

private theorem tag_GSRN {u : Str} {x : Epc.GSRN} (hu : Epc.GSRN.new u = .ok x) (p : Nm × Str × Str) (hp : p ∈ codingNames .gsrn) (k : Nat) (n : Nm)
    (hk : (filterNames .gsrn)[k]? = some n) :
    ∃ s f, codingMember .GSRN p.1 = .ok s ∧ moduleMember .gsrn .GSRNFilterValue n = .ok f ∧ NamedTag (objGSRN x) s f p.2.1 p.2.2 (fieldsOf .gsrn u) 3 k := by
  refine tag_gen (n := 8) (cod := codGSRN) (val := Epc.GSRN.Coding.value) (hdr := Epc.GSRN.Coding.header) rfl (by decide)
    (fun cs f v hv => ⟨(C92_gsrn x cs f v hv []).1, (C92_gsrn x cs f v hv []).2.1⟩) (fun cs f t ht => ?_)
    (fun cs f b hb => let ⟨r, h, _⟩ := Epc.GSRN.binary_split hb; ⟨r, h⟩) (fun cs => by cases cs <;> rfl) (by decide +kernel) ?_ p hp k n hk
  · obtain ⟨b, rfl, rfl⟩ := Epc.GSRN.tagUri_form hu ht
    simp [fieldsOf, afterColons, tagUriPrefix]
  · intro p hp
    simp only [codingNames, List.mem_cons, List.not_mem_nil, or_false] at hp
    subst hp
    exact ⟨.gsrn96, rfl, rfl, rfl⟩

private theorem tag_GSRNP {u : Str} {x : Epc.GSRNP} (hu : Epc.GSRNP.new u = .ok x) (p : Nm × Str × Str) (hp : p ∈ codingNames .gsrnp) (k : Nat) (n : Nm)
    (hk : (filterNames .gsrnp)[k]? = some n) :
    ∃ s f, codingMember .GSRNP p.1 = .ok s ∧ moduleMember .gsrnp .GSRNPFilterValue n = .ok f ∧ NamedTag (objGSRNP x) s f p.2.1 p.2.2 (fieldsOf .gsrnp u) 3 k := by
  refine tag_gen (n := 8) (cod := codGSRNP) (val := Epc.GSRNP.Coding.value) (hdr := Epc.GSRNP.Coding.header) rfl (by decide)
    (fun cs f v hv => ⟨(C92_gsrnp x cs f v hv []).1, (C92_gsrnp x cs f v hv []).2.1⟩) (fun cs f t ht => ?_)
    (fun cs f b hb => let ⟨r, h, _⟩ := Epc.GSRNP.binary_split hb; ⟨r, h⟩) (fun cs => by cases cs <;> rfl) (by decide +kernel) ?_ p hp k n hk
  · obtain ⟨b, rfl, rfl⟩ := Epc.GSRNP.tagUri_form hu ht
    simp [fieldsOf, afterColons, tagUriPrefix]
  · intro p hp
    simp only [codingNames, List.mem_cons, List.not_mem_nil, or_false] at hp
    subst hp
    exact ⟨.gsrnp96, rfl, rfl, rfl⟩

private theorem tag_GDTI {u : Str} {x : Epc.GDTI} (hu : Epc.GDTI.new u = .ok x) (p : Nm × Str × Str) (hp : p ∈ codingNames .gdti) (k : Nat) (n : Nm)
    (hk : (filterNames .gdti)[k]? = some n) :
    ∃ s f, codingMember .GDTI p.1 = .ok s ∧ moduleMember .gdti .GDTIFilterValue n = .ok f ∧ NamedTag (objGDTI x) s f p.2.1 p.2.2 (fieldsOf .gdti u) 3 k := by
  refine tag_gen (n := 8) (cod := codGDTI) (val := Epc.GDTI.Coding.value) (hdr := Epc.GDTI.Coding.header) rfl (by decide)
    (fun cs f v hv => ⟨(C92_gdti x cs f v hv []).1, (C92_gdti x cs f v hv []).2.1⟩) (fun cs f t ht => ?_)
    (fun cs f b hb => let ⟨r, h, _⟩ := Epc.GDTI.binary_split hb; ⟨r, h⟩) (fun cs => by cases cs <;> rfl) (by decide +kernel) ?_ p hp k n hk
  · obtain ⟨b, rfl, rfl⟩ := Epc.GDTI.tagUri_form hu ht
    simp [fieldsOf, afterColons, tagUriPrefix]
  · intro p hp
    simp only [codingNames, List.mem_cons, List.not_mem_nil, or_false] at hp
    rcases hp with rfl | rfl
    · exact ⟨.gdti96, rfl, rfl, rfl⟩
    · exact ⟨.gdti174, rfl, rfl, rfl⟩

private theorem tag_SGCN {u : Str} {x : Epc.SGCN} (hu : Epc.SGCN.new u = .ok x) (p : Nm × Str × Str) (hp : p ∈ codingNames .sgcn) (k : Nat) (n : Nm)
    (hk : (filterNames .sgcn)[k]? = some n) :
    ∃ s f, codingMember .SGCN p.1 = .ok s ∧ moduleMember .sgcn .SGCNFilterValue n = .ok f ∧ NamedTag (objSGCN x) s f p.2.1 p.2.2 (fieldsOf .sgcn u) 3 k := by
  refine tag_gen (n := 8) (cod := codSGCN) (val := Epc.SGCN.Coding.value) (hdr := Epc.SGCN.Coding.header) rfl (by decide)
    (fun cs f v hv => ⟨(C92_sgcn x cs f v hv []).1, (C92_sgcn x cs f v hv []).2.1⟩) (fun cs f t ht => ?_)
    (fun cs f b hb => let ⟨r, h, _⟩ := Epc.SGCN.binary_split hb; ⟨r, h⟩) (fun cs => by cases cs <;> rfl) (by decide +kernel) ?_ p hp k n hk
  · obtain ⟨b, rfl, rfl⟩ := Epc.SGCN.tagUri_form hu ht
    simp [fieldsOf, afterColons, tagUriPrefix]
  · intro p hp
    simp only [codingNames, List.mem_cons, List.not_mem_nil, or_false] at hp
    subst hp
    exact ⟨.sgcn96, rfl, rfl, rfl⟩

private theorem tag_CPI {u : Str} {x : Epc.CPI} (hu : Epc.CPI.new u = .ok x) (p : Nm × Str × Str) (hp : p ∈ codingNames .cpi) (k : Nat) (n : Nm)
    (hk : (filterNames .cpi)[k]? = some n) :
    ∃ s f, codingMember .CPI p.1 = .ok s ∧ moduleMember .cpi .CPIFilterValue n = .ok f ∧ NamedTag (objCPI x) s f p.2.1 p.2.2 (fieldsOf .cpi u) 3 k := by
  refine tag_gen (n := 8) (cod := codCPI) (val := Epc.CPI.Coding.value) (hdr := Epc.CPI.Coding.header) rfl (by decide)
    (fun cs f v hv => ⟨(C92_cpi x cs f v hv []).1, (C92_cpi x cs f v hv []).2.1⟩) (fun cs f t ht => ?_)
    (fun cs f b hb => let ⟨r, h, _⟩ := Epc.CPI.binary_split hb; ⟨r, h⟩) (fun cs => by cases cs <;> rfl) (by decide +kernel) ?_ p hp k n hk
  · obtain ⟨b, rfl, rfl⟩ := Epc.CPI.tagUri_form hu ht
    simp [fieldsOf, afterColons, tagUriPrefix]
  · intro p hp
    simp only [codingNames, List.mem_cons, List.not_mem_nil, or_false] at hp
    rcases hp with rfl | rfl
    · exact ⟨.cpi96, rfl, rfl, rfl⟩
    · exact ⟨.cpiVar, rfl, rfl, rfl⟩

private theorem tag_ITIP {u : Str} {x : Epc.ITIP} (hu : Epc.ITIP.new u = .ok x) (p : Nm × Str × Str) (hp : p ∈ codingNames .itip) (k : Nat) (n : Nm)
    (hk : (filterNames .itip)[k]? = some n) :
    ∃ s f, codingMember .ITIP p.1 = .ok s ∧ moduleMember .itip .ITIPFilterValue n = .ok f ∧ NamedTag (objITIP x) s f p.2.1 p.2.2 (fieldsOf .itip u) 3 k := by
  refine tag_gen (n := 8) (cod := codITIP) (val := Epc.ITIP.Coding.value) (hdr := Epc.ITIP.Coding.header) rfl (by decide)
    (fun cs f v hv => ⟨(C92_itip x cs f v hv []).1, (C92_itip x cs f v hv []).2.1⟩) (fun cs f t ht => ?_)
    (fun cs f b hb => let ⟨r, h, _⟩ := Epc.ITIP.binary_split hb; ⟨r, h⟩) (fun cs => by cases cs <;> rfl) (by decide +kernel) ?_ p hp k n hk
  · obtain ⟨b, rfl, rfl⟩ := Epc.ITIP.tagUri_form hu ht
    simp [fieldsOf, afterColons, tagUriPrefix]
  · intro p hp
    simp only [codingNames, List.mem_cons, List.not_mem_nil, or_false] at hp
    rcases hp with rfl | rfl
    · exact ⟨.itip110, rfl, rfl, rfl⟩
    · exact ⟨.itip212, rfl, rfl, rfl⟩

private theorem tag_USDOD {u : Str} {x : Epc.USDOD} (hu : Epc.USDOD.new u = .ok x) (p : Nm × Str × Str) (hp : p ∈ codingNames .usdod) (k : Nat) (n : Nm)
    (hk : (filterNames .usdod)[k]? = some n) :
    ∃ s f, codingMember .USDOD p.1 = .ok s ∧ moduleMember .usdod .USDODFilterValue n = .ok f ∧ NamedTag (objUSDOD x) s f p.2.1 p.2.2 (fieldsOf .usdod u) 4 k := by
  refine tag_gen (n := 16) (cod := codUSDOD) (val := Epc.USDOD.Coding.value) (hdr := Epc.USDOD.Coding.header) rfl (by decide)
    (fun cs f v hv => ⟨(C92_usdod x cs f v hv []).1, (C92_usdod x cs f v hv []).2.1⟩) (fun cs f t ht => ?_)
    (fun cs f b hb => let ⟨r, h, _⟩ := Epc.USDOD.binary_split hb; ⟨r, h⟩) (fun cs => by cases cs <;> rfl) (by decide +kernel) ?_ p hp k n hk
  · obtain ⟨b, rfl, rfl⟩ := Epc.USDOD.tagUri_form hu ht
    simp [fieldsOf, afterColons, tagUriPrefix]
  · intro p hp
    simp only [codingNames, List.mem_cons, List.not_mem_nil, or_false] at hp
    subst hp
    exact ⟨.usdod96, rfl, rfl, rfl⟩

private theorem tag_ADI {u : Str} {x : Epc.ADI} (hu : Epc.ADI.new u = .ok x) (p : Nm × Str × Str) (hp : p ∈ codingNames .adi) (k : Nat) (n : Nm)
    (hk : (filterNames .adi)[k]? = some n) :
    ∃ s f, codingMember .ADI p.1 = .ok s ∧ moduleMember .adi .ADIFilterValue n = .ok f ∧ NamedTag (objADI x) s f p.2.1 p.2.2 (fieldsOf .adi u) 6 k := by
  refine tag_gen (n := 64) (cod := codADI) (val := Epc.ADI.Coding.value) (hdr := Epc.ADI.Coding.header) rfl (by decide)
    (fun cs f v hv => ⟨(C92_adi x cs f v hv []).1, (C92_adi x cs f v hv []).2.1⟩) (fun cs f t ht => ?_)
    (fun cs f b hb => let ⟨r, h, _⟩ := Epc.ADI.binary_split hb; ⟨r, h⟩) (fun cs => by cases cs <;> rfl) (by decide +kernel) ?_ p hp k n hk
  · obtain ⟨b, rfl, rfl⟩ := Epc.ADI.tagUri_form hu ht
    simp [fieldsOf, afterColons, tagUriPrefix]
  · intro p hp
    simp only [codingNames, List.mem_cons, List.not_mem_nil, or_false] at hp
    subst hp
    exact ⟨.adiVar, rfl, rfl, rfl⟩

/-- Tags with a coding scheme and a filter value given by name. -/
theorem C104_tags (c : Cls) (u : Str) (o : Val) (h : construct (clOf c) [.str u] = .ok o) (m : Mod) (e : Nm) (he : filterHome c = some (m, e))
    (p : Nm × Str × Str) (hp : p ∈ codingNames c) (k : Nat) (n : Nm) (hk : (filterNames c)[k]? = some n) :
    ∃ s f, codingMember (clOf c) p.1 = .ok s ∧ moduleMember m e n = .ok f ∧ NamedTag o s f p.2.1 p.2.2 (fieldsOf c u) (filterWidth c) k := by
  obtain ⟨x, hx, rfl⟩ := new_of h
  cases c <;> simp only [filterHome, Option.some.injEq, Prod.mk.injEq, reduceCtorEq] at he
  · obtain ⟨rfl, rfl⟩ := he
    obtain ⟨y, hy, rfl⟩ := map_ok hx
    exact tag_ADI hy p hp k n hk
  · obtain ⟨rfl, rfl⟩ := he
    obtain ⟨y, hy, rfl⟩ := map_ok hx
    exact tag_CPI hy p hp k n hk
  · obtain ⟨rfl, rfl⟩ := he
    obtain ⟨y, hy, rfl⟩ := map_ok hx
    exact tag_GDTI hy p hp k n hk
  · obtain ⟨rfl, rfl⟩ := he
    obtain ⟨y, hy, rfl⟩ := map_ok hx
    exact tag_GIAI hy p hp k n hk
  · obtain ⟨rfl, rfl⟩ := he
    obtain ⟨y, hy, rfl⟩ := map_ok hx
    exact tag_GRAI hy p hp k n hk
  · obtain ⟨rfl, rfl⟩ := he
    obtain ⟨y, hy, rfl⟩ := map_ok hx
    exact tag_GSRN hy p hp k n hk
  · obtain ⟨rfl, rfl⟩ := he
    obtain ⟨y, hy, rfl⟩ := map_ok hx
    exact tag_GSRNP hy p hp k n hk
  · obtain ⟨rfl, rfl⟩ := he
    obtain ⟨y, hy, rfl⟩ := map_ok hx
    exact tag_ITIP hy p hp k n hk
  · obtain ⟨rfl, rfl⟩ := he
    obtain ⟨y, hy, rfl⟩ := map_ok hx
    exact tag_SGCN hy p hp k n hk
  · obtain ⟨rfl, rfl⟩ := he
    obtain ⟨y, hy, rfl⟩ := map_ok hx
    exact tag_SGLN hy p hp k n hk
  · obtain ⟨rfl, rfl⟩ := he
    obtain ⟨y, hy, rfl⟩ := map_ok hx
    exact tag_SGTIN hy p hp k n hk
  · obtain ⟨rfl, rfl⟩ := he
    obtain ⟨y, hy, rfl⟩ := map_ok hx
    exact tag_SSCC hy p hp k n hk
  · obtain ⟨rfl, rfl⟩ := he
    obtain ⟨y, hy, rfl⟩ := map_ok hx
    exact tag_USDOD hy p hp k n hk

/-- The enumerations have no other members. -/
theorem C104_all (c : Cls) (e : Cl) (he : filterEnum (clOf c) = some e) :
    (clsDict e).map (·.1) = filterNames c ∧ (codings (clOf c)).map (fun s => match s with | .member _ _ n _ v => some (n, v) | _ => none) =
      (codingNames c).map fun p => some (p.1, p.2.1) := by
  cases c <;> simp only [filterEnum, clOf, Option.some.injEq, reduceCtorEq] at he <;> subst he <;> decide +kernel

private theorem gtin_gen {m : Mod} {o : Val} {K : Option GtinType → Except Err Str} {G : GtinType → Except Err Str}
    (hm : ∀ p ∈ gtinMembers, ∃ t : GtinType, moduleMember m .GTIN_TYPE p.1 = .ok (.int t.toNat) ∧ gtinLength t = p.2)
    (h0 : invoke o .gs1_key [] [] = outcome .str (K none)) (h1 : ∀ t : GtinType, invoke o .gs1_key [] [(.gtin_type, .int t.toNat)] = outcome .str (K (some t)))
    (h2 : ∀ t : GtinType, invoke o .gtin [] [(.gtin_type, .int t.toNat)] = outcome .str (G t)) (hG : ∀ t, G t = K (some t))
    (hK : ∀ t, ∃ g, K none = .ok g ∧ g.length = 14 ∧ (∀ k, K (some t) = .ok k ↔ g = List.replicate (14 - gtinLength t) '0' ++ k) ∧
      (∀ k, K (some t) = .ok k → k.length = gtinLength t) ∧ ((∀ k, g ≠ List.replicate (14 - gtinLength t) '0' ++ k) → K (some t) = .error .convert))
    (p : Nm × Nat) (hp : p ∈ gtinMembers) (w : Nm) (hw : w = .gtin ∨ w = .gs1_key) :
    ∃ v g, moduleMember m .GTIN_TYPE p.1 = .ok v ∧ invoke o .gs1_key [] [] = .ok (.str g) ∧ g.length = 14 ∧
      (∀ t, invoke o w [] [(.gtin_type, v)] = .ok (.str t) ↔ g = List.replicate (14 - p.2) '0' ++ t) ∧
      ((∀ t, g ≠ List.replicate (14 - p.2) '0' ++ t) → invoke o w [] [(.gtin_type, v)] = .error (.err .convert)) := by
  obtain ⟨t, ht, hl⟩ := hm p hp
  obtain ⟨g, e, hg, k1, -, k3⟩ := hK t
  have hi : invoke o w [] [(.gtin_type, .int t.toNat)] = outcome .str (K (some t)) := by
    rcases hw with rfl | rfl
    · rw [h2, hG]
    · exact h1 t
  rw [hl] at k1 k3
  refine ⟨_, g, ht, by rw [h0, e]; rfl, hg, fun s => ?_, fun hne => ?_⟩
  · rw [hi, outcome_str_ok]; exact k1 s
  · rw [hi, k3 hne]; rfl

/-- `gtin(gtin_type=GTIN_TYPE.GTINn)` and `gs1_key(gtin_type=GTIN_TYPE.GTINn)`: the GTIN-14 without the leading zeros that are too many. -/
theorem C104_gtin (c : Cls) (m : Mod) (hc : c = .sgtin ∧ m = .sgtin ∨ c = .lgtin ∧ m = .lgtin) (u : Str) (o : Val) (h : construct (clOf c) [.str u] = .ok o)
    (p : Nm × Nat) (hp : p ∈ gtinMembers) (w : Nm) (hw : w = .gtin ∨ w = .gs1_key) :
    ∃ v g, moduleMember m .GTIN_TYPE p.1 = .ok v ∧ invoke o .gs1_key [] [] = .ok (.str g) ∧ g.length = 14 ∧
      (∀ t, invoke o w [] [(.gtin_type, v)] = .ok (.str t) ↔ g = List.replicate (14 - p.2) '0' ++ t) ∧
      ((∀ t, g ≠ List.replicate (14 - p.2) '0' ++ t) → invoke o w [] [(.gtin_type, v)] = .error (.err .convert)) := by
  obtain ⟨x, hx, rfl⟩ := new_of h
  rcases hc with ⟨rfl, rfl⟩ | ⟨rfl, rfl⟩
  · obtain ⟨y, hy, rfl⟩ := map_ok hx
    refine gtin_gen (K := fun t => (Scheme.sgtin y).gs1Key t) (G := fun t => y.gtin t) (fun p hp => ?_) (C92_keys (.sgtin y) none rfl) (fun t => C92_keys (.sgtin y) (some t) rfl)
      (fun t => (C92_gtin y ⟨[], [], [], [], []⟩ t).1) (fun t => rfl) (fun t => C34_sgtin u y t hy) p hp w hw
    simp only [gtinMembers, List.mem_cons, List.not_mem_nil, or_false] at hp
    rcases hp with rfl | rfl | rfl | rfl
    · exact ⟨.gtin8, rfl, rfl⟩
    · exact ⟨.gtin12, rfl, rfl⟩
    · exact ⟨.gtin13, rfl, rfl⟩
    · exact ⟨.gtin14, rfl, rfl⟩
  · obtain ⟨y, hy, rfl⟩ := map_ok hx
    refine gtin_gen (K := fun t => (Scheme.lgtin y).gs1Key t) (G := fun t => y.gtin t) (fun p hp => ?_) (C92_keys (.lgtin y) none rfl) (fun t => C92_keys (.lgtin y) (some t) rfl)
      (fun t => (C92_gtin ⟨[], [], [], [], []⟩ y t).2) (fun t => rfl) (fun t => C34_lgtin u y t hy) p hp w hw
    simp only [gtinMembers, List.mem_cons, List.not_mem_nil, or_false] at hp
    rcases hp with rfl | rfl | rfl | rfl
    · exact ⟨.gtin8, rfl, rfl⟩
    · exact ⟨.gtin12, rfl, rfl⟩
    · exact ⟨.gtin13, rfl, rfl⟩
    · exact ⟨.gtin14, rfl, rfl⟩

/-- Cases: the README's SGTIN with the filter value for point of sale items; a GIAI with a colon; a GTIN-13 and a GTIN-12 that does not exist. -/
example : filterHome .sgtin = some (.sgtin, .SGTINFilterValue) ∧ (filterNames .sgtin)[1]? = some .POS_ITEM ∧
    (.SGTIN_198, py "sgtin-198", py "00110110") ∈ codingNames .sgtin := by decide
example : returnsStr (do
      let o ← construct .SGTIN [.str (py "urn:epc:id:sgtin:00000950.01093.Serial")]
      let s ← codingMember .SGTIN .SGTIN_198
      let f ← moduleMember .sgtin .SGTINFilterValue .POS_ITEM
      invoke o .tag_uri [] [(.binary_coding_scheme, s), (.filter_value, f)]) (py "urn:epc:tag:sgtin-198:1.00000950.01093.Serial") := by decide +kernel
example : returnsStr (do
      let o ← construct .GIAI [.str (py "urn:epc:id:giai:0614141.12:a")]
      let s ← codingMember .GIAI .GIAI_202
      let f ← moduleMember .giai .GIAIFilterValue .RAIL_VEHICLE
      invoke o .tag_uri [] [(.binary_coding_scheme, s), (.filter_value, f)])
    (py "urn:epc:tag:giai-202:1." ++ fieldsOf .giai (py "urn:epc:id:giai:0614141.12:a")) := by decide +kernel
example : returnsStr (do
      let o ← construct .LGTIN [.str (py "urn:epc:class:lgtin:0614141.012345.998877")]
      let v ← moduleMember .lgtin .GTIN_TYPE .GTIN13
      invoke o .gtin [] [(.gtin_type, v)]) (py "0614141123452") := by decide +kernel
example : raises (do
      let o ← construct .SGTIN [.str (py "urn:epc:id:sgtin:9521141.012345.4711")]
      let v ← moduleMember .sgtin .GTIN_TYPE .GTIN12
      invoke o .gtin [] [(.gtin_type, v)]) (.err .convert) := by decide +kernel

end Epc.Src
