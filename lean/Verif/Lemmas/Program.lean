/-
Programs that send EPCs on.
-/
import Verif.Spec.Program
import Verif.Lemmas.Relay
import Verif.Lemmas.Source
import Verif.Props.C91
import Verif.Props.C92
import Verif.Props.C93

namespace Epc.Src
open Spec Grammar

theorem outcome_str_ok {r : Except Err Str} {t : Str} : outcome .str r = .ok (.str t) ↔ r = .ok t := by
  cases r <;> simp [outcome]

theorem outcome_str_inj {a b : Except Err Str} : outcome .str a = outcome .str b ↔ a = b := by
  cases a <;> cases b <;> simp [outcome]

theorem objScheme_inj {x y : Scheme} (h : objScheme x = objScheme y) : x = y := by
  cases x <;> cases y <;> first
    | (exfalso; revert h; simp [objScheme, objADI, objBIC, objCPI, objGDTI, objGIAI, objGID, objGINC, objGRAI, objGSIN, objGSRN, objGSRNP, objIMOVN,
        objITIP, objLGTIN, objPGLN, objSGCN, objSGLN, objSGTIN, objSSCC, objUPUI, objUSDOD]; done)
    | (rename_i a b; cases a; cases b
       have h' := h
       simp [objScheme, objADI, objBIC, objCPI, objGDTI, objGIAI, objGID, objGINC, objGRAI, objGSIN, objGSRN, objGSRNP, objIMOVN,
        objITIP, objLGTIN, objPGLN, objSGCN, objSGLN, objSGTIN, objSSCC, objUPUI, objUSDOD, tagAttrs] at h'
       simp [h'])

theorem outcome_scheme_ok {r : Except Err Scheme} {x : Scheme} : outcome objScheme r = .ok (objScheme x) ↔ r = .ok x := by
  cases r with
  | error e => simp [outcome]
  | ok y => exact ⟨fun h => by rw [objScheme_inj (Except.ok.inj h)], fun h => by rw [h]; rfl⟩

/-- One step decides. -/
theorem chain_iff {o : Val} : (∀ r, Chain o r → r = .ok o) ↔ ∀ r, SentOn o r → r = .ok o := by
  constructor
  · intro H r hr
    cases r with
    | ok y => exact H _ (.onward o y _ hr (.arrived y))
    | error e => exact H _ (.lost o e hr)
  · intro H r hr
    induction hr with
    | arrived => rfl
    | onward y z r hs _ ih =>
      cases H _ hs
      exact ih H
    | lost y e hs => exact H _ hs

def memberValue : Val → Option Str
  | .member _ _ _ _ v => some v
  | _ => .none

theorem isFilter_of {n : Nat} {e : Cl} (h : (members e).map memberValue = (List.range n).map fun k => some (filterStr k)) :
    (∀ v ∈ members e, ∃ f : Fin n, IsFilter f v) ∧ ∀ f : Fin n, ∃ v ∈ members e, IsFilter f v := by
  have key : ∀ (v : Val) (f : Fin n), memberValue v = some (filterStr f) → IsFilter f v := by
    intro v f hv
    cases v <;> simp only [memberValue, Option.some.injEq, reduceCtorEq] at hv
    subst hv
    exact ⟨_, _, _, _, rfl⟩
  constructor
  · intro v hv
    have : memberValue v ∈ (List.range n).map fun k => some (filterStr k) := h ▸ List.mem_map_of_mem hv
    obtain ⟨k, hk, e⟩ := List.mem_map.1 this
    exact ⟨⟨k, List.mem_range.1 hk⟩, key v _ e.symm⟩
  · intro f
    have : some (filterStr f) ∈ (members e).map memberValue := by
      rw [h]; exact List.mem_map.2 ⟨f, List.mem_range.2 f.2, rfl⟩
    obtain ⟨v, hv, e⟩ := List.mem_map.1 this
    exact ⟨v, hv, key v f e⟩

theorem forms_gen {Coding : Type} {n : Nat} {cod : Coding → Val} {cods : List Coding} {o : Val} {e : Cl}
    (hall : ∀ c, c ∈ cods)
    (hopt : options o = (cods.map cod).flatMap fun s => (members e).map fun f => [(.binary_coding_scheme, s), (.filter_value, f)])
    (hmem : (members e).map memberValue = (List.range n).map fun k => some (filterStr k))
    {T B H S : Coding → Fin n → Except Err Str}
    (hw : ∀ cs f v, IsFilter f v → invoke o .tag_uri [] [(.binary_coding_scheme, cod cs), (.filter_value, v)] = outcome .str (T cs f) ∧
      invoke o .binary [] [(.binary_coding_scheme, cod cs), (.filter_value, v)] = outcome .str (B cs f) ∧
      invoke o .hex [] [(.binary_coding_scheme, cod cs), (.filter_value, v)] = outcome .str (H cs f) ∧
      invoke o .base64 [] [(.binary_coding_scheme, cod cs), (.filter_value, v)] = outcome .str (S cs f)) :
    (∀ t b h s, (∃ cs f, T cs f = .ok t ∧ B cs f = b ∧ H cs f = h ∧ S cs f = s) ↔
    ∃ kw ∈ options o, invoke o .tag_uri [] kw = .ok (.str t) ∧ invoke o .binary [] kw = outcome .str b ∧
      invoke o .hex [] kw = outcome .str h ∧ invoke o .base64 [] kw = outcome .str s) ∧
    ∀ kw ∈ options o, ∃ b h s, invoke o .binary [] kw = outcome .str b ∧ invoke o .hex [] kw = outcome .str h ∧
      invoke o .base64 [] kw = outcome .str s := by
  obtain ⟨m1, m2⟩ := isFilter_of hmem
  rw [hopt]
  refine ⟨fun t b h s => ⟨?_, ?_⟩, ?_⟩
  · rintro ⟨cs, f, e1, e2, e3, e4⟩
    obtain ⟨v, hv, hf⟩ := m2 f
    obtain ⟨w1, w2, w3, w4⟩ := hw cs f v hf
    exact ⟨_, List.mem_flatMap.2 ⟨_, List.mem_map_of_mem (hall cs), List.mem_map_of_mem hv⟩, by rw [w1, e1]; rfl, by rw [w2, e2], by rw [w3, e3],
      by rw [w4, e4]⟩
  · rintro ⟨kw, hkw, e1, e2, e3, e4⟩
    obtain ⟨c, hc, hkw⟩ := List.mem_flatMap.1 hkw
    obtain ⟨cs, -, rfl⟩ := List.mem_map.1 hc
    obtain ⟨v, hv, rfl⟩ := List.mem_map.1 hkw
    obtain ⟨f, hf⟩ := m1 v hv
    obtain ⟨w1, w2, w3, w4⟩ := hw cs f v hf
    rw [w1] at e1; rw [w2] at e2; rw [w3] at e3; rw [w4] at e4
    exact ⟨cs, f, outcome_str_ok.1 e1, outcome_str_inj.1 e2, outcome_str_inj.1 e3, outcome_str_inj.1 e4⟩
  · intro kw hkw
    obtain ⟨c, hc, hkw⟩ := List.mem_flatMap.1 hkw
    obtain ⟨cs, -, rfl⟩ := List.mem_map.1 hc
    obtain ⟨v, hv, rfl⟩ := List.mem_map.1 hkw
    obtain ⟨f, hf⟩ := m1 v hv
    exact ⟨_, _, _, (hw cs f v hf).2⟩

theorem forms_none {x : Scheme} (h : options (objScheme x) = []) {P : List (Nm × Val) → Prop} : ¬ ∃ kw ∈ options (objScheme x), P kw := by
  rw [h]; rintro ⟨_, hk, _⟩; cases hk

/-- The model and the executed source write the same tags. -/
def FormsAgree (x : Scheme) : Prop :=
  (∀ t b h s, Forms t b h s x ↔
    ∃ kw ∈ options (objScheme x), invoke (objScheme x) .tag_uri [] kw = .ok (.str t) ∧ invoke (objScheme x) .binary [] kw = outcome .str b ∧
      invoke (objScheme x) .hex [] kw = outcome .str h ∧ invoke (objScheme x) .base64 [] kw = outcome .str s) ∧
  ∀ kw ∈ options (objScheme x), ∃ b h s, invoke (objScheme x) .binary [] kw = outcome .str b ∧ invoke (objScheme x) .hex [] kw = outcome .str h ∧
    invoke (objScheme x) .base64 [] kw = outcome .str s

theorem forms_SGTIN (x : Epc.SGTIN) : FormsAgree (.sgtin x) :=
  forms_gen (cod := codSGTIN) (cods := [.sgtin96, .sgtin198]) (e := .SGTINFilterValue) (by intro c; cases c <;> decide) rfl (by decide +kernel)
    (fun cs f v hv => C92_sgtin x cs f v hv [])

theorem forms_SSCC (x : Epc.SSCC) : FormsAgree (.sscc x) :=
  forms_gen (cod := codSSCC) (cods := [.sscc96]) (e := .SSCCFilterValue) (by intro c; cases c <;> decide) rfl (by decide +kernel)
    (fun cs f v hv => C92_sscc x cs f v hv [])

theorem forms_SGLN (x : Epc.SGLN) : FormsAgree (.sgln x) :=
  forms_gen (cod := codSGLN) (cods := [.sgln96, .sgln195]) (e := .SGLNFilterValue) (by intro c; cases c <;> decide) rfl (by decide +kernel)
    (fun cs f v hv => C92_sgln x cs f v hv [])

theorem forms_GRAI (x : Epc.GRAI) : FormsAgree (.grai x) :=
  forms_gen (cod := codGRAI) (cods := [.grai96, .grai170]) (e := .GRAIFilterValue) (by intro c; cases c <;> decide) rfl (by decide +kernel)
    (fun cs f v hv => C92_grai x cs f v hv [])

theorem forms_GIAI (x : Epc.GIAI) : FormsAgree (.giai x) :=
  forms_gen (cod := codGIAI) (cods := [.giai96, .giai202]) (e := .GIAIFilterValue) (by intro c; cases c <;> decide) rfl (by decide +kernel)
    (fun cs f v hv => C92_giai x cs f v hv [])

theorem forms_GSRN (x : Epc.GSRN) : FormsAgree (.gsrn x) :=
  forms_gen (cod := codGSRN) (cods := [.gsrn96]) (e := .GSRNFilterValue) (by intro c; cases c <;> decide) rfl (by decide +kernel)
    (fun cs f v hv => C92_gsrn x cs f v hv [])

theorem forms_GSRNP (x : Epc.GSRNP) : FormsAgree (.gsrnp x) :=
  forms_gen (cod := codGSRNP) (cods := [.gsrnp96]) (e := .GSRNPFilterValue) (by intro c; cases c <;> decide) rfl (by decide +kernel)
    (fun cs f v hv => C92_gsrnp x cs f v hv [])

theorem forms_GDTI (x : Epc.GDTI) : FormsAgree (.gdti x) :=
  forms_gen (cod := codGDTI) (cods := [.gdti96, .gdti174]) (e := .GDTIFilterValue) (by intro c; cases c <;> decide) rfl (by decide +kernel)
    (fun cs f v hv => C92_gdti x cs f v hv [])

theorem forms_SGCN (x : Epc.SGCN) : FormsAgree (.sgcn x) :=
  forms_gen (cod := codSGCN) (cods := [.sgcn96]) (e := .SGCNFilterValue) (by intro c; cases c <;> decide) rfl (by decide +kernel)
    (fun cs f v hv => C92_sgcn x cs f v hv [])

theorem forms_CPI (x : Epc.CPI) : FormsAgree (.cpi x) :=
  forms_gen (cod := codCPI) (cods := [.cpi96, .cpiVar]) (e := .CPIFilterValue) (by intro c; cases c <;> decide) rfl (by decide +kernel)
    (fun cs f v hv => C92_cpi x cs f v hv [])

theorem forms_ITIP (x : Epc.ITIP) : FormsAgree (.itip x) :=
  forms_gen (cod := codITIP) (cods := [.itip110, .itip212]) (e := .ITIPFilterValue) (by intro c; cases c <;> decide) rfl (by decide +kernel)
    (fun cs f v hv => C92_itip x cs f v hv [])

theorem forms_USDOD (x : Epc.USDOD) : FormsAgree (.usdod x) :=
  forms_gen (cod := codUSDOD) (cods := [.usdod96]) (e := .USDODFilterValue) (by intro c; cases c <;> decide) rfl (by decide +kernel)
    (fun cs f v hv => C92_usdod x cs f v hv [])

theorem forms_ADI (x : Epc.ADI) : FormsAgree (.adi x) :=
  forms_gen (cod := codADI) (cods := [.adiVar]) (e := .ADIFilterValue) (by intro c; cases c <;> decide) rfl (by decide +kernel)
    (fun cs f v hv => C92_adi x cs f v hv [])

theorem forms_GID (x : Epc.GID) : FormsAgree (.gid x) := by
  have ho : options (objScheme (.gid x)) = [[(.binary_coding_scheme, codGID .gid96)]] := rfl
  obtain ⟨w1, w2, w3, w4⟩ := C92_gid x .gid96 []
  rw [FormsAgree, ho]
  refine ⟨fun t b h s => ⟨?_, ?_⟩, ?_⟩
  · rintro ⟨cs, e1, e2, e3, e4⟩
    cases cs
    exact ⟨_, List.mem_singleton.2 rfl, w1.trans (by rw [e1]; rfl), w2.trans (by rw [e2]), w3.trans (by rw [e3]), w4.trans (by rw [e4])⟩
  · rintro ⟨kw, hkw, e1, e2, e3, e4⟩
    rw [List.mem_singleton.1 hkw] at e1 e2 e3 e4
    exact ⟨_, outcome_str_ok.1 (w1.symm.trans e1), outcome_str_inj.1 (w2.symm.trans e2), outcome_str_inj.1 (w3.symm.trans e3),
      outcome_str_inj.1 (w4.symm.trans e4)⟩
  · intro kw hkw
    rw [List.mem_singleton.1 hkw]
    exact ⟨_, _, _, w2, w3, w4⟩

theorem forms_agree (x : Scheme) : FormsAgree x := by
  cases x
  case adi x => exact forms_ADI x
  case cpi x => exact forms_CPI x
  case gdti x => exact forms_GDTI x
  case giai x => exact forms_GIAI x
  case gid x => exact forms_GID x
  case grai x => exact forms_GRAI x
  case gsrn x => exact forms_GSRN x
  case gsrnp x => exact forms_GSRNP x
  case itip x => exact forms_ITIP x
  case sgcn x => exact forms_SGCN x
  case sgln x => exact forms_SGLN x
  case sgtin x => exact forms_SGTIN x
  case sscc x => exact forms_SSCC x
  case usdod x => exact forms_USDOD x
  all_goals exact ⟨fun _ _ _ _ => ⟨False.elim, forms_none rfl⟩, fun kw hk => nomatch hk⟩

theorem takeWhile_dot {C rest : Str} (h : '.' ∉ C) : (C ++ '.' :: rest).takeWhile (fun c => !decide (c = '.')) = C := by
  induction C with
  | nil => rfl
  | cons c C ih =>
    have hc : c ≠ '.' := fun e => h (e ▸ List.mem_cons_self)
    rw [List.cons_append, List.takeWhile_cons, decide_eq_false hc, Bool.not_false, if_pos rfl, ih (fun hm => h (List.mem_cons_of_mem _ hm))]

theorem prefix_iff {c : Cls} {u C : Str} {x : Scheme} (hu : c.new u = .ok x) (hc : x.cls.isGs1Element = true) :
    Prefix C x ↔ C = companyPrefix u := by
  cases c <;> obtain ⟨y, hy, rfl⟩ := map_ok_iff.1 hu <;> first | (cases hc; done) | skip
  case ginc =>
    obtain ⟨C', S, ⟨⟨-, hC⟩, -⟩, -, rfl, rfl⟩ := GINC.new_iff.1 hy
    have e : companyPrefix (py "urn:epc:id:ginc" ++ ':' :: (C' ++ '.' :: S)) = C' := by
      simp [companyPrefix, afterColons, takeWhile_dot hC.no_dot]
    rw [e]
    constructor
    · rintro ⟨hn, rest, h⟩
      exact (append_sep_inj hC.no_dot hn (List.append_cancel_left (as := py "urn:epc:id:ginc:") (h.trans (List.append_assoc _ _ _)))).1.symm
    · rintro rfl
      exact ⟨hC.no_dot, S, rfl⟩
  all_goals first
    | obtain ⟨C', I, S, ⟨⟨-, hC⟩, -⟩, -, rfl, rfl⟩ := SGTIN.new_iff.1 hy
    | obtain ⟨C', I, ⟨⟨-, hC⟩, -⟩, -, rfl, rfl⟩ := SSCC.new_iff.1 hy
    | obtain ⟨C', I, S, ⟨⟨-, hC⟩, -⟩, -, rfl, rfl⟩ := SGLN.new_iff.1 hy
    | obtain ⟨C', I, S, ⟨⟨-, hC⟩, -⟩, -, rfl, rfl⟩ := GRAI.new_iff.1 hy
    | obtain ⟨C', I, S, ⟨⟨-, hC⟩, -⟩, -, rfl, rfl⟩ := GDTI.new_iff.1 hy
    | obtain ⟨C', I, ⟨⟨-, hC⟩, -⟩, -, rfl, rfl⟩ := GIAI.new_iff.1 hy
    | obtain ⟨C', I, ⟨⟨-, hC⟩, -⟩, -, rfl, rfl⟩ := GSRN.new_iff.1 hy
    | obtain ⟨C', I, ⟨⟨-, hC⟩, -⟩, -, rfl, rfl⟩ := GSRNP.new_iff.1 hy
    | obtain ⟨C', I, ⟨⟨-, hC⟩, -⟩, -, rfl, rfl⟩ := PGLN.new_iff.1 hy
    | obtain ⟨C', I, ⟨⟨-, hC⟩, -⟩, -, rfl, rfl⟩ := GSIN.new_iff.1 hy
    | obtain ⟨C', I, S, ⟨⟨-, hC⟩, -⟩, -, rfl, rfl⟩ := SGCN.new_iff.1 hy
    | obtain ⟨C', I, S, ⟨⟨-, hC⟩, -⟩, -, rfl, rfl⟩ := CPI.new_iff.1 hy
    | obtain ⟨C', I, S, ⟨⟨-, hC⟩, -⟩, -, rfl, rfl⟩ := UPUI.new_iff.1 hy
    | obtain ⟨C', I, S, ⟨⟨-, hC⟩, -⟩, -, rfl, rfl⟩ := LGTIN.new_iff.1 hy
    | obtain ⟨C', I, A, B, S, ⟨⟨-, hC⟩, -⟩, -, rfl, rfl⟩ := ITIP.new_iff.1 hy
    | fail "stuck"
  all_goals
    simp [companyPrefix, afterColons, takeWhile_dot hC.no_dot, Prefix]

theorem no_element {x : Scheme} {s : Str} (hc : x.cls.isGs1Element = false) : invoke (objScheme x) .gs1_element_string [] [] ≠ .ok (.str s) := by
  cases x <;> first | (cases hc; done) | skip
  all_goals
    intro h
    cases h

theorem elem_of_prefix {C : Str} {x : Scheme} (h : Prefix C x) : x.cls.isGs1Element = true := by
  cases x <;> first | rfl | exact h.elim

/-- The executed source and the model send the same. -/
theorem sentOn_iff {c : Cls} {u : Str} {x : Scheme} (hu : c.new u = .ok x) :
    (∀ r, SentOn (objScheme x) r → r = .ok (objScheme x)) ↔ ∀ r, Sent x r → r = .ok x := by
  have hx : x.epcUri = u := (c.new_facts hu).2.1
  obtain ⟨fa, fb⟩ := forms_agree x
  constructor
  · intro H r hr
    cases hr with
    | uri => exact outcome_scheme_ok.1 ((C93_epc_pure_identity_to_scheme _).symm.trans (H _ (.uri _ _ (C91_epc_uri x))))
    | element s C hs hC =>
      have hc := elem_of_prefix hC
      have e := (prefix_iff hu hc).1 hC
      have := H _ (.element _ u s (hx ▸ C91_epc_uri x) ((C92_element_strings x hc).trans (by rw [hs]; rfl)))
      rw [← e, C93_gs1_element_string_to_gs1_element] at this
      exact outcome_scheme_ok.1 this
    | tagUri t b h s hf =>
      obtain ⟨kw, hk, e1, e2, e3, e4⟩ := (fa _ _ _ _).1 hf
      exact outcome_scheme_ok.1 ((C93_tag_uri_to_tag_encodable _).symm.trans (H _ (.tag _ kw .tag_uri _ t t hk e1 (by decide) e1)))
    | binary t b h s hf =>
      obtain ⟨kw, hk, e1, e2, e3, e4⟩ := (fa _ _ _ _).1 hf
      exact outcome_scheme_ok.1 ((C93_binary_to_tag_encodable _).symm.trans (H _ (.tag _ kw .binary _ t b hk e1 (by decide) e2)))
    | hex t h b s hf =>
      obtain ⟨kw, hk, e1, e2, e3, e4⟩ := (fa _ _ _ _).1 hf
      exact outcome_scheme_ok.1 ((C93_hex_to_tag_encodable _).symm.trans (H _ (.tag _ kw .hex _ t h hk e1 (by decide) e3)))
    | base64 t s b h hf =>
      obtain ⟨kw, hk, e1, e2, e3, e4⟩ := (fa _ _ _ _).1 hf
      exact outcome_scheme_ok.1 ((C93_base64_to_tag_encodable _).symm.trans (H _ (.tag _ kw .base64 _ t s hk e1 (by decide) e4)))
  · intro H r hr
    cases hr with
    | uri v hv =>
      rw [C91_epc_uri] at hv
      cases hv
      rw [C93_epc_pure_identity_to_scheme]
      exact outcome_scheme_ok.2 (H _ (.uri x))
    | element v s hv hs =>
      rw [C91_epc_uri, hx] at hv
      cases hv
      cases hc : x.cls.isGs1Element with
      | false => exact absurd hs (no_element hc)
      | true =>
        rw [C92_element_strings x hc] at hs
        rw [C93_gs1_element_string_to_gs1_element]
        exact outcome_scheme_ok.2 (H _ (.element x s _ (outcome_str_ok.1 hs) ((prefix_iff hu hc).2 rfl)))
    | tag kw w r t s hk ht hw hs =>
      obtain ⟨b, h, a, e2, e3, e4⟩ := fb kw hk
      have F := (fa t b h a).2 ⟨kw, hk, ht, e2, e3, e4⟩
      simp only [tagNotations, List.mem_cons, Prod.mk.injEq, List.not_mem_nil, or_false] at hw
      rcases hw with ⟨rfl, rfl⟩ | ⟨rfl, rfl⟩ | ⟨rfl, rfl⟩ | ⟨rfl, rfl⟩
      · rw [ht] at hs; cases hs
        rw [C93_tag_uri_to_tag_encodable]
        exact outcome_scheme_ok.2 (H _ (.tagUri x t b h a F))
      · rw [e2] at hs; cases outcome_str_ok.1 hs
        rw [C93_binary_to_tag_encodable]
        exact outcome_scheme_ok.2 (H _ (.binary x t s h a F))
      · rw [e3] at hs; cases outcome_str_ok.1 hs
        rw [C93_hex_to_tag_encodable]
        exact outcome_scheme_ok.2 (H _ (.hex x t s b a F))
      · rw [e4] at hs; cases outcome_str_ok.1 hs
        rw [C93_base64_to_tag_encodable]
        exact outcome_scheme_ok.2 (H _ (.base64 x t s b h F))

end Epc.Src
