/-
The output methods of each class with members of other enumerations.
Generated by tools/gen_foreign_src.py.
-/
import Verif.Spec.Unusual
import Verif.Lemmas.Program
import Verif.Props.C84
import Verif.Props.C85
import Verif.Props.C16
import Verif.Refine.Foreign.Sgtin
import Verif.Refine.Foreign.Sscc
import Verif.Refine.Foreign.Sgln
import Verif.Refine.Foreign.Grai
import Verif.Refine.Foreign.Giai
import Verif.Refine.Foreign.Gsrn
import Verif.Refine.Foreign.Gsrnp
import Verif.Refine.Foreign.Gdti
import Verif.Refine.Foreign.Cpi
import Verif.Refine.Foreign.Sgcn
import Verif.Refine.Foreign.Itip
import Verif.Refine.Foreign.Gid
import Verif.Refine.Foreign.Usdod
import Verif.Refine.Foreign.Adi
set_option linter.unusedSimpArgs false

namespace Epc.Src
open Spec Grammar

theorem any_coding {d : Cls} {s : Val} (h : s ∈ codings (clOf d)) : ∃ cs : AnyCoding, cs.cls = d ∧ s = codAny cs := by
  cases d
  case sgtin =>
    have e : codings (clOf .sgtin) = [codSGTIN .sgtin96, codSGTIN .sgtin198] := rfl
    rw [e] at h
    simp only [List.mem_cons, List.not_mem_nil, or_false] at h
    rcases h with rfl | rfl
    · exact ⟨.sgtin .sgtin96, rfl, rfl⟩
    · exact ⟨.sgtin .sgtin198, rfl, rfl⟩
  case sscc =>
    have e : codings (clOf .sscc) = [codSSCC .sscc96] := rfl
    rw [e] at h
    simp only [List.mem_cons, List.not_mem_nil, or_false] at h
    subst h
    · exact ⟨.sscc .sscc96, rfl, rfl⟩
  case sgln =>
    have e : codings (clOf .sgln) = [codSGLN .sgln96, codSGLN .sgln195] := rfl
    rw [e] at h
    simp only [List.mem_cons, List.not_mem_nil, or_false] at h
    rcases h with rfl | rfl
    · exact ⟨.sgln .sgln96, rfl, rfl⟩
    · exact ⟨.sgln .sgln195, rfl, rfl⟩
  case grai =>
    have e : codings (clOf .grai) = [codGRAI .grai96, codGRAI .grai170] := rfl
    rw [e] at h
    simp only [List.mem_cons, List.not_mem_nil, or_false] at h
    rcases h with rfl | rfl
    · exact ⟨.grai .grai96, rfl, rfl⟩
    · exact ⟨.grai .grai170, rfl, rfl⟩
  case giai =>
    have e : codings (clOf .giai) = [codGIAI .giai96, codGIAI .giai202] := rfl
    rw [e] at h
    simp only [List.mem_cons, List.not_mem_nil, or_false] at h
    rcases h with rfl | rfl
    · exact ⟨.giai .giai96, rfl, rfl⟩
    · exact ⟨.giai .giai202, rfl, rfl⟩
  case gsrn =>
    have e : codings (clOf .gsrn) = [codGSRN .gsrn96] := rfl
    rw [e] at h
    simp only [List.mem_cons, List.not_mem_nil, or_false] at h
    subst h
    · exact ⟨.gsrn .gsrn96, rfl, rfl⟩
  case gsrnp =>
    have e : codings (clOf .gsrnp) = [codGSRNP .gsrnp96] := rfl
    rw [e] at h
    simp only [List.mem_cons, List.not_mem_nil, or_false] at h
    subst h
    · exact ⟨.gsrnp .gsrnp96, rfl, rfl⟩
  case gdti =>
    have e : codings (clOf .gdti) = [codGDTI .gdti96, codGDTI .gdti174] := rfl
    rw [e] at h
    simp only [List.mem_cons, List.not_mem_nil, or_false] at h
    rcases h with rfl | rfl
    · exact ⟨.gdti .gdti96, rfl, rfl⟩
    · exact ⟨.gdti .gdti174, rfl, rfl⟩
  case cpi =>
    have e : codings (clOf .cpi) = [codCPI .cpi96, codCPI .cpiVar] := rfl
    rw [e] at h
    simp only [List.mem_cons, List.not_mem_nil, or_false] at h
    rcases h with rfl | rfl
    · exact ⟨.cpi .cpi96, rfl, rfl⟩
    · exact ⟨.cpi .cpiVar, rfl, rfl⟩
  case sgcn =>
    have e : codings (clOf .sgcn) = [codSGCN .sgcn96] := rfl
    rw [e] at h
    simp only [List.mem_cons, List.not_mem_nil, or_false] at h
    subst h
    · exact ⟨.sgcn .sgcn96, rfl, rfl⟩
  case itip =>
    have e : codings (clOf .itip) = [codITIP .itip110, codITIP .itip212] := rfl
    rw [e] at h
    simp only [List.mem_cons, List.not_mem_nil, or_false] at h
    rcases h with rfl | rfl
    · exact ⟨.itip .itip110, rfl, rfl⟩
    · exact ⟨.itip .itip212, rfl, rfl⟩
  case gid =>
    have e : codings (clOf .gid) = [codGID .gid96] := rfl
    rw [e] at h
    simp only [List.mem_cons, List.not_mem_nil, or_false] at h
    subst h
    · exact ⟨.gid .gid96, rfl, rfl⟩
  case usdod =>
    have e : codings (clOf .usdod) = [codUSDOD .usdod96] := rfl
    rw [e] at h
    simp only [List.mem_cons, List.not_mem_nil, or_false] at h
    subst h
    · exact ⟨.usdod .usdod96, rfl, rfl⟩
  case adi =>
    have e : codings (clOf .adi) = [codADI .adiVar] := rfl
    rw [e] at h
    simp only [List.mem_cons, List.not_mem_nil, or_false] at h
    subst h
    · exact ⟨.adi .adiVar, rfl, rfl⟩
  all_goals exact nomatch h

theorem any_value {cs : AnyCoding} {name : Str} (h : read (codAny cs) .value = .ok (.str name)) : name = cs.value := by
  rcases cs with cs | cs | cs | cs | cs | cs | cs | cs | cs | cs | cs | cs | cs | cs <;> cases cs <;> (cases h; rfl)

theorem head_colon (b : Str) : (split ':' b).headD [] = b.takeWhile (· ≠ ':') := by
  induction b with
  | nil => rfl
  | cons c b ih =>
    by_cases h : c = ':'
    · subst h; rw [split_cons_sep]; rfl
    · rw [split_cons_ne h, List.takeWhile_cons, ← ih]; simp [h]

theorem splice_filter {h z r : Str} {k : Nat} (hh : h.length = 8) (hz : z.length = k) (g : Str) :
    h ++ (g ++ r) = (h ++ (z ++ r)).take 8 ++ g ++ (h ++ (z ++ r)).drop (8 + k) := by
  rw [List.take_append_of_le_length (by omega), List.take_of_length_le (by omega), ← List.append_assoc h z r, List.drop_append_of_le_length (by simp; omega),
    List.drop_of_length_le (by simp; omega)]
  simp

theorem widened_of {c : Cls} {o s v v0 : Val} {f : Fin 64} {A : Fin 64 → Except Err Str} {hd : Str}
    (h1 : invoke o .binary [] (tagArgs c s v) = outcome .str (A f)) (h0 : invoke o .binary [] (tagArgs c s v0) = outcome .str (A 0))
    (hh : hd.length = 8) (hz : (bin (filterBits c) 0).length = filterBits c) (hp : 0 < filterBits c)
    (hA : ∀ b, A f = .ok b → ∃ r, b = hd ++ (bin (filterBits c) f ++ r) ∧ A 0 = .ok (hd ++ (bin (filterBits c) 0 ++ r))) : Widened c o s f v v0 := by
  intro b hb
  rw [h1] at hb
  obtain ⟨r, rfl, e0⟩ := hA b (outcome_str_ok.1 hb)
  refine ⟨_, by rw [h0, e0]; rfl, fun w hw hlt hor => ?_⟩
  have hg := Epc.filterBits hp hw hlt hor
  have hl : (bitsOf w f.val).length = w := length_bitsOf _ _
  rw [hg]
  exact ⟨splice_filter hh hz _, by simp only [List.length_append]; omega⟩

theorem calls_SGTIN (x : Epc.SGTIN) (cs : AnyCoding) (f : Fin 64) (v : Val) (hv : IsFilter f v) :
    invoke (objSGTIN x) .tag_uri [] (tagArgs .sgtin (codAny cs) v) = outcome .str (x.tagUriAny cs f) ∧
    invoke (objSGTIN x) .binary [] (tagArgs .sgtin (codAny cs) v) = outcome .str (x.binaryAny cs f) ∧
    invoke (objSGTIN x) .hex [] (tagArgs .sgtin (codAny cs) v) = outcome .str (x.hexAny cs f) ∧
    invoke (objSGTIN x) .base64 [] (tagArgs .sgtin (codAny cs) v) = outcome .str (x.base64Any cs f) := by
  obtain ⟨o, e, m, nm, rfl⟩ := hv
  refine ⟨?_, ?_, ?_, ?_⟩ <;> rw [← lift_outcome]
  · exact invoke_eq rfl (fun _ => rfl) (any_SGTIN_tag_uri 14 x cs f o e m nm)
  · exact invoke_eq rfl (fun _ => rfl) (any_SGTIN_binary 14 x cs f o e m nm)
  · exact invoke_eq rfl (fun _ => rfl) (any_SGTIN_hex 13 x cs f o e m nm)
  · exact invoke_eq rfl (fun _ => rfl) (any_SGTIN_base64 12 x cs f o e m nm)

theorem foreign_SGTIN {u : Str} {x : Epc.SGTIN} {cs : AnyCoding} {f : Fin 64} {v : Val} (hu : Epc.SGTIN.new u = .ok x) (hc : cs.cls ≠ .sgtin) (hv : IsFilter f v) :
    ForeignCall .sgtin (objSGTIN x) u (codAny cs) cs.value f v := by
  obtain ⟨w1, w2, w3, w4⟩ := calls_SGTIN x cs f v hv
  obtain ⟨k2, k3, k4, b, t, hb, ht, k1, k5, -⟩ := C84_sgtin_partial (f := f) hu hc
  rw [k1] at w1; rw [k2] at w2; rw [k3] at w3; rw [k4] at w4
  have et : t = py "urn:epc:tag:" ++ cs.value ++ ':' :: (filterText .sgtin f ++ tagBody .sgtin u) := by
    rw [ht, hb]
    simp [filterText, tagBody, afterColons]
  rw [et] at w1 k5
  refine ⟨w1, ?_, ?_⟩
  · refine (invoke_eq rfl (fun _ => rfl) (sem_SGTIN_from_tag_uri 13 _)).trans ?_
    rw [k5]; rfl
  · intro m hm
    simp only [List.mem_cons, List.not_mem_nil, or_false] at hm
    rcases hm with rfl | rfl | rfl
    · exact w2
    · exact w3
    · exact w4

theorem widened_SGTIN (x : Epc.SGTIN) (cs : Epc.SGTIN.Coding) (f : Fin 64) (v v0 : Val) (hv : IsFilter f v) (hv0 : IsFilter (0 : Fin 64) v0) :
    Widened .sgtin (objSGTIN x) (codAny (.sgtin cs)) f v v0 :=
  widened_of (A := fun f => x.binaryAny (.sgtin cs) f) (hd := cs.header) (calls_SGTIN x (.sgtin cs) f v hv).2.1 (calls_SGTIN x (.sgtin cs) 0 v0 hv0).2.1 (by cases cs <;> rfl) (by decide) (by decide)
    (fun b hb => Epc.SGTIN.binaryAny_zero hb)

theorem readBack_SGTIN {u : Str} {x : Epc.SGTIN} (hu : Epc.SGTIN.new u = .ok x) (cs : Epc.SGTIN.Coding) (f : Fin 64) (v : Val) (hv : IsFilter f v) :
    ReadBack .sgtin (objSGTIN x) (codAny (.sgtin cs)) v := by
  intro t ht
  rw [(calls_SGTIN x (.sgtin cs) f v hv).1] at ht
  have h := (C85_sgtin_partial hu cs f).2.1 t (outcome_str_ok.1 ht)
  have e : invoke (.cls .SGTIN) .from_tag_uri [.str t] [] = (lift (Epc.SGTIN.fromTagUri t)).map objSGTIN :=
    invoke_eq rfl (fun _ => rfl) (sem_SGTIN_from_tag_uri 13 t)
  show invoke (.cls .SGTIN) .from_tag_uri [.str t] [] = _
  rw [e, h]
  rfl

theorem calls_SSCC (x : Epc.SSCC) (cs : AnyCoding) (f : Fin 64) (v : Val) (hv : IsFilter f v) :
    invoke (objSSCC x) .tag_uri [] (tagArgs .sscc (codAny cs) v) = outcome .str (x.tagUriAny cs f) ∧
    invoke (objSSCC x) .binary [] (tagArgs .sscc (codAny cs) v) = outcome .str (x.binaryAny cs f) ∧
    invoke (objSSCC x) .hex [] (tagArgs .sscc (codAny cs) v) = outcome .str (x.hexAny cs f) ∧
    invoke (objSSCC x) .base64 [] (tagArgs .sscc (codAny cs) v) = outcome .str (x.base64Any cs f) := by
  obtain ⟨o, e, m, nm, rfl⟩ := hv
  refine ⟨?_, ?_, ?_, ?_⟩ <;> rw [← lift_outcome]
  · exact invoke_eq rfl (fun _ => rfl) (any_SSCC_tag_uri 14 x cs f o e m nm)
  · exact invoke_eq rfl (fun _ => rfl) (any_SSCC_binary 14 x cs f o e m nm)
  · exact invoke_eq rfl (fun _ => rfl) (any_SSCC_hex 13 x cs f o e m nm)
  · exact invoke_eq rfl (fun _ => rfl) (any_SSCC_base64 12 x cs f o e m nm)

theorem foreign_SSCC {u : Str} {x : Epc.SSCC} {cs : AnyCoding} {f : Fin 64} {v : Val} (hu : Epc.SSCC.new u = .ok x) (hc : cs.cls ≠ .sscc) (hv : IsFilter f v) :
    ForeignCall .sscc (objSSCC x) u (codAny cs) cs.value f v := by
  obtain ⟨w1, w2, w3, w4⟩ := calls_SSCC x cs f v hv
  obtain ⟨k2, k3, k4, b, t, hb, ht, k1, k5, -⟩ := C84_sscc_partial (f := f) hu hc
  rw [k1] at w1; rw [k2] at w2; rw [k3] at w3; rw [k4] at w4
  have et : t = py "urn:epc:tag:" ++ cs.value ++ ':' :: (filterText .sscc f ++ tagBody .sscc u) := by
    rw [ht, hb]
    simp [filterText, tagBody, afterColons]
  rw [et] at w1 k5
  refine ⟨w1, ?_, ?_⟩
  · refine (invoke_eq rfl (fun _ => rfl) (sem_SSCC_from_tag_uri 13 _)).trans ?_
    rw [k5]; rfl
  · intro m hm
    simp only [List.mem_cons, List.not_mem_nil, or_false] at hm
    rcases hm with rfl | rfl | rfl
    · exact w2
    · exact w3
    · exact w4

theorem widened_SSCC (x : Epc.SSCC) (cs : Epc.SSCC.Coding) (f : Fin 64) (v v0 : Val) (hv : IsFilter f v) (hv0 : IsFilter (0 : Fin 64) v0) :
    Widened .sscc (objSSCC x) (codAny (.sscc cs)) f v v0 :=
  widened_of (A := fun f => x.binaryAny (.sscc cs) f) (hd := cs.header) (calls_SSCC x (.sscc cs) f v hv).2.1 (calls_SSCC x (.sscc cs) 0 v0 hv0).2.1 (by cases cs <;> rfl) (by decide) (by decide)
    (fun b hb => Epc.SSCC.binaryAny_zero hb)

theorem readBack_SSCC {u : Str} {x : Epc.SSCC} (hu : Epc.SSCC.new u = .ok x) (cs : Epc.SSCC.Coding) (f : Fin 64) (v : Val) (hv : IsFilter f v) :
    ReadBack .sscc (objSSCC x) (codAny (.sscc cs)) v := by
  intro t ht
  rw [(calls_SSCC x (.sscc cs) f v hv).1] at ht
  have h := (C85_sscc_partial hu cs f).2.1 t (outcome_str_ok.1 ht)
  have e : invoke (.cls .SSCC) .from_tag_uri [.str t] [] = (lift (Epc.SSCC.fromTagUri t)).map objSSCC :=
    invoke_eq rfl (fun _ => rfl) (sem_SSCC_from_tag_uri 13 t)
  show invoke (.cls .SSCC) .from_tag_uri [.str t] [] = _
  rw [e, h]
  rfl

theorem calls_SGLN (x : Epc.SGLN) (cs : AnyCoding) (f : Fin 64) (v : Val) (hv : IsFilter f v) :
    invoke (objSGLN x) .tag_uri [] (tagArgs .sgln (codAny cs) v) = outcome .str (x.tagUriAny cs f) ∧
    invoke (objSGLN x) .binary [] (tagArgs .sgln (codAny cs) v) = outcome .str (x.binaryAny cs f) ∧
    invoke (objSGLN x) .hex [] (tagArgs .sgln (codAny cs) v) = outcome .str (x.hexAny cs f) ∧
    invoke (objSGLN x) .base64 [] (tagArgs .sgln (codAny cs) v) = outcome .str (x.base64Any cs f) := by
  obtain ⟨o, e, m, nm, rfl⟩ := hv
  refine ⟨?_, ?_, ?_, ?_⟩ <;> rw [← lift_outcome]
  · exact invoke_eq rfl (fun _ => rfl) (any_SGLN_tag_uri 14 x cs f o e m nm)
  · exact invoke_eq rfl (fun _ => rfl) (any_SGLN_binary 14 x cs f o e m nm)
  · exact invoke_eq rfl (fun _ => rfl) (any_SGLN_hex 13 x cs f o e m nm)
  · exact invoke_eq rfl (fun _ => rfl) (any_SGLN_base64 12 x cs f o e m nm)

theorem foreign_SGLN {u : Str} {x : Epc.SGLN} {cs : AnyCoding} {f : Fin 64} {v : Val} (hu : Epc.SGLN.new u = .ok x) (hc : cs.cls ≠ .sgln) (hv : IsFilter f v) :
    ForeignCall .sgln (objSGLN x) u (codAny cs) cs.value f v := by
  obtain ⟨w1, w2, w3, w4⟩ := calls_SGLN x cs f v hv
  obtain ⟨k2, k3, k4, b, t, hb, ht, k1, k5, -⟩ := C84_sgln_partial (f := f) hu hc
  rw [k1] at w1; rw [k2] at w2; rw [k3] at w3; rw [k4] at w4
  have et : t = py "urn:epc:tag:" ++ cs.value ++ ':' :: (filterText .sgln f ++ tagBody .sgln u) := by
    rw [ht, hb]
    simp [filterText, tagBody, afterColons]
  rw [et] at w1 k5
  refine ⟨w1, ?_, ?_⟩
  · refine (invoke_eq rfl (fun _ => rfl) (sem_SGLN_from_tag_uri 13 _)).trans ?_
    rw [k5]; rfl
  · intro m hm
    simp only [List.mem_cons, List.not_mem_nil, or_false] at hm
    rcases hm with rfl | rfl | rfl
    · exact w2
    · exact w3
    · exact w4

theorem widened_SGLN (x : Epc.SGLN) (cs : Epc.SGLN.Coding) (f : Fin 64) (v v0 : Val) (hv : IsFilter f v) (hv0 : IsFilter (0 : Fin 64) v0) :
    Widened .sgln (objSGLN x) (codAny (.sgln cs)) f v v0 :=
  widened_of (A := fun f => x.binaryAny (.sgln cs) f) (hd := cs.header) (calls_SGLN x (.sgln cs) f v hv).2.1 (calls_SGLN x (.sgln cs) 0 v0 hv0).2.1 (by cases cs <;> rfl) (by decide) (by decide)
    (fun b hb => Epc.SGLN.binaryAny_zero hb)

theorem readBack_SGLN {u : Str} {x : Epc.SGLN} (hu : Epc.SGLN.new u = .ok x) (cs : Epc.SGLN.Coding) (f : Fin 64) (v : Val) (hv : IsFilter f v) :
    ReadBack .sgln (objSGLN x) (codAny (.sgln cs)) v := by
  intro t ht
  rw [(calls_SGLN x (.sgln cs) f v hv).1] at ht
  have h := (C85_sgln_partial hu cs f).2.1 t (outcome_str_ok.1 ht)
  have e : invoke (.cls .SGLN) .from_tag_uri [.str t] [] = (lift (Epc.SGLN.fromTagUri t)).map objSGLN :=
    invoke_eq rfl (fun _ => rfl) (sem_SGLN_from_tag_uri 13 t)
  show invoke (.cls .SGLN) .from_tag_uri [.str t] [] = _
  rw [e, h]
  rfl

theorem calls_GRAI (x : Epc.GRAI) (cs : AnyCoding) (f : Fin 64) (v : Val) (hv : IsFilter f v) :
    invoke (objGRAI x) .tag_uri [] (tagArgs .grai (codAny cs) v) = outcome .str (x.tagUriAny cs f) ∧
    invoke (objGRAI x) .binary [] (tagArgs .grai (codAny cs) v) = outcome .str (x.binaryAny cs f) ∧
    invoke (objGRAI x) .hex [] (tagArgs .grai (codAny cs) v) = outcome .str (x.hexAny cs f) ∧
    invoke (objGRAI x) .base64 [] (tagArgs .grai (codAny cs) v) = outcome .str (x.base64Any cs f) := by
  obtain ⟨o, e, m, nm, rfl⟩ := hv
  refine ⟨?_, ?_, ?_, ?_⟩ <;> rw [← lift_outcome]
  · exact invoke_eq rfl (fun _ => rfl) (any_GRAI_tag_uri 14 x cs f o e m nm)
  · exact invoke_eq rfl (fun _ => rfl) (any_GRAI_binary 14 x cs f o e m nm)
  · exact invoke_eq rfl (fun _ => rfl) (any_GRAI_hex 13 x cs f o e m nm)
  · exact invoke_eq rfl (fun _ => rfl) (any_GRAI_base64 12 x cs f o e m nm)

theorem foreign_GRAI {u : Str} {x : Epc.GRAI} {cs : AnyCoding} {f : Fin 64} {v : Val} (hu : Epc.GRAI.new u = .ok x) (hc : cs.cls ≠ .grai) (hv : IsFilter f v) :
    ForeignCall .grai (objGRAI x) u (codAny cs) cs.value f v := by
  obtain ⟨w1, w2, w3, w4⟩ := calls_GRAI x cs f v hv
  obtain ⟨k2, k3, k4, b, t, hb, ht, k1, k5, -⟩ := C84_grai_partial (f := f) hu hc
  rw [k1] at w1; rw [k2] at w2; rw [k3] at w3; rw [k4] at w4
  have et : t = py "urn:epc:tag:" ++ cs.value ++ ':' :: (filterText .grai f ++ tagBody .grai u) := by
    rw [ht, hb]
    simp [filterText, tagBody, afterColons]
  rw [et] at w1 k5
  refine ⟨w1, ?_, ?_⟩
  · refine (invoke_eq rfl (fun _ => rfl) (sem_GRAI_from_tag_uri 13 _)).trans ?_
    rw [k5]; rfl
  · intro m hm
    simp only [List.mem_cons, List.not_mem_nil, or_false] at hm
    rcases hm with rfl | rfl | rfl
    · exact w2
    · exact w3
    · exact w4

theorem widened_GRAI (x : Epc.GRAI) (cs : Epc.GRAI.Coding) (f : Fin 64) (v v0 : Val) (hv : IsFilter f v) (hv0 : IsFilter (0 : Fin 64) v0) :
    Widened .grai (objGRAI x) (codAny (.grai cs)) f v v0 :=
  widened_of (A := fun f => x.binaryAny (.grai cs) f) (hd := cs.header) (calls_GRAI x (.grai cs) f v hv).2.1 (calls_GRAI x (.grai cs) 0 v0 hv0).2.1 (by cases cs <;> rfl) (by decide) (by decide)
    (fun b hb => Epc.GRAI.binaryAny_zero hb)

theorem readBack_GRAI {u : Str} {x : Epc.GRAI} (hu : Epc.GRAI.new u = .ok x) (cs : Epc.GRAI.Coding) (f : Fin 64) (v : Val) (hv : IsFilter f v) :
    ReadBack .grai (objGRAI x) (codAny (.grai cs)) v := by
  intro t ht
  rw [(calls_GRAI x (.grai cs) f v hv).1] at ht
  have h := (C85_grai_partial hu cs f).2.1 t (outcome_str_ok.1 ht)
  have e : invoke (.cls .GRAI) .from_tag_uri [.str t] [] = (lift (Epc.GRAI.fromTagUri t)).map objGRAI :=
    invoke_eq rfl (fun _ => rfl) (sem_GRAI_from_tag_uri 13 t)
  show invoke (.cls .GRAI) .from_tag_uri [.str t] [] = _
  rw [e, h]
  rfl

theorem calls_GIAI (x : Epc.GIAI) (cs : AnyCoding) (f : Fin 64) (v : Val) (hv : IsFilter f v) :
    invoke (objGIAI x) .tag_uri [] (tagArgs .giai (codAny cs) v) = outcome .str (x.tagUriAny cs f) ∧
    invoke (objGIAI x) .binary [] (tagArgs .giai (codAny cs) v) = outcome .str (x.binaryAny cs f) ∧
    invoke (objGIAI x) .hex [] (tagArgs .giai (codAny cs) v) = outcome .str (x.hexAny cs f) ∧
    invoke (objGIAI x) .base64 [] (tagArgs .giai (codAny cs) v) = outcome .str (x.base64Any cs f) := by
  obtain ⟨o, e, m, nm, rfl⟩ := hv
  refine ⟨?_, ?_, ?_, ?_⟩ <;> rw [← lift_outcome]
  · exact invoke_eq rfl (fun _ => rfl) (any_GIAI_tag_uri 14 x cs f o e m nm)
  · exact invoke_eq rfl (fun _ => rfl) (any_GIAI_binary 14 x cs f o e m nm)
  · exact invoke_eq rfl (fun _ => rfl) (any_GIAI_hex 13 x cs f o e m nm)
  · exact invoke_eq rfl (fun _ => rfl) (any_GIAI_base64 12 x cs f o e m nm)

theorem foreign_GIAI {u : Str} {x : Epc.GIAI} {cs : AnyCoding} {f : Fin 64} {v : Val} (hu : Epc.GIAI.new u = .ok x) (hc : cs.cls ≠ .giai) (hv : IsFilter f v) :
    ForeignCall .giai (objGIAI x) u (codAny cs) cs.value f v := by
  obtain ⟨w1, w2, w3, w4⟩ := calls_GIAI x cs f v hv
  obtain ⟨k2, k3, k4, b, t, hb, ht, k1, k5, -⟩ := C84_giai_partial (f := f) hu hc
  rw [k1] at w1; rw [k2] at w2; rw [k3] at w3; rw [k4] at w4
  have et : t = py "urn:epc:tag:" ++ cs.value ++ ':' :: (filterText .giai f ++ tagBody .giai u) := by
    rw [ht, hb, head_colon]
    simp [filterText, tagBody, afterColons]
  rw [et] at w1 k5
  refine ⟨w1, ?_, ?_⟩
  · refine (invoke_eq rfl (fun _ => rfl) (sem_GIAI_from_tag_uri 13 _)).trans ?_
    rw [k5]; rfl
  · intro m hm
    simp only [List.mem_cons, List.not_mem_nil, or_false] at hm
    rcases hm with rfl | rfl | rfl
    · exact w2
    · exact w3
    · exact w4

theorem widened_GIAI (x : Epc.GIAI) (cs : Epc.GIAI.Coding) (f : Fin 64) (v v0 : Val) (hv : IsFilter f v) (hv0 : IsFilter (0 : Fin 64) v0) :
    Widened .giai (objGIAI x) (codAny (.giai cs)) f v v0 :=
  widened_of (A := fun f => x.binaryAny (.giai cs) f) (hd := cs.header) (calls_GIAI x (.giai cs) f v hv).2.1 (calls_GIAI x (.giai cs) 0 v0 hv0).2.1 (by cases cs <;> rfl) (by decide) (by decide)
    (fun b hb => Epc.GIAI.binaryAny_zero hb)

theorem readBack_GIAI {u : Str} {x : Epc.GIAI} (hu : Epc.GIAI.new u = .ok x) (cs : Epc.GIAI.Coding) (f : Fin 64) (v : Val) (hv : IsFilter f v) (hf : ':' ∉ afterColons 4 u) :
    ReadBack .giai (objGIAI x) (codAny (.giai cs)) v := by
  have hf : u = py "urn:epc:id:giai:" ++ x.companyPref ++ '.' :: x.assetRef := by
    obtain ⟨C, S, ⟨hC, hS⟩, _, rfl, rfl⟩ := Epc.GIAI.new_iff.1 hu
    have hS' : ':' ∉ S := fun hm => hf (by simp [afterColons, hm])
    simp [split_notMem hS']
  intro t ht
  rw [(calls_GIAI x (.giai cs) f v hv).1] at ht
  have h := (C85_giai_partial hu hf cs f).2.1 t (outcome_str_ok.1 ht)
  have e : invoke (.cls .GIAI) .from_tag_uri [.str t] [] = (lift (Epc.GIAI.fromTagUri t)).map objGIAI :=
    invoke_eq rfl (fun _ => rfl) (sem_GIAI_from_tag_uri 13 t)
  show invoke (.cls .GIAI) .from_tag_uri [.str t] [] = _
  rw [e, h]
  rfl

theorem calls_GSRN (x : Epc.GSRN) (cs : AnyCoding) (f : Fin 64) (v : Val) (hv : IsFilter f v) :
    invoke (objGSRN x) .tag_uri [] (tagArgs .gsrn (codAny cs) v) = outcome .str (x.tagUriAny cs f) ∧
    invoke (objGSRN x) .binary [] (tagArgs .gsrn (codAny cs) v) = outcome .str (x.binaryAny cs f) ∧
    invoke (objGSRN x) .hex [] (tagArgs .gsrn (codAny cs) v) = outcome .str (x.hexAny cs f) ∧
    invoke (objGSRN x) .base64 [] (tagArgs .gsrn (codAny cs) v) = outcome .str (x.base64Any cs f) := by
  obtain ⟨o, e, m, nm, rfl⟩ := hv
  refine ⟨?_, ?_, ?_, ?_⟩ <;> rw [← lift_outcome]
  · exact invoke_eq rfl (fun _ => rfl) (any_GSRN_tag_uri 14 x cs f o e m nm)
  · exact invoke_eq rfl (fun _ => rfl) (any_GSRN_binary 14 x cs f o e m nm)
  · exact invoke_eq rfl (fun _ => rfl) (any_GSRN_hex 13 x cs f o e m nm)
  · exact invoke_eq rfl (fun _ => rfl) (any_GSRN_base64 12 x cs f o e m nm)

theorem foreign_GSRN {u : Str} {x : Epc.GSRN} {cs : AnyCoding} {f : Fin 64} {v : Val} (hu : Epc.GSRN.new u = .ok x) (hc : cs.cls ≠ .gsrn) (hv : IsFilter f v) :
    ForeignCall .gsrn (objGSRN x) u (codAny cs) cs.value f v := by
  obtain ⟨w1, w2, w3, w4⟩ := calls_GSRN x cs f v hv
  obtain ⟨k2, k3, k4, b, t, hb, ht, k1, k5, -⟩ := C84_gsrn_partial (f := f) hu hc
  rw [k1] at w1; rw [k2] at w2; rw [k3] at w3; rw [k4] at w4
  have et : t = py "urn:epc:tag:" ++ cs.value ++ ':' :: (filterText .gsrn f ++ tagBody .gsrn u) := by
    rw [ht, hb]
    simp [filterText, tagBody, afterColons]
  rw [et] at w1 k5
  refine ⟨w1, ?_, ?_⟩
  · refine (invoke_eq rfl (fun _ => rfl) (sem_GSRN_from_tag_uri 13 _)).trans ?_
    rw [k5]; rfl
  · intro m hm
    simp only [List.mem_cons, List.not_mem_nil, or_false] at hm
    rcases hm with rfl | rfl | rfl
    · exact w2
    · exact w3
    · exact w4

theorem widened_GSRN (x : Epc.GSRN) (cs : Epc.GSRN.Coding) (f : Fin 64) (v v0 : Val) (hv : IsFilter f v) (hv0 : IsFilter (0 : Fin 64) v0) :
    Widened .gsrn (objGSRN x) (codAny (.gsrn cs)) f v v0 :=
  widened_of (A := fun f => x.binaryAny (.gsrn cs) f) (hd := cs.header) (calls_GSRN x (.gsrn cs) f v hv).2.1 (calls_GSRN x (.gsrn cs) 0 v0 hv0).2.1 (by cases cs <;> rfl) (by decide) (by decide)
    (fun b hb => Epc.GSRN.binaryAny_zero hb)

theorem readBack_GSRN {u : Str} {x : Epc.GSRN} (hu : Epc.GSRN.new u = .ok x) (cs : Epc.GSRN.Coding) (f : Fin 64) (v : Val) (hv : IsFilter f v) :
    ReadBack .gsrn (objGSRN x) (codAny (.gsrn cs)) v := by
  intro t ht
  rw [(calls_GSRN x (.gsrn cs) f v hv).1] at ht
  have h := (C85_gsrn_partial hu cs f).2.1 t (outcome_str_ok.1 ht)
  have e : invoke (.cls .GSRN) .from_tag_uri [.str t] [] = (lift (Epc.GSRN.fromTagUri t)).map objGSRN :=
    invoke_eq rfl (fun _ => rfl) (sem_GSRN_from_tag_uri 13 t)
  show invoke (.cls .GSRN) .from_tag_uri [.str t] [] = _
  rw [e, h]
  rfl

theorem calls_GSRNP (x : Epc.GSRNP) (cs : AnyCoding) (f : Fin 64) (v : Val) (hv : IsFilter f v) :
    invoke (objGSRNP x) .tag_uri [] (tagArgs .gsrnp (codAny cs) v) = outcome .str (x.tagUriAny cs f) ∧
    invoke (objGSRNP x) .binary [] (tagArgs .gsrnp (codAny cs) v) = outcome .str (x.binaryAny cs f) ∧
    invoke (objGSRNP x) .hex [] (tagArgs .gsrnp (codAny cs) v) = outcome .str (x.hexAny cs f) ∧
    invoke (objGSRNP x) .base64 [] (tagArgs .gsrnp (codAny cs) v) = outcome .str (x.base64Any cs f) := by
  obtain ⟨o, e, m, nm, rfl⟩ := hv
  refine ⟨?_, ?_, ?_, ?_⟩ <;> rw [← lift_outcome]
  · exact invoke_eq rfl (fun _ => rfl) (any_GSRNP_tag_uri 14 x cs f o e m nm)
  · exact invoke_eq rfl (fun _ => rfl) (any_GSRNP_binary 14 x cs f o e m nm)
  · exact invoke_eq rfl (fun _ => rfl) (any_GSRNP_hex 13 x cs f o e m nm)
  · exact invoke_eq rfl (fun _ => rfl) (any_GSRNP_base64 12 x cs f o e m nm)

theorem foreign_GSRNP {u : Str} {x : Epc.GSRNP} {cs : AnyCoding} {f : Fin 64} {v : Val} (hu : Epc.GSRNP.new u = .ok x) (hc : cs.cls ≠ .gsrnp) (hv : IsFilter f v) :
    ForeignCall .gsrnp (objGSRNP x) u (codAny cs) cs.value f v := by
  obtain ⟨w1, w2, w3, w4⟩ := calls_GSRNP x cs f v hv
  obtain ⟨k2, k3, k4, b, t, hb, ht, k1, k5, -⟩ := C84_gsrnp_partial (f := f) hu hc
  rw [k1] at w1; rw [k2] at w2; rw [k3] at w3; rw [k4] at w4
  have et : t = py "urn:epc:tag:" ++ cs.value ++ ':' :: (filterText .gsrnp f ++ tagBody .gsrnp u) := by
    rw [ht, hb]
    simp [filterText, tagBody, afterColons]
  rw [et] at w1 k5
  refine ⟨w1, ?_, ?_⟩
  · refine (invoke_eq rfl (fun _ => rfl) (sem_GSRNP_from_tag_uri 13 _)).trans ?_
    rw [k5]; rfl
  · intro m hm
    simp only [List.mem_cons, List.not_mem_nil, or_false] at hm
    rcases hm with rfl | rfl | rfl
    · exact w2
    · exact w3
    · exact w4

theorem widened_GSRNP (x : Epc.GSRNP) (cs : Epc.GSRNP.Coding) (f : Fin 64) (v v0 : Val) (hv : IsFilter f v) (hv0 : IsFilter (0 : Fin 64) v0) :
    Widened .gsrnp (objGSRNP x) (codAny (.gsrnp cs)) f v v0 :=
  widened_of (A := fun f => x.binaryAny (.gsrnp cs) f) (hd := cs.header) (calls_GSRNP x (.gsrnp cs) f v hv).2.1 (calls_GSRNP x (.gsrnp cs) 0 v0 hv0).2.1 (by cases cs <;> rfl) (by decide) (by decide)
    (fun b hb => Epc.GSRNP.binaryAny_zero hb)

theorem readBack_GSRNP {u : Str} {x : Epc.GSRNP} (hu : Epc.GSRNP.new u = .ok x) (cs : Epc.GSRNP.Coding) (f : Fin 64) (v : Val) (hv : IsFilter f v) :
    ReadBack .gsrnp (objGSRNP x) (codAny (.gsrnp cs)) v := by
  intro t ht
  rw [(calls_GSRNP x (.gsrnp cs) f v hv).1] at ht
  have h := (C85_gsrnp_partial hu cs f).2.1 t (outcome_str_ok.1 ht)
  have e : invoke (.cls .GSRNP) .from_tag_uri [.str t] [] = (lift (Epc.GSRNP.fromTagUri t)).map objGSRNP :=
    invoke_eq rfl (fun _ => rfl) (sem_GSRNP_from_tag_uri 13 t)
  show invoke (.cls .GSRNP) .from_tag_uri [.str t] [] = _
  rw [e, h]
  rfl

theorem calls_GDTI (x : Epc.GDTI) (cs : AnyCoding) (f : Fin 64) (v : Val) (hv : IsFilter f v) :
    invoke (objGDTI x) .tag_uri [] (tagArgs .gdti (codAny cs) v) = outcome .str (x.tagUriAny cs f) ∧
    invoke (objGDTI x) .binary [] (tagArgs .gdti (codAny cs) v) = outcome .str (x.binaryAny cs f) ∧
    invoke (objGDTI x) .hex [] (tagArgs .gdti (codAny cs) v) = outcome .str (x.hexAny cs f) ∧
    invoke (objGDTI x) .base64 [] (tagArgs .gdti (codAny cs) v) = outcome .str (x.base64Any cs f) := by
  obtain ⟨o, e, m, nm, rfl⟩ := hv
  refine ⟨?_, ?_, ?_, ?_⟩ <;> rw [← lift_outcome]
  · exact invoke_eq rfl (fun _ => rfl) (any_GDTI_tag_uri 14 x cs f o e m nm)
  · exact invoke_eq rfl (fun _ => rfl) (any_GDTI_binary 14 x cs f o e m nm)
  · exact invoke_eq rfl (fun _ => rfl) (any_GDTI_hex 13 x cs f o e m nm)
  · exact invoke_eq rfl (fun _ => rfl) (any_GDTI_base64 12 x cs f o e m nm)

theorem foreign_GDTI {u : Str} {x : Epc.GDTI} {cs : AnyCoding} {f : Fin 64} {v : Val} (hu : Epc.GDTI.new u = .ok x) (hc : cs.cls ≠ .gdti) (hv : IsFilter f v) :
    ForeignCall .gdti (objGDTI x) u (codAny cs) cs.value f v := by
  obtain ⟨w1, w2, w3, w4⟩ := calls_GDTI x cs f v hv
  obtain ⟨k2, k3, k4, b, t, hb, ht, k1, k5, -⟩ := C84_gdti_partial (f := f) hu hc
  rw [k1] at w1; rw [k2] at w2; rw [k3] at w3; rw [k4] at w4
  have et : t = py "urn:epc:tag:" ++ cs.value ++ ':' :: (filterText .gdti f ++ tagBody .gdti u) := by
    rw [ht, hb]
    simp [filterText, tagBody, afterColons]
  rw [et] at w1 k5
  refine ⟨w1, ?_, ?_⟩
  · refine (invoke_eq rfl (fun _ => rfl) (sem_GDTI_from_tag_uri 13 _)).trans ?_
    rw [k5]; rfl
  · intro m hm
    simp only [List.mem_cons, List.not_mem_nil, or_false] at hm
    rcases hm with rfl | rfl | rfl
    · exact w2
    · exact w3
    · exact w4

theorem widened_GDTI (x : Epc.GDTI) (cs : Epc.GDTI.Coding) (f : Fin 64) (v v0 : Val) (hv : IsFilter f v) (hv0 : IsFilter (0 : Fin 64) v0) :
    Widened .gdti (objGDTI x) (codAny (.gdti cs)) f v v0 :=
  widened_of (A := fun f => x.binaryAny (.gdti cs) f) (hd := cs.header) (calls_GDTI x (.gdti cs) f v hv).2.1 (calls_GDTI x (.gdti cs) 0 v0 hv0).2.1 (by cases cs <;> rfl) (by decide) (by decide)
    (fun b hb => Epc.GDTI.binaryAny_zero hb)

theorem readBack_GDTI {u : Str} {x : Epc.GDTI} (hu : Epc.GDTI.new u = .ok x) (cs : Epc.GDTI.Coding) (f : Fin 64) (v : Val) (hv : IsFilter f v) :
    ReadBack .gdti (objGDTI x) (codAny (.gdti cs)) v := by
  intro t ht
  rw [(calls_GDTI x (.gdti cs) f v hv).1] at ht
  have h := (C85_gdti_partial hu cs f).2.1 t (outcome_str_ok.1 ht)
  have e : invoke (.cls .GDTI) .from_tag_uri [.str t] [] = (lift (Epc.GDTI.fromTagUri t)).map objGDTI :=
    invoke_eq rfl (fun _ => rfl) (sem_GDTI_from_tag_uri 13 t)
  show invoke (.cls .GDTI) .from_tag_uri [.str t] [] = _
  rw [e, h]
  rfl

theorem calls_CPI (x : Epc.CPI) (cs : AnyCoding) (f : Fin 64) (v : Val) (hv : IsFilter f v) :
    invoke (objCPI x) .tag_uri [] (tagArgs .cpi (codAny cs) v) = outcome .str (x.tagUriAny cs f) ∧
    invoke (objCPI x) .binary [] (tagArgs .cpi (codAny cs) v) = outcome .str (x.binaryAny cs f) ∧
    invoke (objCPI x) .hex [] (tagArgs .cpi (codAny cs) v) = outcome .str (x.hexAny cs f) ∧
    invoke (objCPI x) .base64 [] (tagArgs .cpi (codAny cs) v) = outcome .str (x.base64Any cs f) := by
  obtain ⟨o, e, m, nm, rfl⟩ := hv
  refine ⟨?_, ?_, ?_, ?_⟩ <;> rw [← lift_outcome]
  · exact invoke_eq rfl (fun _ => rfl) (any_CPI_tag_uri 14 x cs f o e m nm)
  · exact invoke_eq rfl (fun _ => rfl) (any_CPI_binary 14 x cs f o e m nm)
  · exact invoke_eq rfl (fun _ => rfl) (any_CPI_hex 13 x cs f o e m nm)
  · exact invoke_eq rfl (fun _ => rfl) (any_CPI_base64 12 x cs f o e m nm)

theorem foreign_CPI {u : Str} {x : Epc.CPI} {cs : AnyCoding} {f : Fin 64} {v : Val} (hu : Epc.CPI.new u = .ok x) (hc : cs.cls ≠ .cpi) (hv : IsFilter f v) :
    ForeignCall .cpi (objCPI x) u (codAny cs) cs.value f v := by
  obtain ⟨w1, w2, w3, w4⟩ := calls_CPI x cs f v hv
  obtain ⟨k2, k3, k4, b, t, hb, ht, k1, k5, -⟩ := C84_cpi_partial (f := f) hu hc
  rw [k1] at w1; rw [k2] at w2; rw [k3] at w3; rw [k4] at w4
  have et : t = py "urn:epc:tag:" ++ cs.value ++ ':' :: (filterText .cpi f ++ tagBody .cpi u) := by
    rw [ht, hb]
    simp [filterText, tagBody, afterColons]
  rw [et] at w1 k5
  refine ⟨w1, ?_, ?_⟩
  · refine (invoke_eq rfl (fun _ => rfl) (sem_CPI_from_tag_uri 13 _)).trans ?_
    rw [k5]; rfl
  · intro m hm
    simp only [List.mem_cons, List.not_mem_nil, or_false] at hm
    rcases hm with rfl | rfl | rfl
    · exact w2
    · exact w3
    · exact w4

theorem widened_CPI (x : Epc.CPI) (cs : Epc.CPI.Coding) (f : Fin 64) (v v0 : Val) (hv : IsFilter f v) (hv0 : IsFilter (0 : Fin 64) v0) :
    Widened .cpi (objCPI x) (codAny (.cpi cs)) f v v0 :=
  widened_of (A := fun f => x.binaryAny (.cpi cs) f) (hd := cs.header) (calls_CPI x (.cpi cs) f v hv).2.1 (calls_CPI x (.cpi cs) 0 v0 hv0).2.1 (by cases cs <;> rfl) (by decide) (by decide)
    (fun b hb => Epc.CPI.binaryAny_zero hb)

theorem readBack_CPI {u : Str} {x : Epc.CPI} (hu : Epc.CPI.new u = .ok x) (cs : Epc.CPI.Coding) (f : Fin 64) (v : Val) (hv : IsFilter f v) :
    ReadBack .cpi (objCPI x) (codAny (.cpi cs)) v := by
  intro t ht
  rw [(calls_CPI x (.cpi cs) f v hv).1] at ht
  have h := (C85_cpi_partial hu cs f).2.1 t (outcome_str_ok.1 ht)
  have e : invoke (.cls .CPI) .from_tag_uri [.str t] [] = (lift (Epc.CPI.fromTagUri t)).map objCPI :=
    invoke_eq rfl (fun _ => rfl) (sem_CPI_from_tag_uri 13 t)
  show invoke (.cls .CPI) .from_tag_uri [.str t] [] = _
  rw [e, h]
  rfl

theorem calls_SGCN (x : Epc.SGCN) (cs : AnyCoding) (f : Fin 64) (v : Val) (hv : IsFilter f v) :
    invoke (objSGCN x) .tag_uri [] (tagArgs .sgcn (codAny cs) v) = outcome .str (x.tagUriAny cs f) ∧
    invoke (objSGCN x) .binary [] (tagArgs .sgcn (codAny cs) v) = outcome .str (x.binaryAny cs f) ∧
    invoke (objSGCN x) .hex [] (tagArgs .sgcn (codAny cs) v) = outcome .str (x.hexAny cs f) ∧
    invoke (objSGCN x) .base64 [] (tagArgs .sgcn (codAny cs) v) = outcome .str (x.base64Any cs f) := by
  obtain ⟨o, e, m, nm, rfl⟩ := hv
  refine ⟨?_, ?_, ?_, ?_⟩ <;> rw [← lift_outcome]
  · exact invoke_eq rfl (fun _ => rfl) (any_SGCN_tag_uri 14 x cs f o e m nm)
  · exact invoke_eq rfl (fun _ => rfl) (any_SGCN_binary 14 x cs f o e m nm)
  · exact invoke_eq rfl (fun _ => rfl) (any_SGCN_hex 13 x cs f o e m nm)
  · exact invoke_eq rfl (fun _ => rfl) (any_SGCN_base64 12 x cs f o e m nm)

theorem foreign_SGCN {u : Str} {x : Epc.SGCN} {cs : AnyCoding} {f : Fin 64} {v : Val} (hu : Epc.SGCN.new u = .ok x) (hc : cs.cls ≠ .sgcn) (hv : IsFilter f v) :
    ForeignCall .sgcn (objSGCN x) u (codAny cs) cs.value f v := by
  obtain ⟨w1, w2, w3, w4⟩ := calls_SGCN x cs f v hv
  obtain ⟨k2, k3, k4, b, t, hb, ht, k1, k5, -⟩ := C84_sgcn_partial (f := f) hu hc
  rw [k1] at w1; rw [k2] at w2; rw [k3] at w3; rw [k4] at w4
  have et : t = py "urn:epc:tag:" ++ cs.value ++ ':' :: (filterText .sgcn f ++ tagBody .sgcn u) := by
    rw [ht, hb]
    simp [filterText, tagBody, afterColons]
  rw [et] at w1 k5
  refine ⟨w1, ?_, ?_⟩
  · refine (invoke_eq rfl (fun _ => rfl) (sem_SGCN_from_tag_uri 13 _)).trans ?_
    rw [k5]; rfl
  · intro m hm
    simp only [List.mem_cons, List.not_mem_nil, or_false] at hm
    rcases hm with rfl | rfl | rfl
    · exact w2
    · exact w3
    · exact w4

theorem widened_SGCN (x : Epc.SGCN) (cs : Epc.SGCN.Coding) (f : Fin 64) (v v0 : Val) (hv : IsFilter f v) (hv0 : IsFilter (0 : Fin 64) v0) :
    Widened .sgcn (objSGCN x) (codAny (.sgcn cs)) f v v0 :=
  widened_of (A := fun f => x.binaryAny (.sgcn cs) f) (hd := cs.header) (calls_SGCN x (.sgcn cs) f v hv).2.1 (calls_SGCN x (.sgcn cs) 0 v0 hv0).2.1 (by cases cs <;> rfl) (by decide) (by decide)
    (fun b hb => Epc.SGCN.binaryAny_zero hb)

theorem readBack_SGCN {u : Str} {x : Epc.SGCN} (hu : Epc.SGCN.new u = .ok x) (cs : Epc.SGCN.Coding) (f : Fin 64) (v : Val) (hv : IsFilter f v) :
    ReadBack .sgcn (objSGCN x) (codAny (.sgcn cs)) v := by
  intro t ht
  rw [(calls_SGCN x (.sgcn cs) f v hv).1] at ht
  have h := (C85_sgcn_partial hu cs f).2.1 t (outcome_str_ok.1 ht)
  have e : invoke (.cls .SGCN) .from_tag_uri [.str t] [] = (lift (Epc.SGCN.fromTagUri t)).map objSGCN :=
    invoke_eq rfl (fun _ => rfl) (sem_SGCN_from_tag_uri 13 t)
  show invoke (.cls .SGCN) .from_tag_uri [.str t] [] = _
  rw [e, h]
  rfl

theorem calls_ITIP (x : Epc.ITIP) (cs : AnyCoding) (f : Fin 64) (v : Val) (hv : IsFilter f v) :
    invoke (objITIP x) .tag_uri [] (tagArgs .itip (codAny cs) v) = outcome .str (x.tagUriAny cs f) ∧
    invoke (objITIP x) .binary [] (tagArgs .itip (codAny cs) v) = outcome .str (x.binaryAny cs f) ∧
    invoke (objITIP x) .hex [] (tagArgs .itip (codAny cs) v) = outcome .str (x.hexAny cs f) ∧
    invoke (objITIP x) .base64 [] (tagArgs .itip (codAny cs) v) = outcome .str (x.base64Any cs f) := by
  obtain ⟨o, e, m, nm, rfl⟩ := hv
  refine ⟨?_, ?_, ?_, ?_⟩ <;> rw [← lift_outcome]
  · exact invoke_eq rfl (fun _ => rfl) (any_ITIP_tag_uri 14 x cs f o e m nm)
  · exact invoke_eq rfl (fun _ => rfl) (any_ITIP_binary 14 x cs f o e m nm)
  · exact invoke_eq rfl (fun _ => rfl) (any_ITIP_hex 13 x cs f o e m nm)
  · exact invoke_eq rfl (fun _ => rfl) (any_ITIP_base64 12 x cs f o e m nm)

theorem foreign_ITIP {u : Str} {x : Epc.ITIP} {cs : AnyCoding} {f : Fin 64} {v : Val} (hu : Epc.ITIP.new u = .ok x) (hc : cs.cls ≠ .itip) (hv : IsFilter f v) :
    ForeignCall .itip (objITIP x) u (codAny cs) cs.value f v := by
  obtain ⟨w1, w2, w3, w4⟩ := calls_ITIP x cs f v hv
  obtain ⟨k2, k3, k4, b, t, hb, ht, k1, k5, -⟩ := C84_itip_partial (f := f) hu hc
  rw [k1] at w1; rw [k2] at w2; rw [k3] at w3; rw [k4] at w4
  have et : t = py "urn:epc:tag:" ++ cs.value ++ ':' :: (filterText .itip f ++ tagBody .itip u) := by
    rw [ht, hb]
    simp [filterText, tagBody, afterColons]
  rw [et] at w1 k5
  refine ⟨w1, ?_, ?_⟩
  · refine (invoke_eq rfl (fun _ => rfl) (sem_ITIP_from_tag_uri 13 _)).trans ?_
    rw [k5]; rfl
  · intro m hm
    simp only [List.mem_cons, List.not_mem_nil, or_false] at hm
    rcases hm with rfl | rfl | rfl
    · exact w2
    · exact w3
    · exact w4

theorem widened_ITIP (x : Epc.ITIP) (cs : Epc.ITIP.Coding) (f : Fin 64) (v v0 : Val) (hv : IsFilter f v) (hv0 : IsFilter (0 : Fin 64) v0) :
    Widened .itip (objITIP x) (codAny (.itip cs)) f v v0 :=
  widened_of (A := fun f => x.binaryAny (.itip cs) f) (hd := cs.header) (calls_ITIP x (.itip cs) f v hv).2.1 (calls_ITIP x (.itip cs) 0 v0 hv0).2.1 (by cases cs <;> rfl) (by decide) (by decide)
    (fun b hb => Epc.ITIP.binaryAny_zero hb)

theorem readBack_ITIP {u : Str} {x : Epc.ITIP} (hu : Epc.ITIP.new u = .ok x) (cs : Epc.ITIP.Coding) (f : Fin 64) (v : Val) (hv : IsFilter f v) :
    ReadBack .itip (objITIP x) (codAny (.itip cs)) v := by
  intro t ht
  rw [(calls_ITIP x (.itip cs) f v hv).1] at ht
  have h := (C85_itip_partial hu cs f).2.1 t (outcome_str_ok.1 ht)
  have e : invoke (.cls .ITIP) .from_tag_uri [.str t] [] = (lift (Epc.ITIP.fromTagUri t)).map objITIP :=
    invoke_eq rfl (fun _ => rfl) (sem_ITIP_from_tag_uri 13 t)
  show invoke (.cls .ITIP) .from_tag_uri [.str t] [] = _
  rw [e, h]
  rfl

theorem calls_GID (x : Epc.GID) (cs : AnyCoding) (f : Fin 64) (v : Val) (hv : IsFilter f v) :
    invoke (objGID x) .tag_uri [] (tagArgs .gid (codAny cs) v) = outcome .str (x.tagUriAny cs) ∧
    invoke (objGID x) .binary [] (tagArgs .gid (codAny cs) v) = outcome .str (x.binaryAny cs) ∧
    invoke (objGID x) .hex [] (tagArgs .gid (codAny cs) v) = outcome .str (x.hexAny cs) ∧
    invoke (objGID x) .base64 [] (tagArgs .gid (codAny cs) v) = outcome .str (x.base64Any cs) := by
  obtain ⟨o, e, m, nm, rfl⟩ := hv
  refine ⟨?_, ?_, ?_, ?_⟩ <;> rw [← lift_outcome]
  · exact invoke_eq rfl (fun _ => rfl) (any_GID_tag_uri 14 x cs)
  · exact invoke_eq rfl (fun _ => rfl) (any_GID_binary 14 x cs)
  · exact invoke_eq rfl (fun _ => rfl) (any_GID_hex 13 x cs)
  · exact invoke_eq rfl (fun _ => rfl) (any_GID_base64 12 x cs)

theorem foreign_GID {u : Str} {x : Epc.GID} {cs : AnyCoding} {f : Fin 64} {v : Val} (hu : Epc.GID.new u = .ok x) (hc : cs.cls ≠ .gid) (hv : IsFilter f v) :
    ForeignCall .gid (objGID x) u (codAny cs) cs.value f v := by
  obtain ⟨w1, w2, w3, w4⟩ := calls_GID x cs f v hv
  obtain ⟨k2, k3, k4, b, t, hb, ht, k1, k5, -⟩ := C84_gid_partial hu hc
  rw [k1] at w1; rw [k2] at w2; rw [k3] at w3; rw [k4] at w4
  have et : t = py "urn:epc:tag:" ++ cs.value ++ ':' :: (filterText .gid f ++ tagBody .gid u) := by
    rw [ht, hb]
    simp [filterText, tagBody, afterColons]
  rw [et] at w1 k5
  refine ⟨w1, ?_, ?_⟩
  · refine (invoke_eq rfl (fun _ => rfl) (sem_GID_from_tag_uri 12 _)).trans ?_
    rw [k5]; rfl
  · intro m hm
    simp only [List.mem_cons, List.not_mem_nil, or_false] at hm
    rcases hm with rfl | rfl | rfl
    · exact w2
    · exact w3
    · exact w4

theorem calls_USDOD (x : Epc.USDOD) (cs : AnyCoding) (f : Fin 64) (v : Val) (hv : IsFilter f v) :
    invoke (objUSDOD x) .tag_uri [] (tagArgs .usdod (codAny cs) v) = outcome .str (x.tagUriAny cs f) ∧
    invoke (objUSDOD x) .binary [] (tagArgs .usdod (codAny cs) v) = outcome .str (x.binaryAny cs f) ∧
    invoke (objUSDOD x) .hex [] (tagArgs .usdod (codAny cs) v) = outcome .str (x.hexAny cs f) ∧
    invoke (objUSDOD x) .base64 [] (tagArgs .usdod (codAny cs) v) = outcome .str (x.base64Any cs f) := by
  obtain ⟨o, e, m, nm, rfl⟩ := hv
  refine ⟨?_, ?_, ?_, ?_⟩ <;> rw [← lift_outcome]
  · exact invoke_eq rfl (fun _ => rfl) (any_USDOD_tag_uri 14 x cs f o e m nm)
  · exact invoke_eq rfl (fun _ => rfl) (any_USDOD_binary 14 x cs f o e m nm)
  · exact invoke_eq rfl (fun _ => rfl) (any_USDOD_hex 13 x cs f o e m nm)
  · exact invoke_eq rfl (fun _ => rfl) (any_USDOD_base64 12 x cs f o e m nm)

theorem foreign_USDOD {u : Str} {x : Epc.USDOD} {cs : AnyCoding} {f : Fin 64} {v : Val} (hu : Epc.USDOD.new u = .ok x) (hc : cs.cls ≠ .usdod) (hv : IsFilter f v) :
    ForeignCall .usdod (objUSDOD x) u (codAny cs) cs.value f v := by
  obtain ⟨w1, w2, w3, w4⟩ := calls_USDOD x cs f v hv
  obtain ⟨k2, k3, k4, b, t, hb, ht, k1, k5, -⟩ := C84_usdod_partial (f := f) hu hc
  rw [k1] at w1; rw [k2] at w2; rw [k3] at w3; rw [k4] at w4
  have et : t = py "urn:epc:tag:" ++ cs.value ++ ':' :: (filterText .usdod f ++ tagBody .usdod u) := by
    rw [ht, hb]
    simp [filterText, tagBody, afterColons]
  rw [et] at w1 k5
  refine ⟨w1, ?_, ?_⟩
  · refine (invoke_eq rfl (fun _ => rfl) (sem_USDOD_from_tag_uri 13 _)).trans ?_
    rw [k5]; rfl
  · intro m hm
    simp only [List.mem_cons, List.not_mem_nil, or_false] at hm
    rcases hm with rfl | rfl | rfl
    · exact w2
    · exact w3
    · exact w4

theorem widened_USDOD (x : Epc.USDOD) (cs : Epc.USDOD.Coding) (f : Fin 64) (v v0 : Val) (hv : IsFilter f v) (hv0 : IsFilter (0 : Fin 64) v0) :
    Widened .usdod (objUSDOD x) (codAny (.usdod cs)) f v v0 :=
  widened_of (A := fun f => x.binaryAny (.usdod cs) f) (hd := cs.header) (calls_USDOD x (.usdod cs) f v hv).2.1 (calls_USDOD x (.usdod cs) 0 v0 hv0).2.1 (by cases cs <;> rfl) (by decide) (by decide)
    (fun b hb => Epc.USDOD.binaryAny_zero hb)

theorem readBack_USDOD {u : Str} {x : Epc.USDOD} (hu : Epc.USDOD.new u = .ok x) (cs : Epc.USDOD.Coding) (f : Fin 64) (v : Val) (hv : IsFilter f v) :
    ReadBack .usdod (objUSDOD x) (codAny (.usdod cs)) v := by
  intro t ht
  rw [(calls_USDOD x (.usdod cs) f v hv).1] at ht
  have h := (C85_usdod_partial hu cs f).2.1 t (outcome_str_ok.1 ht)
  have e : invoke (.cls .USDOD) .from_tag_uri [.str t] [] = (lift (Epc.USDOD.fromTagUri t)).map objUSDOD :=
    invoke_eq rfl (fun _ => rfl) (sem_USDOD_from_tag_uri 13 t)
  show invoke (.cls .USDOD) .from_tag_uri [.str t] [] = _
  rw [e, h]
  rfl

theorem calls_ADI (x : Epc.ADI) (cs : AnyCoding) (f : Fin 64) (v : Val) (hv : IsFilter f v) :
    invoke (objADI x) .tag_uri [] (tagArgs .adi (codAny cs) v) = outcome .str (x.tagUriAny cs f) ∧
    invoke (objADI x) .binary [] (tagArgs .adi (codAny cs) v) = outcome .str (x.binaryAny cs f) ∧
    invoke (objADI x) .hex [] (tagArgs .adi (codAny cs) v) = outcome .str (x.hexAny cs f) ∧
    invoke (objADI x) .base64 [] (tagArgs .adi (codAny cs) v) = outcome .str (x.base64Any cs f) := by
  obtain ⟨o, e, m, nm, rfl⟩ := hv
  refine ⟨?_, ?_, ?_, ?_⟩ <;> rw [← lift_outcome]
  · exact invoke_eq rfl (fun _ => rfl) (any_ADI_tag_uri 14 x cs f o e m nm)
  · exact invoke_eq rfl (fun _ => rfl) (any_ADI_binary 14 x cs f o e m nm)
  · exact invoke_eq rfl (fun _ => rfl) (any_ADI_hex 13 x cs f o e m nm)
  · exact invoke_eq rfl (fun _ => rfl) (any_ADI_base64 12 x cs f o e m nm)

theorem foreign_ADI {u : Str} {x : Epc.ADI} {cs : AnyCoding} {f : Fin 64} {v : Val} (hu : Epc.ADI.new u = .ok x) (hc : cs.cls ≠ .adi) (hv : IsFilter f v) :
    ForeignCall .adi (objADI x) u (codAny cs) cs.value f v := by
  obtain ⟨w1, w2, w3, w4⟩ := calls_ADI x cs f v hv
  obtain ⟨k2, k3, k4, b, t, hb, ht, k1, k5, -⟩ := C84_adi_partial (f := f) hu hc
  rw [k1] at w1; rw [k2] at w2; rw [k3] at w3; rw [k4] at w4
  have et : t = py "urn:epc:tag:" ++ cs.value ++ ':' :: (filterText .adi f ++ tagBody .adi u) := by
    rw [ht, hb]
    simp [filterText, tagBody, afterColons]
  rw [et] at w1 k5
  refine ⟨w1, ?_, ?_⟩
  · refine (invoke_eq rfl (fun _ => rfl) (sem_ADI_from_tag_uri 13 _)).trans ?_
    rw [k5]; rfl
  · intro m hm
    simp only [List.mem_cons, List.not_mem_nil, or_false] at hm
    rcases hm with rfl | rfl | rfl
    · exact w2
    · exact w3
    · exact w4

theorem widened_ADI (x : Epc.ADI) (cs : Epc.ADI.Coding) (f : Fin 64) (v v0 : Val) (hv : IsFilter f v) (hv0 : IsFilter (0 : Fin 64) v0) :
    Widened .adi (objADI x) (codAny (.adi cs)) f v v0 :=
  widened_of (A := fun f => x.binaryAny (.adi cs) f) (hd := cs.header) (calls_ADI x (.adi cs) f v hv).2.1 (calls_ADI x (.adi cs) 0 v0 hv0).2.1 (by cases cs <;> rfl) (by decide) (by decide)
    (fun b hb => Epc.ADI.binaryAny_zero hb)

theorem readBack_ADI {u : Str} {x : Epc.ADI} (hu : Epc.ADI.new u = .ok x) (cs : Epc.ADI.Coding) (f : Fin 64) (v : Val) (hv : IsFilter f v) :
    ReadBack .adi (objADI x) (codAny (.adi cs)) v := by
  intro t ht
  rw [(calls_ADI x (.adi cs) f v hv).1] at ht
  have h := C16_adi u x cs f t hu (outcome_str_ok.1 ht)
  have e : invoke (.cls .ADI) .from_tag_uri [.str t] [] = (lift (Epc.ADI.fromTagUri t)).map objADI :=
    invoke_eq rfl (fun _ => rfl) (sem_ADI_from_tag_uri 13 t)
  show invoke (.cls .ADI) .from_tag_uri [.str t] [] = _
  rw [e, h]
  rfl

end Epc.Src
