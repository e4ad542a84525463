/-
C99: the ways of passing arguments, executed from the source.

`Takes ps f` (`Spec/Signature`): however arguments are passed to `f`, by position, by name in any order or left to the default value, the
outcome is that of passing the values of the parameters `ps` by position; TypeError if they do not get one value each.  The values are
anything at all, not only what the call expects.
-/
import Verif.Lemmas.Signature
import Verif.Props.C97
set_option linter.unusedVariables false
set_option linter.unusedSimpArgs false

namespace Epc.Src
open Spec Grammar

macro "declared" : tactic => `(tactic| repeat' first | exact trivial | exact rfl | apply And.intro)
macro "sig_object" : tactic => `(tactic| exact method_takes (self := .self) (fun _ => rfl) rfl rfl (by declared) (by decide))
macro "sig_class" : tactic => `(tactic| exact method_takes (self := .cls) (fun _ => rfl) rfl rfl (by declared) (by decide))

/-- `tag_uri` and `binary` of the objects of the 14 tag classes. -/
theorem C99_writers (c : Cls) (hc : c.isTagEncodable = true) (u : Str) (o : Val) (h : construct (clOf c) [.str u] = .ok o) :
    Takes (tagUriSig c) (invoke o .tag_uri) ∧ Takes (binarySig c) (invoke o .binary) := by
  obtain ⟨x, hx, rfl⟩ := constructed h
  cases c <;> first | (cases hc; done) | skip
  all_goals
    obtain ⟨y, hy, rfl⟩ := map_ok_iff.1 hx
    exact ⟨by sig_object, by sig_object⟩

/-- `hex` and `base64` ignore positional arguments: the outcome is that of passing the parameters of `binary` by name. -/
theorem C99_hex (c : Cls) (hc : c.isTagEncodable = true) (u : Str) (o : Val) (h : construct (clOf c) [.str u] = .ok o) :
    TakesByName (binarySig c) (invoke o .hex) ∧ TakesByName (binarySig c) (invoke o .base64) := by
  obtain ⟨x, hx, rfl⟩ := constructed h
  cases c <;> first | (cases hc; done) | skip
  all_goals
    obtain ⟨y, hy, rfl⟩ := map_ok_iff.1 hx
    exact writers_by_name (fun _ => rfl) (fun _ => rfl) (fun _ => rfl) rfl rfl (fun _ => by declared) (by decide)

/-- `gs1_key`, `gs1_element_string` and `gtin`. -/
theorem C99_keys (c : Cls) (u : Str) (o : Val) (h : construct (clOf c) [.str u] = .ok o) :
    (c.isGs1Keyed = true → Takes (keySig c) (invoke o .gs1_key)) ∧
    (c.isGs1Element = true → Takes [] (invoke o .gs1_element_string)) ∧
    (c = .sgtin ∨ c = .lgtin → Takes (keySig c) (invoke o .gtin)) := by
  obtain ⟨x, hx, rfl⟩ := constructed h
  cases c
  all_goals
    obtain ⟨y, hy, rfl⟩ := map_ok_iff.1 hx
    refine ⟨fun hc => ?_, fun hc => ?_, fun hc => ?_⟩
    all_goals first | (cases hc; done) | (rcases hc with hc | hc <;> cases hc <;> done) | sig_object

/-- The readers of the classes. -/
theorem C99_readers (c : Cls) :
    Takes [(.epc_uri, .none)] (invoke (.cls (clOf c)) .from_epc_uri) ∧
    (c.isTagEncodable = true →
      Takes (fromTagSig c) (invoke (.cls (clOf c)) .from_tag_uri) ∧
      Takes [(.binary_string, .none)] (invoke (.cls (clOf c)) .from_binary) ∧
      Takes [(.tag_hex_string, .none)] (invoke (.cls (clOf c)) .from_hex) ∧
      Takes [(.tag_base64_string, .none)] (invoke (.cls (clOf c)) .from_base64)) ∧
    (c.isGs1Element = true → Takes [(.gs1_element_string, .none), (.company_prefix_length, .none)] (invoke (.cls (clOf c)) .from_gs1_element_string)) ∧
    (c = .sgtin → Takes [(.gtin, .none), (.serial, .none), (.company_prefix_length, .none)] (invoke (.cls (clOf c)) .from_gtin_plus_serial)) := by
  cases c
  all_goals
    refine ⟨by sig_class, fun hc => ?_, fun hc => ?_, fun hc => ?_⟩
    all_goals first | (cases hc; done) | skip
  all_goals first | sig_class | exact ⟨by sig_class, by sig_class, by sig_class, by sig_class⟩

/-- The constructors. -/
theorem C99_constructors (c : Cls) : Takes [(if c = .lgtin then .epc_class else .epc_uri, .none)] (make (clOf c)) := by
  cases c
  all_goals exact make_takes (self := .self) rfl rfl (by decide) rfl rfl (fun _ => by declared) (by decide)

/-- The functions of the package. -/
theorem C99_functions (f : Nm) (ps : List (Nm × Option Val)) (h : (f, ps) ∈ functionSigs) : Takes ps (function f) := by
  simp only [functionSigs, List.mem_cons, List.not_mem_nil, or_false] at h
  rcases h with h | h | h | h | h | h | h | h | h | h
  all_goals
    cases h
    exact function_takes (fun _ => rfl) rfl rfl (by declared) (by decide)

/-- The parameters of `tag_uri` and `binary` of an SSCC: the filter value comes first and the coding scheme has a default. -/
example (s f : Val) : Passes (tagUriSig .sscc) [f] [(.binary_coding_scheme, s)] [f, s] ∧ Passes (tagUriSig .sscc) [] [(.binary_coding_scheme, s), (.filter_value, f)] [f, s] ∧
    Passes (tagUriSig .sscc) [f] [] [f, codSSCC .sscc96] := by
  refine ⟨⟨rfl, by simp [tagUriSig], rfl, by simp [tagUriSig], ?_⟩, ⟨rfl, by simp [tagUriSig], rfl, by simp [tagUriSig], ?_⟩, ⟨rfl, by simp [tagUriSig], rfl, by simp [tagUriSig], ?_⟩⟩
  all_goals
    intro i p v hi hp hv
    rcases i with _ | _ | i
    all_goals first | (cases hp; cases hv; exact .inl rfl) | (cases hp; cases hv; exact .inr ⟨rfl, rfl⟩) | (simp at hi; done) | (cases hp; done)

/-- What the claim says of an SSCC and a filter value: position, name and default value come to the same. -/
example (u : Str) (o v : Val) (h : construct .SSCC [.str u] = .ok o) :
    invoke o .tag_uri [v] [] = invoke o .tag_uri [v, codSSCC .sscc96] [] ∧
    invoke o .tag_uri [] [(.binary_coding_scheme, codSSCC .sscc96), (.filter_value, v)] = invoke o .tag_uri [v, codSSCC .sscc96] [] ∧
    invoke o .tag_uri [] [] = .error (.err .type) := by
  have H := (C99_writers .sscc rfl u o h).1
  refine ⟨(H [v] [] List.nodup_nil).1 _ ?_, (H [] [(.binary_coding_scheme, codSSCC .sscc96), (.filter_value, v)] (by simp)).1 _ ?_,
    (H [] [] List.nodup_nil).2 fun ⟨vs, h1, _, _, _, h5⟩ => ?_⟩
  · refine ⟨rfl, by simp [tagUriSig], rfl, by simp [tagUriSig], fun i p w hi hp hw => ?_⟩
    rcases i with _ | _ | i
    · simp at hi
    · cases hp; cases hw; exact .inr ⟨rfl, rfl⟩
    · cases hp
  · refine ⟨rfl, by simp [tagUriSig], rfl, by simp [tagUriSig], fun i p w hi hp hw => ?_⟩
    rcases i with _ | _ | i
    · cases hp; cases hw; exact .inl rfl
    · cases hp; cases hw; exact .inl rfl
    · cases hp
  · cases vs with
    | nil => cases h1
    | cons w ws =>
      rcases h5 0 (.filter_value, .none) w (by decide) rfl rfl with h | ⟨_, h⟩ <;> cases h

end Epc.Src
