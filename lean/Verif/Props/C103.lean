/-
C103: the keyword arguments of `get_gs1_key` and `epc_pure_identity_to_gs1_key`, executed from the source.

Both functions have `**kwargs` and hand them to `gs1_key` of the object they find.  `TakesMore`, `Extra`, `sourceSig` and `pureSig` are in `Spec/Forward`;
nothing in the statements refers to the model of the other claims.
-/
import Verif.Lemmas.Forward
import Verif.Props.C61
import Verif.Props.C97
import Verif.Props.C99
set_option linter.unusedVariables false

namespace Epc.Src
open Spec Grammar

/-- The parameters can be passed by position or by name, mixed with the keyword arguments that are handed on. -/
theorem C103_passing : TakesMore sourceSig (function .get_gs1_key) ∧ TakesMore pureSig (function .epc_pure_identity_to_gs1_key) :=
  ⟨function_takesMore (fun _ => rfl) rfl rfl sourceSig_declares (by decide), function_takesMore (fun _ => rfl) rfl rfl pureSig_declares (by decide)⟩

/-- `get_gs1_key` of a text: either it raises the same exception whatever the keyword arguments, or the text stands for an object of a class with GS1 keys,
and the outcome is that of the object's `gs1_key` with these keyword arguments. -/
theorem C103_source (s : Str) (k : Option Int) :
    (∃ e, ∀ kw, Extra sourceSig kw → function .get_gs1_key [.str s, optInt k] kw = .error (.err e)) ∨
    ∃ c u o, c.isGs1Keyed = true ∧ construct (clOf c) [.str u] = .ok o ∧
      ∀ kw, Extra sourceSig kw → function .get_gs1_key [.str s, optInt k] kw = invoke o .gs1_key [] kw := by
  cases hg : gs1KeySource s k with
  | none => exact .inl ⟨.convert, fun kw hk => by rw [source_forward s k hk, hg]⟩
  | some r =>
    cases r with
    | error e => exact .inl ⟨e, fun kw hk => by rw [source_forward s k hk, hg]; rfl⟩
    | ok x =>
      cases hx : x.cls.isGs1Keyed with
      | false =>
        refine .inl ⟨.convert, fun kw hk => ?_⟩
        rw [source_forward s k hk, hg]
        show (if x.cls.isGs1Keyed = true then _ else _) = _
        rw [hx]
        rfl
      | true =>
        obtain ⟨c, hd⟩ := denotes_of_source hg
        obtain ⟨hn, hc⟩ := C61_denotes c x s k hd
        refine .inr ⟨c, x.epcUri, objScheme x, by rw [← hc]; exact hx, by rw [(C91_constructors c _).1, hn]; rfl, fun kw hk => ?_⟩
        rw [source_forward s k hk, hg]
        show (if x.cls.isGs1Keyed = true then _ else _) = _
        rw [hx]
        rfl

/-- `epc_pure_identity_to_gs1_key` is `gs1_key` of the object that `epc_pure_identity_to_gs1_keyed` returns, with the same keyword arguments. -/
theorem C103_pure (s : Str) (kw : List (Nm × Val)) (hk : Extra pureSig kw) :
    function .epc_pure_identity_to_gs1_key [.str s] kw =
      function .epc_pure_identity_to_gs1_keyed [.str s] [] >>= fun o => invoke o .gs1_key [] kw := by
  rw [pure_forward s hk, C93_epc_pure_identity_to_gs1_keyed, ← lift_outcome]
  cases epcPureIdentityToGs1Keyed s <;> rfl

/-- `gs1_key` of an object with a keyword argument it does not have. -/
private theorem key_refuses {c : Cls} {u : Str} {o : Val} (hc : c.isGs1Keyed = true) (h : construct (clOf c) [.str u] = .ok o) {kw : List (Nm × Val)}
    (hn : (kw.map (·.1)).Nodup) {k : Nm × Val} (hk : k ∈ kw) (ht : k.1 = .gtin_type → c ≠ .sgtin ∧ c ≠ .lgtin) :
    invoke o .gs1_key [] kw = .error (.err .type) := by
  refine (((C99_keys c u o h).1 hc) [] kw hn).2 ?_
  rintro ⟨vs, -, -, -, h4, -⟩
  have := h4 k hk
  simp only [List.length_nil, List.drop_zero] at this
  obtain ⟨e, hs⟩ := (keySig_names c k.1).1 this
  rcases hs with rfl | rfl
  · exact (ht e).1 rfl
  · exact (ht e).2 rfl

/-- A keyword argument other than `gtin_type` is never ignored: `get_gs1_key` raises TypeError if it would return a key without it (if it would
not, it raises what it raises without it). -/
theorem C103_unknown (s : Str) (k : Option Int) (kw : List (Nm × Val)) (hk : Extra sourceSig kw) (n : Nm) (v : Val) (hn : (n, v) ∈ kw) (ht : n ≠ .gtin_type) :
    (∀ r, function .get_gs1_key [.str s, optInt k] [] = .ok r → function .get_gs1_key [.str s, optInt k] kw = .error (.err .type)) ∧
    ∃ e, function .get_gs1_key [.str s, optInt k] kw = .error (.err e) := by
  have h0 : Extra sourceSig [] := ⟨List.nodup_nil, by simp, by simp⟩
  rcases C103_source s k with ⟨e, he⟩ | ⟨c, u, o, hc, ho, hf⟩
  · refine ⟨fun r hr => ?_, e, he kw hk⟩
    rw [he [] h0] at hr
    cases hr
  · have := key_refuses hc ho hk.1 hn (fun e => absurd e ht)
    exact ⟨fun r hr => by rw [hf kw hk, this], .type, by rw [hf kw hk, this]⟩

/-- `gtin_type` is refused as well if the text is not that of an SGTIN or LGTIN. -/
theorem C103_gtin_type (s : Str) (kw : List (Nm × Val)) (hk : Extra pureSig kw) (hne : kw ≠ []) (c : Cls) (hc : c.isGs1Keyed = true) (hs : c ≠ .sgtin) (hl : c ≠ .lgtin)
    (o : Val) (h : construct (clOf c) [.str s] = .ok o) :
    function .epc_pure_identity_to_gs1_key [.str s] kw = .error (.err .type) ∧
    ∀ k, (∀ m ∈ kw, m.1 ∉ sourceSig.map (·.1)) → function .get_gs1_key [.str s, optInt k] kw = .error (.err .type) := by
  obtain ⟨a, ha⟩ := List.exists_mem_of_ne_nil kw hne
  have hr := key_refuses hc h hk.1 ha (fun _ => ⟨hs, hl⟩)
  obtain ⟨x, hx, rfl⟩ := constructed h
  obtain ⟨hcx, -, -⟩ := Cls.new_facts hx
  have hkx : x.cls.isGs1Keyed = true := by rw [hcx]; exact hc
  refine ⟨?_, fun k hm => ?_⟩
  · rw [pure_forward s hk, show epcPureIdentityToGs1Keyed s = .ok x from ?_]
    · exact hr
    · rw [epcPureIdentityToGs1Keyed, (C38_accepted c s x hx).1]
      show requireCls _ _ = _
      rw [requireCls, if_pos hkx]
  · have hk' : Extra sourceSig kw := ⟨hk.1, hm, hk.2.2⟩
    rw [source_forward s k hk', show gs1KeySource s k = some (.ok x) from ?_]
    · show (if x.cls.isGs1Keyed = true then _ else _) = _
      rw [hkx, if_pos rfl]
      exact hr
    · rw [gs1KeySource, if_pos (epcUri_of_cls c (c.new_facts hx).2.2.1), (C38_accepted c s x hx).1]

/-- Cases: the members of `GTIN_TYPE` are handed on, whether or not the length is passed by name; an unknown keyword is refused. -/
example : Extra sourceSig [(.gtin_type, .int 13)] := ⟨by decide, by decide, fun v hv => by simp at hv; exact ⟨13, hv⟩⟩
example : returnsStr (function .get_gs1_key [] [(.gtin_type, .int 13), (.company_prefix_length, .int 7), (.source, .str (py "(01)00614141123452(21)6789"))])
    (py "0614141123452") := by decide +kernel
example : raises (function .get_gs1_key [.str (py "urn:epc:id:sgtin:0614141.812345.6789")] [(.filter_value, .int 13)]) (.err .type) := by decide +kernel
example : raises (function .get_gs1_key [.str (py "urn:epc:id:sscc:0614141.1234567890")] [(.gtin_type, .int 14)]) (.err .type) := by decide +kernel
example : raises (function .epc_pure_identity_to_gs1_key [.str (py "urn:epc:id:bic:CSQU3054383")] [(.gtin_type, .int 14)]) (.err .convert) := by decide +kernel

end Epc.Src
