/-
/repo/epcpy/utils/parsers.py
-/
import Verif.Refine.Schemes
set_option linter.unusedSimpArgs false

namespace Epc.Src
open Epc.Spec

theorem sem_scheme (n : Nat) (u : Str) :
    (level (n + 12)).app (.func parsers.epc_pure_identity_to_scheme) [.str u] [] = (lift (epcPureIdentityToScheme u)).map objScheme := by
  rw [app_func]
  run [parsers.epc_pure_identity_to_scheme, epcPureIdentityToScheme, identifiers]
  refine same_step fun id _ => ?_
  cases hc : clsByName (fun _ => true) id with
  | none => exe [identifiers, dictGet_all, hc, Option.map, Option.isSome]
  | some c =>
    have hd := dictGet_all id
    rw [hc, Option.map] at hd
    exe [identifiers, hd, item_of_get _ _ _ hd, Option.map, Option.isSome, attr_from_epc_uri, sem_from_epc_uri]

theorem isinstance_element (x : Scheme) : builtinCall .isinstance [objScheme x, .cls .GS1Element] = .ok (.bool x.cls.isGs1Element) := by cases x <;> rfl
theorem isinstance_keyed (x : Scheme) : builtinCall .isinstance [objScheme x, .cls .GS1Keyed] = .ok (.bool x.cls.isGs1Keyed) := by cases x <;> rfl
theorem isinstance_tag (x : Scheme) : builtinCall .isinstance [objScheme x, .cls .TagEncodable] = .ok (.bool x.cls.isTagEncodable) := by cases x <;> rfl

theorem lift_require (p : Cls → Bool) (x : Scheme) : lift (requireCls p x) = if (!p x.cls) = true then .error (.err .convert) else .ok x := by
  unfold requireCls
  cases p x.cls <;> rfl

theorem sem_gs1_element (n : Nat) (u : Str) :
    (level (n + 13)).app (.func parsers.epc_pure_identity_to_gs1_element) [.str u] [] = (lift (epcPureIdentityToGs1Element u)).map objScheme := by
  rw [app_func]
  exe [parsers.epc_pure_identity_to_gs1_element, epcPureIdentityToGs1Element, sem_scheme, isinstance_element, lift_require]

theorem sem_gs1_keyed (n : Nat) (u : Str) :
    (level (n + 13)).app (.func parsers.epc_pure_identity_to_gs1_keyed) [.str u] [] = (lift (epcPureIdentityToGs1Keyed u)).map objScheme := by
  rw [app_func]
  exe [parsers.epc_pure_identity_to_gs1_keyed, epcPureIdentityToGs1Keyed, sem_scheme, isinstance_keyed, lift_require]

theorem sem_tag_encodable (n : Nat) (u : Str) :
    (level (n + 13)).app (.func parsers.epc_pure_identity_to_tag_encodable) [.str u] [] = (lift (epcPureIdentityToTagEncodable u)).map objScheme := by
  rw [app_func]
  exe [parsers.epc_pure_identity_to_tag_encodable, epcPureIdentityToTagEncodable, sem_scheme, isinstance_tag, lift_require]


/-- What `requireCls` promises. -/
theorem require_ok {p : Cls → Bool} {x y : Scheme} (h : requireCls p x = .ok y) : p y.cls = true := by
  unfold requireCls at h
  split at h
  · cases h; assumption
  · cases h

theorem element_ok {u : Str} {x : Scheme} (h : epcPureIdentityToGs1Element u = .ok x) : x.cls.isGs1Element = true := by
  unfold epcPureIdentityToGs1Element at h
  obtain ⟨y, _, h⟩ := bind_ok_iff.1 h
  exact require_ok h
theorem keyed_ok {u : Str} {x : Scheme} (h : epcPureIdentityToGs1Keyed u = .ok x) : x.cls.isGs1Keyed = true := by
  unfold epcPureIdentityToGs1Keyed at h
  obtain ⟨y, _, h⟩ := bind_ok_iff.1 h
  exact require_ok h

theorem sem_gs1_element_string (n : Nat) (u : Str) :
    (level (n + 14)).app (.func parsers.epc_pure_identity_to_gs1_element_string) [.str u] [] = (lift (epcPureIdentityToGs1ElementString u)).map .str := by
  rw [app_func]
  run [parsers.epc_pure_identity_to_gs1_element_string, epcPureIdentityToGs1ElementString, sem_gs1_element]
  refine same_step fun x hx => ?_
  have h := element_ok hx
  exe [attr_elem _ x h, sem_elem _ x h]

theorem sem_gs1_key (n : Nat) (u : Str) (t : Option GtinType) :
    (level (n + 14)).app (.func parsers.epc_pure_identity_to_gs1_key) [.str u] (keyKw t) = (lift (epcPureIdentityToGs1Key u t)).map .str := by
  rw [app_func]
  cases t with
  | none =>
    run [parsers.epc_pure_identity_to_gs1_key, epcPureIdentityToGs1Key, sem_gs1_keyed, keyKw]
    refine same_step fun x hx => ?_
    have h := keyed_ok hx
    have hs := fun n => sem_key n x none h
    rw [keyKw] at hs
    exe [attr_key _ x h, hs]
  | some t =>
    run [parsers.epc_pure_identity_to_gs1_key, epcPureIdentityToGs1Key, sem_gs1_keyed, keyKw]
    refine same_step fun x hx => ?_
    have h := keyed_ok hx
    have hs := fun n => sem_key n x (some t) h
    rw [keyKw] at hs
    exe [attr_key _ x h, hs]

theorem tag_of_name {p : Cls → Bool} {id : Str} {c : Cls} (h : clsByName p id = some c) : p c = true := by
  have := List.find?_some h
  rw [Bool.and_eq_true] at this
  exact this.1

theorem sem_tag_uri_to (n : Nat) (t : Str) :
    (level (n + 13)).app (.func parsers.tag_uri_to_tag_encodable) [.str t] [] = (lift (tagUriToTagEncodable t)).map objScheme := by
  rw [app_func]
  run [parsers.tag_uri_to_tag_encodable, tagUriToTagEncodable, tag_identifiers]
  refine same_step fun part _ => ?_
  run [tag_identifiers]
  refine same_step fun id _ => ?_
  cases hc : clsByName Cls.isTagEncodable id with
  | none => exe [tag_identifiers, dictGet_some, hc, Option.map, Option.isSome]
  | some c =>
    have hd := dictGet_some id Cls.isTagEncodable
    rw [hc, Option.map] at hd
    have h := tag_of_name hc
    exe [tag_identifiers, hd, Option.isSome, attr_from_tag_uri _ c h, sem_from_tag _ c _ h]

theorem dictGet_header (b : Str) : ∀ l : List (Str × Cls), dictGet (.str b) (l.map (fun h => (.str h.1, .cls (clOf h.2)))) =
    (l.lookup b).map (fun c => .cls (clOf c))
  | [] => rfl
  | (h, k) :: t => by
    rw [List.map_cons, dictGet, List.lookup_cons, dictGet_header b t]
    show (if (b == h) = true then _ else _) = _
    cases b == h <;> rfl

theorem header_tag {b : Str} {c : Cls} (h : binaryHeaderTable.lookup b = some c) : c.isTagEncodable = true := by
  have ha : ∀ p ∈ binaryHeaderTable, p.2.isTagEncodable = true := by decide +kernel
  have hm : ∀ (l : List (Str × Cls)), l.lookup b = some c → ∃ k, (k, c) ∈ l := by
    intro l
    induction l with
    | nil => intro h; cases h
    | cons p l ih =>
      intro h
      rw [List.lookup_cons] at h
      split at h
      · cases h; exact ⟨p.1, by simp⟩
      · obtain ⟨k, hk⟩ := ih h; exact ⟨k, by simp [hk]⟩
  obtain ⟨k, hk⟩ := hm _ h
  exact ha _ hk

theorem sem_binary_to (n : Nat) (b : Str) :
    (level (n + 15)).app (.func parsers.binary_to_tag_encodable) [.str b] [] = (lift (binaryToTagEncodable b)).map objScheme := by
  rw [app_func]
  unfold binaryToTagEncodable
  have hd := dictGet_header (b.take 8) binaryHeaderTable
  cases hc : binaryHeaderTable.lookup (b.take 8) with
  | none =>
    rw [hc, Option.map] at hd
    exe [parsers.binary_to_tag_encodable, binary_headers, hd, Option.isSome]
  | some c =>
    rw [hc, Option.map] at hd
    have h := header_tag hc
    exe [parsers.binary_to_tag_encodable, binary_headers, hd, Option.isSome, attr_from_binary _ c h, sem_from_bin _ c _ h]

theorem sem_hex_to (n : Nat) (s : Str) :
    (level (n + 16)).app (.func parsers.hex_to_tag_encodable) [.str s] [] = (lift (hexToTagEncodable s)).map objScheme := by
  rw [app_func]
  exe [parsers.hex_to_tag_encodable, hexToTagEncodable, sem_binary_to]

theorem sem_base64_to (n : Nat) (s : Str) :
    (level (n + 17)).app (.func parsers.base64_to_tag_encodable) [.str s] [] = (lift (base64ToTagEncodable s)).map objScheme := by
  rw [app_func]
  exe [parsers.base64_to_tag_encodable, base64ToTagEncodable, sem_hex_to]

/-! ### gs1_element_string_to_gs1_element -/

theorem loop_elem (n : Nat) (s : Str) (k : Int) (l : List (Re × Cls)) (hl : ∀ p ∈ l, p.2.isGs1Element = true) : ∀ env : Env,
    get .gs1_element_string env = some (.str s) → get .company_prefix_length env = some (.int k) →
      (∀ p, l.find? (fun p => p.1.fullmatch s) = some p →
        forLoop (fun env v => asList v >>= fun vs => assignMany env [.var .regex, .var .scheme] .none vs)
          (runBody (level (n + 11)) .parsers [] parsers.gs1_element_string_to_gs1_element.loop1)
          (l.map (fun p => .list [.regex p.1, .cls (clOf p.2)])) env = (lift (p.2.fromGs1ElementString s k)).map (fun x => Flow.ret (objScheme x))) ∧
      (l.find? (fun p => p.1.fullmatch s) = none → ∃ env', get .gs1_element_string env' = some (.str s) ∧ get .ConvertException env' = get .ConvertException env ∧
        forLoop (fun env v => asList v >>= fun vs => assignMany env [.var .regex, .var .scheme] .none vs)
          (runBody (level (n + 11)) .parsers [] parsers.gs1_element_string_to_gs1_element.loop1)
          (l.map (fun p => .list [.regex p.1, .cls (clOf p.2)])) env = .ok (.next env')) := by
  induction l with
  | nil => intro env hs hk; exact ⟨fun p h => (by cases h), fun _ => ⟨env, hs, rfl, rfl⟩⟩
  | cons p l ih =>
    intro env hs hk
    obtain ⟨r, c⟩ := p
    have hc : c.isGs1Element = true := hl (r, c) (by simp)
    rw [List.map_cons, forLoop]
    have ih := ih (fun p hp => hl p (by simp [hp])) (set .scheme (.cls (clOf c)) (set .regex (.regex r) env))
      (by rw [get_set_ne (by decide), get_set_ne (by decide), hs]) (by rw [get_set_ne (by decide), get_set_ne (by decide), hk])
    rw [List.find?_cons]
    cases hr : r.fullmatch s with
    | true =>
      refine ⟨fun p h => ?_, fun h => (by cases h)⟩
      cases h
      unfold runBody parsers.gs1_element_string_to_gs1_element.loop1
      exe [get_set_self, get_set_ne, hs, hk, hr, ne_eq, not_false_iff, attr_from_elem _ c hc, sem_from_elem _ c _ _ hc]
    | false =>
      refine ⟨fun p h => ?_, fun h => ?_⟩
      · refine Eq.trans ?_ (ih.1 p h)
        unfold runBody parsers.gs1_element_string_to_gs1_element.loop1
        exe [get_set_self, get_set_ne, hs, hk, hr, ne_eq, not_false_iff]
      · obtain ⟨env', h1, h2, h3⟩ := ih.2 h
        refine ⟨env', h1, by rw [h2, get_set_ne (by decide), get_set_ne (by decide)], Eq.trans ?_ h3⟩
        unfold runBody parsers.gs1_element_string_to_gs1_element.loop1
        exe [get_set_self, get_set_ne, hs, hk, hr, ne_eq, not_false_iff]

/-- The text of the pattern of the element strings of a class. -/
def elemText : Cls → Option Str
  | .cpi => some regex.CPI_GS1_ELEMENT_STRING
  | .gdti => some regex.GDTI_GS1_ELEMENT_STRING
  | .giai => some regex.GIAI_GS1_ELEMENT_STRING
  | .ginc => some regex.GINC_GS1_ELEMENT_STRING
  | .grai => some regex.GRAI_GS1_ELEMENT_STRING
  | .gsin => some regex.GSIN_GS1_ELEMENT_STRING
  | .gsrn => some regex.GSRN_GS1_ELEMENT_STRING
  | .gsrnp => some regex.GSRNP_GS1_ELEMENT_STRING
  | .itip => some regex.ITIP_GS1_ELEMENT_STRING
  | .lgtin => some regex.LGTIN_GS1_ELEMENT_STRING
  | .pgln => some regex.PGLN_GS1_ELEMENT_STRING
  | .sgcn => some regex.SGCN_GS1_ELEMENT_STRING
  | .sgln => some regex.SGLN_GS1_ELEMENT_STRING
  | .sgtin => some regex.SGTIN_GS1_ELEMENT_STRING
  | .sscc => some regex.SSCC_GS1_ELEMENT_STRING
  | .upui => some regex.UPUI_GS1_ELEMENT_STRING
  | .adi | .bic | .gid | .imovn | .usdod => .none

/-- The classes with an element string, each with its pattern. -/
def elemTable : List (Re × Cls) := Cls.all.filterMap (fun c => (elemText c).map (fun t => (rx t, c)))

theorem elem_table (n : Nat) : (level (n + 4)).const .parsers [] parsers.GS1_ELEMENT_STRING_REGEX_TO_SCHEME =
    .ok (.dict (elemTable.map (fun p => (.regex p.1, .cls (clOf p.2))))) := rfl
theorem table_items (l : List (Re × Cls)) : methodCall (.dict (l.map (fun p => (.regex p.1, .cls (clOf p.2))))) .items [] =
    .ok (.list (l.map (fun p => .list [.regex p.1, .cls (clOf p.2)]))) := by
  simp only [methodCall, List.map_map]; rfl

theorem elem_full (c : Cls) (s : Str) : (match c.elemRegex with | some r => r.fullmatch s | none => false) =
    (match elemText c with | some t => (rx t).fullmatch s | none => false) := by
  cases c <;> simp only [Cls.elemRegex, elemText, src]

theorem elemCls_find (s : Str) : ∀ l : List Cls, l.find? (fun c => match c.elemRegex with | some r => r.fullmatch s | none => false) =
    ((l.filterMap (fun c => (elemText c).map (fun t => (rx t, c)))).find? (fun p => p.1.fullmatch s)).map (·.2)
  | [] => rfl
  | c :: l => by
    have ih := elemCls_find s l
    rw [List.find?_cons, List.filterMap_cons, ih, elem_full]
    cases elemText c with
    | none => rfl
    | some r =>
      simp only [Option.map, List.find?_cons]
      cases (rx r).fullmatch s <;> rfl
theorem elemCls_eq (s : Str) : elemCls s = (elemTable.find? (fun p => p.1.fullmatch s)).map (·.2) := elemCls_find s _

theorem sem_element_string_to (n : Nat) (s : Str) (k : Int) :
    (level (n + 13)).app (.func parsers.gs1_element_string_to_gs1_element) [.str s, .int k] [] = (lift (gs1ElementStringToGs1Element s k)).map objScheme := by
  rw [app_func]
  have hl : ∀ p ∈ elemTable, p.2.isGs1Element = true := by
    have : (elemTable.map (·.2)).all Cls.isGs1Element = true := by decide +kernel
    intro p hp
    exact List.all_eq_true.1 this _ (List.mem_map_of_mem hp)
  have h := loop_elem (n + 1) s k elemTable hl [(.gs1_element_string, .str s), (.company_prefix_length, .int k)] rfl rfl
  unfold gs1ElementStringToGs1Element
  rw [elemCls_eq]
  cases hf : elemTable.find? (fun p => p.1.fullmatch s) with
  | none =>
    obtain ⟨env, h1, h2, h3⟩ := h.2 hf
    have h2 : get .ConvertException env = none := h2
    clear h
    run [parsers.gs1_element_string_to_gs1_element, elem_table, table_items, h3]
    exe [h1, h2, Option.map]
  | some p =>
    have h3 := h.1 p hf
    clear h
    run [parsers.gs1_element_string_to_gs1_element, elem_table, table_items, h3]
    exe [Option.map]

/-! ### _idpat_to_gs1_keyed_scheme -/

/-- The character is in no class of the expression. -/
def reAvoids (c : Char) : Re → Bool
  | .none => true
  | .eps => true
  | .cls p => !p c
  | .seq a b => reAvoids c a && reAvoids c b
  | .alt a b => reAvoids c a && reAvoids c b
  | .star a => reAvoids c a

theorem not_mem_of_avoids {c : Char} {r : Re} (hr : reAvoids c r = true) : ∀ {s : Str}, Re.Lang r s → c ∉ s := by
  induction r with
  | none => intro s h; cases h
  | eps => intro s h; rw [show s = [] from h]; simp
  | cls p =>
    rintro s ⟨d, hd, rfl⟩ hm
    rw [List.mem_singleton] at hm
    subst hm
    simp [reAvoids, hd] at hr
  | seq a b iha ihb =>
    rw [reAvoids, Bool.and_eq_true] at hr
    rintro s ⟨x, y, rfl, hx, hy⟩ hm
    rcases List.mem_append.1 hm with h | h
    · exact iha hr.1 hx h
    · exact ihb hr.2 hy h
  | alt a b iha ihb =>
    rw [reAvoids, Bool.and_eq_true] at hr
    rintro s (h | h)
    · exact iha hr.1 h
    · exact ihb hr.2 h
  | star a ih =>
    intro s h
    have h : Re.Star (Re.Lang a) s := h
    induction h with
    | nil => simp
    | cons hx hs ihs =>
      intro hm
      rcases List.mem_append.1 hm with h | h
      · exact ih hr hx h
      · exact ihs hs h

theorem subFinal_eq (u : Str) : subFinal u = subFinalStar u ∨ ('\n' ∈ subFinal u ∧ '\n' ∈ subFinalStar u) := by
  have hr : ∀ v : Str, subFinal v.reverse = subFinalStar v.reverse ∨ ('\n' ∈ subFinal v.reverse ∧ '\n' ∈ subFinalStar v.reverse) := by
    intro v
    unfold subFinal subFinalStar
    rw [List.reverse_reverse]
    split
    · exact .inl rfl
    · exact .inr (by simp)
    · next h _ =>
      split
      · next t _ => exact absurd rfl (h t)
      · exact .inl rfl
  rw [← List.reverse_reverse u]
  exact hr _

theorem dummy_match (u : Str) : Rx.epcUri.fullmatch (subFinal u) = Rx.epcUri.fullmatch (subFinalStar u) := by
  rcases subFinal_eq u with h | ⟨h1, h2⟩
  · rw [h]
  · have ha : reAvoids '\n' Rx.epcUri = true := by decide +kernel
    have hf : ∀ s, '\n' ∈ s → Rx.epcUri.fullmatch s = false := fun s hs => by
      cases h : Rx.epcUri.fullmatch s with
      | false => rfl
      | true => exact absurd hs (not_mem_of_avoids ha ((Re.fullmatch_iff _ _).1 h))
    rw [hf _ h1, hf _ h2]

theorem dummy_same {u : Str} (h : Rx.epcUri.fullmatch (subFinalStar u) = true) : subFinal u = subFinalStar u := by
  rcases subFinal_eq u with h' | ⟨h1, h2⟩
  · exact h'
  · exact absurd h2 (not_mem_of_avoids (by decide +kernel) ((Re.fullmatch_iff _ _).1 h))

theorem epc_regex (n : Nat) : (level (n + 2)).const .parsers [] parsers.EPC_URI_REGEX = .ok (.regex (rx regex.EPC_URI)) := by
  run [parsers.EPC_URI_REGEX]
theorem elem_regex (n : Nat) : (level (n + 2)).const .parsers [] parsers.GS1_ELEMENT_STRING_REGEX = .ok (.regex (rx regex.GS1_ELEMENT_STRING)) := by
  run [parsers.GS1_ELEMENT_STRING_REGEX]
theorem idpat_regex (n : Nat) : (level (n + 2)).const .parsers [] parsers.IDPAT_URI_REGEX = .ok (.regex (rx regex.IDPAT_URI)) := by
  run [parsers.IDPAT_URI_REGEX]
theorem tag_regex (n : Nat) : (level (n + 2)).const .parsers [] parsers.TAG_URI_REGEX = .ok (.regex (rx regex.TAG_URI)) := by
  run [parsers.TAG_URI_REGEX]

theorem m_sub (u : Str) : methodCall (.module .re) .sub [.str ['\\', '.', '\\', '*', '$'], .str ['.', '0'], .str u, .int ((1 : Nat) : Int)] =
    .ok (.str (subFinal u)) := by
  have h : methodCall (.module .re) .sub [.str ['\\', '.', '\\', '*', '$'], .str ['.', '0'], .str u, .int ((1 : Nat) : Int)] =
    match subBy (py "\\.\\*$") (py ".0") u with
    | some t => .ok (.str t)
    | .none => .error .unsupported := rfl
  rw [h, reSub_star]

theorem any_str (id : Str) : ∀ l : List Str, (l.map Val.str).any ((Val.str id).beq ·) = l.contains id
  | [] => rfl
  | a :: l => by
    rw [List.map_cons, List.any_cons, any_str id l, List.contains_cons]
    rfl

theorem sem_idpat_to (n : Nat) (t : Str) :
    (level (n + 12)).app (.func parsers._idpat_to_gs1_keyed_scheme) [.str t] [] = (lift (idpatToGs1KeyedScheme t)).map objScheme := by
  rw [app_func]
  run [parsers._idpat_to_gs1_keyed_scheme, idpatToGs1KeyedScheme]
  refine same_step fun id _ => ?_
  cases hc : clsByName Cls.isGs1Keyed id with
  | none => exe [keyed_identifiers, dictGet_some, hc, Option.map, Option.isSome]
  | some c =>
    have hd := dictGet_some id Cls.isGs1Keyed
    rw [hc, Option.map] at hd
    have h := tag_of_name hc
    have hn : (oneEscapeAllowed.map Val.str).any ((Val.str id).beq ·) = oneEscapeAllowed.contains id := any_str id _
    generalize hu : replaceFirst (py "idpat") (py "id") t = u
    cases h1 : Rx.epcUri.fullmatch u with
    | true => exe [keyed_identifiers, hd, Option.isSome, epc_regex, hu, h1, item_of_get _ _ _ hd, sem_new]
    | false =>
      cases h2 : oneEscapeAllowed.contains id with
      | false => exe [keyed_identifiers, hd, Option.isSome, escape_schemes, epc_regex, hu, h1, hn, h2]
      | true =>
        cases h3 : Rx.epcUri.fullmatch (subFinalStar u) with
        | false =>
          have h4 := dummy_match u
          rw [h3] at h4
          exe [keyed_identifiers, hd, Option.isSome, escape_schemes, epc_regex, hu, h1, hn, h2, m_sub, h3, h4]
        | true =>
          have h4 := dummy_same h3
          exe [keyed_identifiers, hd, Option.isSome, escape_schemes, epc_regex, hu, h1, hn, h2, m_sub, h3, h4, item_of_get _ _ _ hd, sem_new]

/-! ### get_gs1_key -/

/-- The company prefix length as a value. -/
def lenVal : Option Int → Val
  | none => .none
  | some k => .int k

/-- The variables of `get_gs1_key`. -/
def keyEnv (s : Str) (l : Val) (kw : List (Nm × Val)) (v : Val) : Env :=
  [(.source, .str s), (.company_prefix_length, l), (.kwargs, .kwargs kw), (.scheme, v)]

theorem key_frame (n : Nat) (s : Str) (k : Option Int) (t : Option GtinType) : frame (level (n + 1)) parsers.get_gs1_key (.str s :: lenArg k) (keyKw t) =
    .ok [(.source, .str s), (.company_prefix_length, lenVal k), (.kwargs, .kwargs (keyKw t))] := by
  cases k <;> cases t <;> rfl

theorem any_header (b : Str) : ∀ l : List (Str × Cls), (l.map (fun h => Val.str h.1)).any ((Val.str b).beq ·) = (l.lookup b).isSome
  | [] => rfl
  | (h, k) :: t => by
    rw [List.map_cons, List.any_cons, any_header b t, List.lookup_cons]
    show ((b == h) || _) = _
    cases b == h <;> rfl

/-- The table of hexadecimal headers. -/
def hexTable : List (Val × Val) := binaryHeaderTable.filterMap (fun h => (binaryToHex h.1).toOption.map (fun x => (.str x, .cls (clOf h.2))))

theorem hex_table (n : Nat) : (level (n + 6)).const .parsers [] parsers.TAG_ENCODABLE_HEX_HEADERS = .ok (.dict hexTable) := hex_headers n

theorem binary_keys (b : Str) : ((binaryHeaderTable.map (fun h => ((Val.str h.1, Val.cls (clOf h.2)) : Val × Val))).map (·.1)).any ((Val.str b).beq ·) =
    (binaryHeaderTable.lookup b).isSome := by
  rw [List.map_map]
  exact any_header b _

theorem hex_keys (b : Str) : (hexTable.map (·.1)).any ((Val.str b).beq ·) = hexHeaders.contains b := by
  rw [hexTable, List.map_filterMap]
  have : ∀ l : List (Str × Cls), (l.filterMap (fun h => ((binaryToHex h.1).toOption.map (fun x => ((Val.str x, Val.cls (clOf h.2)) : Val × Val))).map (·.1))) =
      (l.filterMap (fun h => (binaryToHex h.1).toOption)).map Val.str := by
    intro l
    induction l with
    | nil => rfl
    | cons p l ih =>
      rw [List.filterMap_cons, List.filterMap_cons, ih]
      cases (binaryToHex p.1).toOption <;> rfl
  rw [this, any_str]
  rfl

/-- The chain of conditions of `get_gs1_key`. -/
def keyChain : Stmt := parsers.get_gs1_key.body.getD 1 .brk

theorem sem_key_chain (n : Nat) (s : Str) (k : Option Int) (kw : List (Nm × Val)) :
    exec (level (n + 17)) .parsers [] (keyEnv s (lenVal k) kw .none) keyChain =
      match gs1KeySource s k with
      | none => .ok (.next (keyEnv s (lenVal k) kw .none))
      | some r => (lift r).map (fun x => .next (keyEnv s (lenVal k) kw (objScheme x))) := by
  unfold gs1KeySource keyChain keyEnv
  unfold parsers.get_gs1_key
  simp only [List.getD_cons_succ, List.getD_cons_zero]
  cases h1 : Rx.epcUri.fullmatch s with
  | true =>
    rw [if_pos rfl]
    run [epc_regex, h1, sem_scheme]
    exact same_step fun _ _ => rfl
  | false =>
  rw [if_neg Bool.false_ne_true]
  have hl : (lenVal k).truthy = decide (k.getD 0 ≠ 0) := by
    cases k with
    | none => rfl
    | some k => simp only [lenVal, Val.truthy, Option.getD, bne, ne_eq, decide_not]; rfl
  by_cases h2 : Rx.gs1Elem.fullmatch s = true ∧ k.getD 0 ≠ 0
  · cases k with
    | none => exact absurd rfl h2.2
    | some k =>
      rw [decide_eq_true h2.2] at hl
      rw [if_pos h2]
      have h2' : Rx.gs1Elem.fullmatch s = true ∧ k ≠ 0 := h2
      run [epc_regex, elem_regex, h1, h2.1, h2'.2, hl]
      run [lenVal, Option.getD, sem_element_string_to]
      exact same_step fun _ _ => rfl
  rw [if_neg h2]
  have hc : ∀ n : Nat, eval (level (n + 17)) .parsers (keyEnv s (lenVal k) kw .none) (.and (.call (.attr (.name .GS1_ELEMENT_STRING_REGEX) .fullmatch) [(.name .source)] []) (.name .company_prefix_length)) =
      .ok (if Rx.gs1Elem.fullmatch s then lenVal k else .bool false) := by
    intro n
    unfold keyEnv
    cases h : Rx.gs1Elem.fullmatch s <;> run [elem_regex, h]
  have hf : ((if Rx.gs1Elem.fullmatch s then lenVal k else .bool false).truthy) = false := by
    cases h : Rx.gs1Elem.fullmatch s with
    | false => rfl
    | true => exact hl.trans (decide_eq_false (fun hk => h2 ⟨h, hk⟩))
  simp only [keyEnv] at hc
  cases h3 : Rx.tagUri.fullmatch s with
  | true =>
    rw [if_pos rfl]
    run [epc_regex, h1, ↓hc, hf, tag_regex, h3, sem_tag_uri_to]
    exact same_step fun _ _ => rfl
  | false =>
  rw [if_neg Bool.false_ne_true]
  cases h4 : Rx.idpatUri.fullmatch s with
  | true =>
    rw [if_pos rfl]
    run [epc_regex, h1, ↓hc, hf, tag_regex, h3, idpat_regex, h4, sem_idpat_to]
    exact same_step fun _ _ => rfl
  | false =>
  rw [if_neg Bool.false_ne_true]
  have hb := binary_keys (s.take 8)
  cases h5 : (binaryHeaderTable.lookup (s.take 8)).isSome with
  | true =>
    rw [if_pos rfl]
    rw [h5] at hb
    run [epc_regex, h1, ↓hc, hf, tag_regex, h3, idpat_regex, h4, binary_headers, hb, sem_binary_to]
    exact same_step fun _ _ => rfl
  | false =>
  rw [if_neg Bool.false_ne_true]
  rw [h5] at hb
  have hx := hex_keys ((s.take 2).map upperChar)
  cases h6 : hexHeaders.contains ((s.take 2).map upperChar) with
  | true =>
    rw [if_pos rfl]
    rw [h6] at hx
    run [epc_regex, h1, ↓hc, hf, tag_regex, h3, idpat_regex, h4, binary_headers, hb, hex_table, hx, sem_hex_to]
    exact same_step fun _ _ => rfl
  | false =>
    rw [if_neg Bool.false_ne_true]
    rw [h6] at hx
    run [epc_regex, h1, ↓hc, hf, tag_regex, h3, idpat_regex, h4, binary_headers, hb, hex_table, hx]

/-- What `get_gs1_key` does with the object it has chosen. -/
def keyTail : List Stmt := parsers.get_gs1_key.body.drop 2

theorem isinstance_none (c : Cl) : builtinCall .isinstance [.none, .cls c] = .ok (.bool false) := rfl

theorem key_body : parsers.get_gs1_key.body = .assign (.var .scheme) .none :: keyChain :: keyTail := rfl

theorem sem_key_tail (n : Nat) (s : Str) (l : Val) (t : Option GtinType) (x : Scheme) :
    execBlock (level (n + 17)) .parsers [] (keyEnv s l (keyKw t) (objScheme x)) keyTail =
      (lift (requireCls Cls.isGs1Keyed x >>= fun x => x.gs1Key t)).map (fun k => .ret (.str k)) := by
  have hi := isinstance_keyed x
  unfold keyTail keyEnv parsers.get_gs1_key requireCls
  simp only [List.drop_succ_cons, List.drop_zero]
  cases hk : x.cls.isGs1Keyed with
  | false =>
    rw [hk] at hi
    run [hi]
  | true =>
    rw [hk] at hi
    have hs := fun n => sem_key n x t hk
    run [hi, attr_key _ x hk, hs]
    exact same_step fun _ _ => rfl

theorem block_chain (L : Level) (env : Env) : execBlock L .parsers [] env (keyChain :: keyTail) = exec L .parsers [] env keyChain >>= fun f =>
    match f with
    | .next env => execBlock L .parsers [] env keyTail
    | f => .ok f := block_cons L .parsers [] env _ _ _

theorem sem_get_gs1_key (n : Nat) (s : Str) (k : Option Int) (t : Option GtinType) :
    (level (n + 18)).app (.func parsers.get_gs1_key) (.str s :: lenArg k) (keyKw t) = (lift (getGs1Key s k t)).map .str := by
  rw [app_func, callDef, key_frame, m_ok_bind, key_body]
  have hm : parsers.get_gs1_key.mod = .parsers := rfl
  rw [hm]
  have hc := sem_key_chain n s k (keyKw t)
  have ht := fun x => sem_key_tail n s (lenVal k) t x
  have hz : execBlock (level (n + 17)) .parsers [] (keyEnv s (lenVal k) (keyKw t) .none) keyTail = .error (.err .convert) := by
    unfold keyTail keyEnv parsers.get_gs1_key
    simp only [List.drop_succ_cons, List.drop_zero]
    run [isinstance_none]
  unfold getGs1Key
  cases hg : gs1KeySource s k with
  | none =>
    rw [hg] at hc
    simp only [keyEnv] at hc hz
    run [block_chain, hc, hz]
  | some r =>
    rw [hg] at hc
    simp only [keyEnv] at hc ht
    run [block_chain, hc]
    refine same_step fun x _ => ?_
    run [ht]
    refine same_step fun y _ => ?_
    run []
    exact same_step fun _ _ => rfl

end Epc.Src
