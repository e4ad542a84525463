/-
C41: `get_gs1_key` of an id pattern is the key of its members.

A pattern with a wildcard serial is `urn:epc:idpat:<scheme>:<C>.<I>.*`; its members are the accepted URIs `urn:epc:id:<scheme>:<C>.<I>.<S>`.
Generated by tools/gen_c41.py.
-/
import Verif.Lemmas.KeySource
import Verif.Props.C33
import Verif.Props.C42
import Verif.Props.C45

namespace Epc
open Spec Re

/-- Nothing but the pattern branch of `get_gs1_key` applies to a string that starts like a pattern. -/
theorem source_idpat (B : Str) (n : Option Int) : gs1KeySource (py "urn:epc:idpat:" ++ B) n =
    if Rx.idpatUri.fullmatch (py "urn:epc:idpat:" ++ B) = true then some (idpatToGs1KeyedScheme (py "urn:epc:idpat:" ++ B)) else Option.none := by
  have h0 : Rx.epcUri.fullmatch (py "urn:epc:idpat:" ++ B) = false := nomatch_prefix (by decide +kernel) _
  have h1 : Rx.gs1Elem.fullmatch (py "urn:epc:idpat:" ++ B) = false := nomatch_prefix (by decide +kernel) _
  have h2 : Rx.tagUri.fullmatch (py "urn:epc:idpat:" ++ B) = false := nomatch_prefix (by decide +kernel) _
  have h3 : binaryHeaderTable.lookup ((py "urn:epc:idpat:" ++ B).take 8) = Option.none := by
    rw [List.take_append_of_le_length (by decide)]
    decide +kernel
  have h4 : hexHeaders.contains (((py "urn:epc:idpat:" ++ B).take 2).map upperChar) = false := by
    rw [List.take_append_of_le_length (by decide)]
    decide +kernel
  unfold gs1KeySource
  rw [if_neg (by rw [h0]; decide), if_neg (by rw [h1]; simp), if_neg (by rw [h2]; decide), h3,
    if_neg (show ¬ (Option.none : Option Cls).isSome = true by decide),
    if_neg (show ¬ hexHeaders.contains (((py "urn:epc:idpat:" ++ B).take 2).map upperChar) = true by rw [h4]; decide)]

/-- The URI made from a pattern. -/
theorem replace_idpat (B : Str) : replaceFirst (py "idpat") (py "id") (py "urn:epc:idpat:" ++ B) = py "urn:epc:id:" ++ B := by
  simp only [List.cons_append, List.nil_append]
  rw [replaceFirst, if_neg (by simp [List.isPrefixOf]), replaceFirst, if_neg (by simp [List.isPrefixOf]),
    replaceFirst, if_neg (by simp [List.isPrefixOf]), replaceFirst, if_neg (by simp [List.isPrefixOf]),
    replaceFirst, if_neg (by simp [List.isPrefixOf]), replaceFirst, if_neg (by simp [List.isPrefixOf]),
    replaceFirst, if_neg (by simp [List.isPrefixOf]), replaceFirst, if_neg (by simp [List.isPrefixOf]),
    replaceFirst, if_pos (by simp [List.isPrefixOf])]
  rfl

theorem subFinalStar_star (A : Str) : subFinalStar (A ++ py ".*") = A ++ py ".0" := by
  unfold subFinalStar
  have : (A ++ py ".*").reverse = '*' :: '.' :: A.reverse := by simp
  rw [this]
  simp

/-- `_idpat_to_gs1_keyed_scheme` on `urn:epc:idpat:<name>:<b>`. -/
theorem idpat_scheme {c : Cls} (hk : c.isGs1Keyed = true) (b : Str) :
    idpatToGs1KeyedScheme (py "urn:epc:idpat:" ++ (c.name ++ ':' :: b)) =
      let uri := py "urn:epc:id:" ++ (c.name ++ ':' :: b)
      if Rx.epcUri.fullmatch uri = true then c.new uri
      else if (!oneEscapeAllowed.contains c.name) = true then .error .convert
      else if Rx.epcUri.fullmatch (subFinalStar uri) = true then c.new (subFinalStar uri) else .error .convert := by
  have hn : ':' ∉ c.name := by cases c <;> decide
  have hs : split ':' (py "urn:epc:idpat:" ++ (c.name ++ ':' :: b)) = [py "urn", py "epc", py "idpat", c.name] ++ split ':' b :=
    split_urn (py "idpat") c.name b (by decide) hn
  unfold idpatToGs1KeyedScheme
  rw [hs]
  have hg : getPart ([py "urn", py "epc", py "idpat", c.name] ++ split ':' b) 3 = .ok c.name := rfl
  rw [hg, ok_bind, clsByName_some.2 ⟨hk, rfl⟩]
  dsimp only
  rw [replace_idpat]

theorem getGs1Key_idpat {c : Cls} (hk : c.isGs1Keyed = true) {b : Str} {x : Scheme} (hx : c.new (py "urn:epc:id:" ++ (c.name ++ ':' :: b)) = .ok x)
    (hm : Rx.idpatUri.fullmatch (py "urn:epc:idpat:" ++ (c.name ++ ':' :: b)) = true) (n : Option Int) (ty : Option GtinType) :
    getGs1Key (py "urn:epc:idpat:" ++ (c.name ++ ':' :: b)) n ty = x.gs1Key ty := by
  obtain ⟨hc, -, hr, -⟩ := Cls.new_facts hx
  have h : gs1KeySource (py "urn:epc:idpat:" ++ (c.name ++ ':' :: b)) n = some (.ok x) := by
    rw [source_idpat, if_pos hm, idpat_scheme hk]
    dsimp only
    rw [if_pos (epcUri_of_cls c hr), hx]
  rw [key_of_source h, hc, if_pos hk]

/-- If neither the URI nor its variant with a dummy serial is accepted, the pattern is refused. -/
theorem getGs1Key_idpat_none {c : Cls} (hk : c.isGs1Keyed = true) {b : Str} (h1 : c.new (py "urn:epc:id:" ++ (c.name ++ ':' :: b)) = .error .convert)
    (h2 : oneEscapeAllowed.contains c.name = true → c.new (subFinalStar (py "urn:epc:id:" ++ (c.name ++ ':' :: b))) = .error .convert)
    (n : Option Int) (ty : Option GtinType) : getGs1Key (py "urn:epc:idpat:" ++ (c.name ++ ':' :: b)) n ty = .error .convert := by
  cases hm : Rx.idpatUri.fullmatch (py "urn:epc:idpat:" ++ (c.name ++ ':' :: b)) with
  | false => exact key_of_no_source (by rw [source_idpat, hm, if_neg (by decide)]) ty
  | true =>
    refine key_of_source_error ?_ ty
    rw [source_idpat, hm, if_pos rfl, idpat_scheme hk]
    dsimp only
    split
    · rw [h1]
    · split
      · rfl
      · rename_i ho
        split
        · rw [h2 (by simpa using ho)]
        · rfl

theorem lang_idpat3 {a b c : Re} {x y z : Str} (hx : Lang a x) (hy : Lang b y) (hz : Lang c z) : Lang (Rx.idpat3 a b c) (x ++ '.' :: (y ++ '.' :: z)) := by
  rw [Rx.idpat3, lang_alts]
  exact ⟨_, .head _, (lang_dotted3 ..).2 ⟨x, y, z, rfl, hx, hy, hz⟩⟩

theorem lang_idpat2 {a b : Re} {x y : Str} (hx : Lang a x) (hy : Lang b y) : Lang (Rx.idpat2 a b) (x ++ '.' :: y) := by
  rw [Rx.idpat2, lang_alts]
  exact ⟨_, .head _, (lang_dotted2 ..).2 ⟨x, y, rfl, hx, hy⟩⟩

theorem idpat_match {n : Str} {r : Re} {b : Str} (hr : Lang r b) (hm : ∀ s, Lang (.seq (lit (n ++ [':'])) r) s → Lang Rx.idpatBody s) :
    Rx.idpatUri.fullmatch (py "urn:epc:idpat:" ++ (n ++ ':' :: b)) = true := by
  rw [fullmatch_iff, Rx.idpatUri, lang_lit_seq]
  refine ⟨_, rfl, hm _ ?_⟩
  rw [lang_lit_seq]
  exact ⟨b, by simp, hr⟩

theorem lang_star : Lang Rx.gs3a3 (py "*") := by
  rw [← fullmatch_iff]
  decide +kernel

theorem not_dec_star : ¬ Dec (py "*") := by
  intro h
  have := h '*' List.mem_cons_self
  exact absurd this (by decide)

/-- The pattern with a wildcard serial made from a member is read like the URI with the serial `*`. -/
theorem sgtin_wildcard {C I S : Str} {x : SGTIN} (hC : '.' ∉ C) (hI : '.' ∉ I)
    (hu : SGTIN.new (py "urn:epc:id:sgtin:" ++ C ++ '.' :: (I ++ '.' :: S)) = .ok x) :
    ∃ y, SGTIN.new (py "urn:epc:id:sgtin" ++ ':' :: (C ++ '.' :: (I ++ '.' :: py "*"))) = .ok y ∧ x.companyPref = C ∧ y.companyPref = C ∧
      x.itemRef = I ∧ y.itemRef = I ∧
      ∀ n ty, getGs1Key (py "urn:epc:idpat:sgtin:" ++ C ++ '.' :: (I ++ py ".*")) n ty = (Scheme.sgtin y).gs1Key ty := by
  obtain ⟨C', I', S', ⟨hC', hI', hS'⟩, hl, e, rfl⟩ := SGTIN.new_iff.1 hu
  have e' : py "urn:epc:id:sgtin" ++ ':' :: (C ++ '.' :: (I ++ '.' :: S)) = py "urn:epc:id:sgtin" ++ ':' :: (C' ++ '.' :: (I' ++ '.' :: S')) := by
    rw [← e]; simp
  obtain ⟨rfl, rfl, rfl⟩ := uri3_inj hC hI hC'.2.no_dot hI'.2.no_dot e'
  refine ⟨_, SGTIN.new_iff.2 ⟨C, I, py "*", ⟨hC', hI', lang_star⟩, ?_, rfl, rfl⟩, rfl, rfl, rfl, rfl, ?_⟩
  · have hv : verifyGs3a3 (py "*") = .ok () := by decide +kernel
    have hr : replaceUriEscapes (py "*") = py "*" := by decide +kernel
    simp only [hv, hr, true_and] at hl ⊢
    simp
    omega
  · intro n ty
    have hnew := SGTIN.new_iff.2 ⟨C, I, py "*", ⟨hC', hI', lang_star⟩, ?_, rfl, rfl⟩
    · have hk := getGs1Key_idpat (c := .sgtin) rfl (b := C ++ '.' :: (I ++ '.' :: py "*")) (x := .sgtin _) (by
          show (SGTIN.new _).map Scheme.sgtin = _
          rw [show py "urn:epc:id:" ++ (Cls.name .sgtin ++ ':' :: (C ++ '.' :: (I ++ '.' :: py "*"))) =
            py "urn:epc:id:sgtin" ++ ':' :: (C ++ '.' :: (I ++ '.' :: py "*")) from rfl, hnew]
          rfl) (idpat_match (lang_idpat3 ((lang_padded _).2 hC') ((lang_padded _).2 hI') lang_star) (by
            intro s hs
            rw [Rx.idpatBody, lang_alts]
            exact ⟨_, by simp [Cls.name], hs⟩)) n ty
      rw [← hk]
      congr 1
    · have hv : verifyGs3a3 (py "*") = .ok () := by decide +kernel
      have hr : replaceUriEscapes (py "*") = py "*" := by decide +kernel
      simp only [hv, hr, true_and] at hl ⊢
      simp
      omega

/-- The pattern with a wildcard serial made from a member is read like the URI with the serial `*`. -/
theorem sgln_wildcard {C I S : Str} {x : SGLN} (hC : '.' ∉ C) (hI : '.' ∉ I)
    (hu : SGLN.new (py "urn:epc:id:sgln:" ++ C ++ '.' :: (I ++ '.' :: S)) = .ok x) :
    ∃ y, SGLN.new (py "urn:epc:id:sgln" ++ ':' :: (C ++ '.' :: (I ++ '.' :: py "*"))) = .ok y ∧ x.companyPref = C ∧ y.companyPref = C ∧
      x.locationRef = I ∧ y.locationRef = I ∧
      ∀ n ty, getGs1Key (py "urn:epc:idpat:sgln:" ++ C ++ '.' :: (I ++ py ".*")) n ty = (Scheme.sgln y).gs1Key ty := by
  obtain ⟨C', I', S', ⟨hC', hI', hS'⟩, hl, e, rfl⟩ := SGLN.new_iff.1 hu
  have e' : py "urn:epc:id:sgln" ++ ':' :: (C ++ '.' :: (I ++ '.' :: S)) = py "urn:epc:id:sgln" ++ ':' :: (C' ++ '.' :: (I' ++ '.' :: S')) := by
    rw [← e]; simp
  obtain ⟨rfl, rfl, rfl⟩ := uri3_inj hC hI hC'.2.no_dot hI'.no_dot e'
  refine ⟨_, SGLN.new_iff.2 ⟨C, I, py "*", ⟨hC', hI', lang_star⟩, ?_, rfl, rfl⟩, rfl, rfl, rfl, rfl, ?_⟩
  · have hv : verifyGs3a3 (py "*") = .ok () := by decide +kernel
    have hr : replaceUriEscapes (py "*") = py "*" := by decide +kernel
    simp only [hv, hr, true_and] at hl ⊢
    simp
    omega
  · intro n ty
    have hnew := SGLN.new_iff.2 ⟨C, I, py "*", ⟨hC', hI', lang_star⟩, ?_, rfl, rfl⟩
    · have hk := getGs1Key_idpat (c := .sgln) rfl (b := C ++ '.' :: (I ++ '.' :: py "*")) (x := .sgln _) (by
          show (SGLN.new _).map Scheme.sgln = _
          rw [show py "urn:epc:id:" ++ (Cls.name .sgln ++ ':' :: (C ++ '.' :: (I ++ '.' :: py "*"))) =
            py "urn:epc:id:sgln" ++ ':' :: (C ++ '.' :: (I ++ '.' :: py "*")) from rfl, hnew]
          rfl) (idpat_match (lang_idpat3 ((lang_padded _).2 hC') ((lang_paddedOrEmpty _).2 hI') lang_star) (by
            intro s hs
            rw [Rx.idpatBody, lang_alts]
            exact ⟨_, by simp [Cls.name], hs⟩)) n ty
      rw [← hk]
      congr 1
    · have hv : verifyGs3a3 (py "*") = .ok () := by decide +kernel
      have hr : replaceUriEscapes (py "*") = py "*" := by decide +kernel
      simp only [hv, hr, true_and] at hl ⊢
      simp
      omega

/-- The pattern with a wildcard serial made from a member is read like the URI with the serial `*`. -/
theorem grai_wildcard {C I S : Str} {x : GRAI} (hC : '.' ∉ C) (hI : '.' ∉ I)
    (hu : GRAI.new (py "urn:epc:id:grai:" ++ C ++ '.' :: (I ++ '.' :: S)) = .ok x) :
    ∃ y, GRAI.new (py "urn:epc:id:grai" ++ ':' :: (C ++ '.' :: (I ++ '.' :: py "*"))) = .ok y ∧ x.companyPref = C ∧ y.companyPref = C ∧
      x.assetType = I ∧ y.assetType = I ∧
      ∀ n ty, getGs1Key (py "urn:epc:idpat:grai:" ++ C ++ '.' :: (I ++ py ".*")) n ty = (Scheme.grai y).gs1Key ty := by
  obtain ⟨C', I', S', ⟨hC', hI', hS'⟩, hl, e, rfl⟩ := GRAI.new_iff.1 hu
  have e' : py "urn:epc:id:grai" ++ ':' :: (C ++ '.' :: (I ++ '.' :: S)) = py "urn:epc:id:grai" ++ ':' :: (C' ++ '.' :: (I' ++ '.' :: S')) := by
    rw [← e]; simp
  obtain ⟨rfl, rfl, rfl⟩ := uri3_inj hC hI hC'.2.no_dot hI'.no_dot e'
  refine ⟨_, GRAI.new_iff.2 ⟨C, I, py "*", ⟨hC', hI', lang_star⟩, ?_, rfl, rfl⟩, rfl, rfl, rfl, rfl, ?_⟩
  · have hv : verifyGs3a3 (py "*") = .ok () := by decide +kernel
    simp only [hv, true_and] at hl ⊢
    simp
    omega
  · intro n ty
    have hnew := GRAI.new_iff.2 ⟨C, I, py "*", ⟨hC', hI', lang_star⟩, ?_, rfl, rfl⟩
    · have hk := getGs1Key_idpat (c := .grai) rfl (b := C ++ '.' :: (I ++ '.' :: py "*")) (x := .grai _) (by
          show (GRAI.new _).map Scheme.grai = _
          rw [show py "urn:epc:id:" ++ (Cls.name .grai ++ ':' :: (C ++ '.' :: (I ++ '.' :: py "*"))) =
            py "urn:epc:id:grai" ++ ':' :: (C ++ '.' :: (I ++ '.' :: py "*")) from rfl, hnew]
          rfl) (idpat_match (lang_idpat3 ((lang_padded _).2 hC') ((lang_paddedOrEmpty _).2 hI') lang_star) (by
            intro s hs
            rw [Rx.idpatBody, lang_alts]
            exact ⟨_, by simp [Cls.name], hs⟩)) n ty
      rw [← hk]
      congr 1
    · have hv : verifyGs3a3 (py "*") = .ok () := by decide +kernel
      simp only [hv, true_and] at hl ⊢
      simp
      omega

/-- The pattern with a wildcard serial made from a member is read like the URI with the serial `*`. -/
theorem gdti_wildcard {C I S : Str} {x : GDTI} (hC : '.' ∉ C) (hI : '.' ∉ I)
    (hu : GDTI.new (py "urn:epc:id:gdti:" ++ C ++ '.' :: (I ++ '.' :: S)) = .ok x) :
    ∃ y, GDTI.new (py "urn:epc:id:gdti" ++ ':' :: (C ++ '.' :: (I ++ '.' :: py "*"))) = .ok y ∧ x.companyPref = C ∧ y.companyPref = C ∧
      x.docType = I ∧ y.docType = I ∧
      ∀ n ty, getGs1Key (py "urn:epc:idpat:gdti:" ++ C ++ '.' :: (I ++ py ".*")) n ty = (Scheme.gdti y).gs1Key ty := by
  obtain ⟨C', I', S', ⟨hC', hI', hS'⟩, hl, e, rfl⟩ := GDTI.new_iff.1 hu
  have e' : py "urn:epc:id:gdti" ++ ':' :: (C ++ '.' :: (I ++ '.' :: S)) = py "urn:epc:id:gdti" ++ ':' :: (C' ++ '.' :: (I' ++ '.' :: S')) := by
    rw [← e]; simp
  obtain ⟨rfl, rfl, rfl⟩ := uri3_inj hC hI hC'.2.no_dot hI'.no_dot e'
  refine ⟨_, GDTI.new_iff.2 ⟨C, I, py "*", ⟨hC', hI', lang_star⟩, ?_, rfl, rfl⟩, rfl, rfl, rfl, rfl, ?_⟩
  · have hv : verifyGs3a3 (py "*") = .ok () := by decide +kernel
    simp only [hv, true_and] at hl ⊢
    simp
    omega
  · intro n ty
    have hnew := GDTI.new_iff.2 ⟨C, I, py "*", ⟨hC', hI', lang_star⟩, ?_, rfl, rfl⟩
    · have hk := getGs1Key_idpat (c := .gdti) rfl (b := C ++ '.' :: (I ++ '.' :: py "*")) (x := .gdti _) (by
          show (GDTI.new _).map Scheme.gdti = _
          rw [show py "urn:epc:id:" ++ (Cls.name .gdti ++ ':' :: (C ++ '.' :: (I ++ '.' :: py "*"))) =
            py "urn:epc:id:gdti" ++ ':' :: (C ++ '.' :: (I ++ '.' :: py "*")) from rfl, hnew]
          rfl) (idpat_match (lang_idpat3 ((lang_padded _).2 hC') ((lang_paddedOrEmpty _).2 hI') lang_star) (by
            intro s hs
            rw [Rx.idpatBody, lang_alts]
            exact ⟨_, by simp [Cls.name], hs⟩)) n ty
      rw [← hk]
      congr 1
    · have hv : verifyGs3a3 (py "*") = .ok () := by decide +kernel
      simp only [hv, true_and] at hl ⊢
      simp
      omega

/-- SGTIN: the key of a pattern with a wildcard serial is the key of each of its members. -/
theorem C41_sgtin (C I S : Str) (x : SGTIN) (n n' : Option Int) (ty : Option GtinType) (hC : '.' ∉ C) (hI : '.' ∉ I)
    (hu : SGTIN.new (py "urn:epc:id:sgtin:" ++ C ++ '.' :: (I ++ '.' :: S)) = .ok x) :
    getGs1Key (py "urn:epc:idpat:sgtin:" ++ C ++ '.' :: (I ++ py ".*")) n ty =
      getGs1Key (py "urn:epc:id:sgtin:" ++ C ++ '.' :: (I ++ '.' :: S)) n' ty := by
  obtain ⟨y, hy, e1, e2, e3, e4, hk⟩ := sgtin_wildcard hC hI hu
  have hc : Cls.new .sgtin (py "urn:epc:id:sgtin:" ++ C ++ '.' :: (I ++ '.' :: S)) = .ok (.sgtin x) := by
    show (SGTIN.new _).map Scheme.sgtin = _
    rw [hu]; rfl
  rw [hk, getGs1Key_uri hc, if_pos (by rfl)]
  cases ty with
  | none => exact (C45_sgtin _ _ _ _ hu hy (e1.trans e2.symm) (e3.trans e4.symm) .gtin14).symm
  | some t => exact (C45_sgtin _ _ _ _ hu hy (e1.trans e2.symm) (e3.trans e4.symm) t).symm

example : getGs1Key (py "urn:epc:idpat:sgtin:0614141.812345.*") = .ok (py "80614141123458") ∧
    (SGTIN.new (py "urn:epc:id:sgtin:0614141.812345.6789")).isOk = true := by decide +kernel

/-- SGLN: the key of a pattern with a wildcard serial is the key of each of its members. -/
theorem C41_sgln (C I S : Str) (x : SGLN) (n n' : Option Int) (ty : Option GtinType) (hC : '.' ∉ C) (hI : '.' ∉ I)
    (hu : SGLN.new (py "urn:epc:id:sgln:" ++ C ++ '.' :: (I ++ '.' :: S)) = .ok x) :
    getGs1Key (py "urn:epc:idpat:sgln:" ++ C ++ '.' :: (I ++ py ".*")) n ty =
      getGs1Key (py "urn:epc:id:sgln:" ++ C ++ '.' :: (I ++ '.' :: S)) n' ty := by
  obtain ⟨y, hy, e1, e2, e3, e4, hk⟩ := sgln_wildcard hC hI hu
  have hc : Cls.new .sgln (py "urn:epc:id:sgln:" ++ C ++ '.' :: (I ++ '.' :: S)) = .ok (.sgln x) := by
    show (SGLN.new _).map Scheme.sgln = _
    rw [hu]; rfl
  rw [hk, getGs1Key_uri hc, if_pos (by rfl)]
  have h := C45_sgln _ _ _ _ hu hy (e1.trans e2.symm) (e3.trans e4.symm)
  show Scheme.noKwargs _ ty = Scheme.noKwargs _ ty
  rw [h]

example : getGs1Key (py "urn:epc:idpat:sgln:0614141.12345.*") = .ok (py "0614141123452") ∧
    (SGLN.new (py "urn:epc:id:sgln:0614141.12345.400")).isOk = true := by decide +kernel

/-- The claim for GRAI. -/
def C41_grai_claim : Prop := ∀ (C I S : Str) (x : GRAI), '.' ∉ C → '.' ∉ I → GRAI.new (py "urn:epc:id:grai:" ++ C ++ '.' :: (I ++ '.' :: S)) = .ok x →
    getGs1Key (py "urn:epc:idpat:grai:" ++ C ++ '.' :: (I ++ py ".*")) =
      getGs1Key (py "urn:epc:id:grai:" ++ C ++ '.' :: (I ++ '.' :: S))

/-- It is false: the key of a GRAI contains the serial, and the key of the pattern contains `*`. -/
theorem C41_grai_claim_false : ¬ C41_grai_claim := by
  intro h
  have h1 : ∃ x, GRAI.new (py "urn:epc:id:grai:0614141.12345.400") = .ok x := by
    have : (GRAI.new (py "urn:epc:id:grai:0614141.12345.400")).isOk = true := by decide +kernel
    cases e : GRAI.new (py "urn:epc:id:grai:0614141.12345.400") with
    | ok x => exact ⟨x, rfl⟩
    | error e' => rw [e] at this; cases this
  obtain ⟨x, hx⟩ := h1
  have h2 := h (py "0614141") (py "12345") (py "400") x (by decide) (by decide) hx
  exact absurd h2 (by decide +kernel)

/-- GRAI: the key of a pattern is the thirteen digits of the keys of all its members, followed by `*`.
Missing: a member's key has its serial in place of the `*`. -/
theorem C41_grai_partial (C I S : Str) (x : GRAI) (n n' : Option Int) (hC : '.' ∉ C) (hI : '.' ∉ I)
    (hu : GRAI.new (py "urn:epc:id:grai:" ++ C ++ '.' :: (I ++ '.' :: S)) = .ok x) :
    ∃ k rest, KeyOf 13 (C ++ I) k ∧ getGs1Key (py "urn:epc:idpat:grai:" ++ C ++ '.' :: (I ++ py ".*")) n Option.none = .ok (k ++ py "*") ∧
      getGs1Key (py "urn:epc:id:grai:" ++ C ++ '.' :: (I ++ '.' :: S)) n' Option.none = .ok (k ++ rest) ∧
      ∀ raw, S = escape raw → rest = raw := by
  obtain ⟨y, hy, e1, e2, e3, e4, hk⟩ := grai_wildcard hC hI hu
  have hc : Cls.new .grai (py "urn:epc:id:grai:" ++ C ++ '.' :: (I ++ '.' :: S)) = .ok (.grai x) := by
    show (GRAI.new _).map Scheme.grai = _
    rw [hu]; rfl
  obtain ⟨k, rest, hx, hK, hr⟩ := C33_grai _ x hu
  obtain ⟨k', rest', hx', hK', hr'⟩ := C33_grai _ y hy
  obtain ⟨C', I', S', ⟨hC', hI', hS'⟩, hl, e, rfl⟩ := GRAI.new_iff.1 hu
  obtain ⟨C2, I2, S2, ⟨hC2, hI2, hS2⟩, hl2, e22, rfl⟩ := GRAI.new_iff.1 hy
  dsimp only at e1 e2 e3 e4 hx hx' hr hr' hK hK'
  subst e1 e3 e2 e4
  have e' : py "urn:epc:id:grai" ++ ':' :: (C2 ++ '.' :: (I2 ++ '.' :: S)) = py "urn:epc:id:grai" ++ ':' :: (C2 ++ '.' :: (I2 ++ '.' :: S')) := by
    rw [← e]; simp
  obtain ⟨-, -, rfl⟩ := uri3_inj hC hI hC hI e'
  obtain ⟨-, -, hS2⟩ := uri3_inj hC hI hC hI e22
  subst hS2
  have hkk : k' = k := by
    have a1 := congrArg (List.take 13) hx
    have a2 := congrArg (List.take 13) hx'
    rw [List.take_append_of_le_length (by rw [hK.2.1]; omega), List.take_of_length_le (l := k) (by rw [hK.2.1]; omega)] at a1
    rw [List.take_append_of_le_length (by rw [hK'.2.1]; omega), List.take_of_length_le (l := k') (by rw [hK'.2.1]; omega)] at a2
    rw [← a1, ← a2]
    show (C2 ++ I2 ++ natStr (uCheck (C2 ++ I2)) ++ replaceUriEscapes (py "*")).take 13 = (C2 ++ I2 ++ natStr (uCheck (C2 ++ I2)) ++ replaceUriEscapes S).take 13
    have hlen : (C2 ++ I2 ++ natStr (uCheck (C2 ++ I2))).length = 13 := by
      simp only [List.length_append, length_natStr_uCheck]
      have := hl.1
      omega
    rw [List.take_left' hlen, List.take_left' hlen]
  subst hkk
  have hrest : rest' = py "*" := hr' (py "*") (by decide +kernel)
  subst hrest
  refine ⟨k', rest, hK, ?_, ?_, hr⟩
  · rw [hk]; exact congrArg Except.ok hx'
  · rw [getGs1Key_uri hc, if_pos (by rfl)]; exact congrArg Except.ok hx

example : getGs1Key (py "urn:epc:idpat:grai:0614141.12345.*") = .ok (py "0614141123452*") ∧
    getGs1Key (py "urn:epc:id:grai:0614141.12345.400") = .ok (py "0614141123452400") := by decide +kernel

/-- The claim for GDTI. -/
def C41_gdti_claim : Prop := ∀ (C I S : Str) (x : GDTI), '.' ∉ C → '.' ∉ I → GDTI.new (py "urn:epc:id:gdti:" ++ C ++ '.' :: (I ++ '.' :: S)) = .ok x →
    getGs1Key (py "urn:epc:idpat:gdti:" ++ C ++ '.' :: (I ++ py ".*")) =
      getGs1Key (py "urn:epc:id:gdti:" ++ C ++ '.' :: (I ++ '.' :: S))

/-- It is false: the key of a GDTI contains the serial, and the key of the pattern contains `*`. -/
theorem C41_gdti_claim_false : ¬ C41_gdti_claim := by
  intro h
  have h1 : ∃ x, GDTI.new (py "urn:epc:id:gdti:0614141.12345.400") = .ok x := by
    have : (GDTI.new (py "urn:epc:id:gdti:0614141.12345.400")).isOk = true := by decide +kernel
    cases e : GDTI.new (py "urn:epc:id:gdti:0614141.12345.400") with
    | ok x => exact ⟨x, rfl⟩
    | error e' => rw [e] at this; cases this
  obtain ⟨x, hx⟩ := h1
  have h2 := h (py "0614141") (py "12345") (py "400") x (by decide) (by decide) hx
  exact absurd h2 (by decide +kernel)

/-- GDTI: the key of a pattern is the thirteen digits of the keys of all its members, followed by `*`.
Missing: a member's key has its serial in place of the `*`. -/
theorem C41_gdti_partial (C I S : Str) (x : GDTI) (n n' : Option Int) (hC : '.' ∉ C) (hI : '.' ∉ I)
    (hu : GDTI.new (py "urn:epc:id:gdti:" ++ C ++ '.' :: (I ++ '.' :: S)) = .ok x) :
    ∃ k rest, KeyOf 13 (C ++ I) k ∧ getGs1Key (py "urn:epc:idpat:gdti:" ++ C ++ '.' :: (I ++ py ".*")) n Option.none = .ok (k ++ py "*") ∧
      getGs1Key (py "urn:epc:id:gdti:" ++ C ++ '.' :: (I ++ '.' :: S)) n' Option.none = .ok (k ++ rest) ∧
      ∀ raw, S = escape raw → rest = raw := by
  obtain ⟨y, hy, e1, e2, e3, e4, hk⟩ := gdti_wildcard hC hI hu
  have hc : Cls.new .gdti (py "urn:epc:id:gdti:" ++ C ++ '.' :: (I ++ '.' :: S)) = .ok (.gdti x) := by
    show (GDTI.new _).map Scheme.gdti = _
    rw [hu]; rfl
  obtain ⟨k, rest, hx, hK, hr⟩ := C33_gdti _ x hu
  obtain ⟨k', rest', hx', hK', hr'⟩ := C33_gdti _ y hy
  obtain ⟨C', I', S', ⟨hC', hI', hS'⟩, hl, e, rfl⟩ := GDTI.new_iff.1 hu
  obtain ⟨C2, I2, S2, ⟨hC2, hI2, hS2⟩, hl2, e22, rfl⟩ := GDTI.new_iff.1 hy
  dsimp only at e1 e2 e3 e4 hx hx' hr hr' hK hK'
  subst e1 e3 e2 e4
  have e' : py "urn:epc:id:gdti" ++ ':' :: (C2 ++ '.' :: (I2 ++ '.' :: S)) = py "urn:epc:id:gdti" ++ ':' :: (C2 ++ '.' :: (I2 ++ '.' :: S')) := by
    rw [← e]; simp
  obtain ⟨-, -, rfl⟩ := uri3_inj hC hI hC hI e'
  obtain ⟨-, -, hS2⟩ := uri3_inj hC hI hC hI e22
  subst hS2
  have hkk : k' = k := by
    have a1 := congrArg (List.take 13) hx
    have a2 := congrArg (List.take 13) hx'
    rw [List.take_append_of_le_length (by rw [hK.2.1]; omega), List.take_of_length_le (l := k) (by rw [hK.2.1]; omega)] at a1
    rw [List.take_append_of_le_length (by rw [hK'.2.1]; omega), List.take_of_length_le (l := k') (by rw [hK'.2.1]; omega)] at a2
    rw [← a1, ← a2]
    show (C2 ++ I2 ++ natStr (uCheck (C2 ++ I2)) ++ replaceUriEscapes (py "*")).take 13 = (C2 ++ I2 ++ natStr (uCheck (C2 ++ I2)) ++ replaceUriEscapes S).take 13
    have hlen : (C2 ++ I2 ++ natStr (uCheck (C2 ++ I2))).length = 13 := by
      simp only [List.length_append, length_natStr_uCheck]
      have := hl.1
      omega
    rw [List.take_left' hlen, List.take_left' hlen]
  subst hkk
  have hrest : rest' = py "*" := hr' (py "*") (by decide +kernel)
  subst hrest
  refine ⟨k', rest, hK, ?_, ?_, hr⟩
  · rw [hk]; exact congrArg Except.ok hx'
  · rw [getGs1Key_uri hc, if_pos (by rfl)]; exact congrArg Except.ok hx

example : getGs1Key (py "urn:epc:idpat:gdti:0614141.12345.*") = .ok (py "0614141123452*") ∧
    getGs1Key (py "urn:epc:id:gdti:0614141.12345.400") = .ok (py "0614141123452400") := by decide +kernel

theorem sgtin_two_wildcards (A s : Str) (hA : '.' ∉ A) : SGTIN.new (py "urn:epc:id:sgtin" ++ ':' :: (A ++ '.' :: (py "*" ++ '.' :: s))) = .error .convert := by
  apply SGTIN.new_nomatch
  cases hm : Rx.sgtinUri.fullmatch (py "urn:epc:id:sgtin" ++ ':' :: (A ++ '.' :: (py "*" ++ '.' :: s))) with
  | false => rfl
  | true =>
    obtain ⟨C, I, S, hC, hI, -, e⟩ := SGTIN.shape.1 hm
    obtain ⟨-, e2, -⟩ := uri3_inj hA (by decide) hC.2.no_dot hI.2.no_dot e
    exact absurd (e2 ▸ hI.2) not_dec_star

/-- SGTIN: a pattern with two or three wildcards (`A` may itself be `*`) is refused. -/
theorem C41_sgtin_two_wildcards (A : Str) (n : Option Int) (ty : Option GtinType) (hA : '.' ∉ A) :
    getGs1Key (py "urn:epc:idpat:sgtin:" ++ A ++ py ".*.*") n ty = .error .convert := by
  have h := getGs1Key_idpat_none (c := .sgtin) rfl (b := A ++ py ".*.*") (by
      show (SGTIN.new _).map Scheme.sgtin = _
      rw [show py "urn:epc:id:" ++ (Cls.name .sgtin ++ ':' :: (A ++ py ".*.*")) = py "urn:epc:id:sgtin" ++ ':' :: (A ++ '.' :: (py "*" ++ '.' :: py "*")) from rfl,
        sgtin_two_wildcards A _ hA]
      rfl) (fun _ => by
      rw [show py "urn:epc:id:" ++ (Cls.name .sgtin ++ ':' :: (A ++ py ".*.*")) = (py "urn:epc:id:sgtin:" ++ A ++ py ".*") ++ py ".*" by simp [Cls.name],
        subFinalStar_star]
      show (SGTIN.new _).map Scheme.sgtin = _
      rw [show (py "urn:epc:id:sgtin:" ++ A ++ py ".*") ++ py ".0" = py "urn:epc:id:sgtin" ++ ':' :: (A ++ '.' :: (py "*" ++ '.' :: py "0")) by simp,
        sgtin_two_wildcards A _ hA]
      rfl) n ty
  rw [← h]
  congr 1

example : getGs1Key (py "urn:epc:idpat:sgtin:0614141.*.*") = .error .convert ∧ Rx.idpatUri.fullmatch (py "urn:epc:idpat:sgtin:0614141.*.*") = true := by
  decide +kernel

theorem sgln_two_wildcards (A s : Str) (hA : '.' ∉ A) : SGLN.new (py "urn:epc:id:sgln" ++ ':' :: (A ++ '.' :: (py "*" ++ '.' :: s))) = .error .convert := by
  apply SGLN.new_nomatch
  cases hm : Rx.sglnUri.fullmatch (py "urn:epc:id:sgln" ++ ':' :: (A ++ '.' :: (py "*" ++ '.' :: s))) with
  | false => rfl
  | true =>
    obtain ⟨C, I, S, hC, hI, -, e⟩ := SGLN.shape.1 hm
    obtain ⟨-, e2, -⟩ := uri3_inj hA (by decide) hC.2.no_dot hI.no_dot e
    exact absurd (e2 ▸ hI) not_dec_star

/-- SGLN: a pattern with two or three wildcards (`A` may itself be `*`) is refused. -/
theorem C41_sgln_two_wildcards (A : Str) (n : Option Int) (ty : Option GtinType) (hA : '.' ∉ A) :
    getGs1Key (py "urn:epc:idpat:sgln:" ++ A ++ py ".*.*") n ty = .error .convert := by
  have h := getGs1Key_idpat_none (c := .sgln) rfl (b := A ++ py ".*.*") (by
      show (SGLN.new _).map Scheme.sgln = _
      rw [show py "urn:epc:id:" ++ (Cls.name .sgln ++ ':' :: (A ++ py ".*.*")) = py "urn:epc:id:sgln" ++ ':' :: (A ++ '.' :: (py "*" ++ '.' :: py "*")) from rfl,
        sgln_two_wildcards A _ hA]
      rfl) (fun _ => by
      rw [show py "urn:epc:id:" ++ (Cls.name .sgln ++ ':' :: (A ++ py ".*.*")) = (py "urn:epc:id:sgln:" ++ A ++ py ".*") ++ py ".*" by simp [Cls.name],
        subFinalStar_star]
      show (SGLN.new _).map Scheme.sgln = _
      rw [show (py "urn:epc:id:sgln:" ++ A ++ py ".*") ++ py ".0" = py "urn:epc:id:sgln" ++ ':' :: (A ++ '.' :: (py "*" ++ '.' :: py "0")) by simp,
        sgln_two_wildcards A _ hA]
      rfl) n ty
  rw [← h]
  congr 1

example : getGs1Key (py "urn:epc:idpat:sgln:0614141.*.*") = .error .convert ∧ Rx.idpatUri.fullmatch (py "urn:epc:idpat:sgln:0614141.*.*") = true := by
  decide +kernel

theorem grai_two_wildcards (A s : Str) (hA : '.' ∉ A) : GRAI.new (py "urn:epc:id:grai" ++ ':' :: (A ++ '.' :: (py "*" ++ '.' :: s))) = .error .convert := by
  apply GRAI.new_nomatch
  cases hm : Rx.graiUri.fullmatch (py "urn:epc:id:grai" ++ ':' :: (A ++ '.' :: (py "*" ++ '.' :: s))) with
  | false => rfl
  | true =>
    obtain ⟨C, I, S, hC, hI, -, e⟩ := GRAI.shape.1 hm
    obtain ⟨-, e2, -⟩ := uri3_inj hA (by decide) hC.2.no_dot hI.no_dot e
    exact absurd (e2 ▸ hI) not_dec_star

/-- GRAI: a pattern with two or three wildcards (`A` may itself be `*`) is refused. -/
theorem C41_grai_two_wildcards (A : Str) (n : Option Int) (ty : Option GtinType) (hA : '.' ∉ A) :
    getGs1Key (py "urn:epc:idpat:grai:" ++ A ++ py ".*.*") n ty = .error .convert := by
  have h := getGs1Key_idpat_none (c := .grai) rfl (b := A ++ py ".*.*") (by
      show (GRAI.new _).map Scheme.grai = _
      rw [show py "urn:epc:id:" ++ (Cls.name .grai ++ ':' :: (A ++ py ".*.*")) = py "urn:epc:id:grai" ++ ':' :: (A ++ '.' :: (py "*" ++ '.' :: py "*")) from rfl,
        grai_two_wildcards A _ hA]
      rfl) (fun _ => by
      rw [show py "urn:epc:id:" ++ (Cls.name .grai ++ ':' :: (A ++ py ".*.*")) = (py "urn:epc:id:grai:" ++ A ++ py ".*") ++ py ".*" by simp [Cls.name],
        subFinalStar_star]
      show (GRAI.new _).map Scheme.grai = _
      rw [show (py "urn:epc:id:grai:" ++ A ++ py ".*") ++ py ".0" = py "urn:epc:id:grai" ++ ':' :: (A ++ '.' :: (py "*" ++ '.' :: py "0")) by simp,
        grai_two_wildcards A _ hA]
      rfl) n ty
  rw [← h]
  congr 1

example : getGs1Key (py "urn:epc:idpat:grai:0614141.*.*") = .error .convert ∧ Rx.idpatUri.fullmatch (py "urn:epc:idpat:grai:0614141.*.*") = true := by
  decide +kernel

theorem gdti_two_wildcards (A s : Str) (hA : '.' ∉ A) : GDTI.new (py "urn:epc:id:gdti" ++ ':' :: (A ++ '.' :: (py "*" ++ '.' :: s))) = .error .convert := by
  apply GDTI.new_nomatch
  cases hm : Rx.gdtiUri.fullmatch (py "urn:epc:id:gdti" ++ ':' :: (A ++ '.' :: (py "*" ++ '.' :: s))) with
  | false => rfl
  | true =>
    obtain ⟨C, I, S, hC, hI, -, e⟩ := GDTI.shape.1 hm
    obtain ⟨-, e2, -⟩ := uri3_inj hA (by decide) hC.2.no_dot hI.no_dot e
    exact absurd (e2 ▸ hI) not_dec_star

/-- GDTI: a pattern with two or three wildcards (`A` may itself be `*`) is refused. -/
theorem C41_gdti_two_wildcards (A : Str) (n : Option Int) (ty : Option GtinType) (hA : '.' ∉ A) :
    getGs1Key (py "urn:epc:idpat:gdti:" ++ A ++ py ".*.*") n ty = .error .convert := by
  have h := getGs1Key_idpat_none (c := .gdti) rfl (b := A ++ py ".*.*") (by
      show (GDTI.new _).map Scheme.gdti = _
      rw [show py "urn:epc:id:" ++ (Cls.name .gdti ++ ':' :: (A ++ py ".*.*")) = py "urn:epc:id:gdti" ++ ':' :: (A ++ '.' :: (py "*" ++ '.' :: py "*")) from rfl,
        gdti_two_wildcards A _ hA]
      rfl) (fun _ => by
      rw [show py "urn:epc:id:" ++ (Cls.name .gdti ++ ':' :: (A ++ py ".*.*")) = (py "urn:epc:id:gdti:" ++ A ++ py ".*") ++ py ".*" by simp [Cls.name],
        subFinalStar_star]
      show (GDTI.new _).map Scheme.gdti = _
      rw [show (py "urn:epc:id:gdti:" ++ A ++ py ".*") ++ py ".0" = py "urn:epc:id:gdti" ++ ':' :: (A ++ '.' :: (py "*" ++ '.' :: py "0")) by simp,
        gdti_two_wildcards A _ hA]
      rfl) n ty
  rw [← h]
  congr 1

example : getGs1Key (py "urn:epc:idpat:gdti:0614141.*.*") = .error .convert ∧ Rx.idpatUri.fullmatch (py "urn:epc:idpat:gdti:0614141.*.*") = true := by
  decide +kernel

theorem sgcn_two_wildcards (A s : Str) (hA : '.' ∉ A) : SGCN.new (py "urn:epc:id:sgcn" ++ ':' :: (A ++ '.' :: (py "*" ++ '.' :: s))) = .error .convert := by
  apply SGCN.new_nomatch
  cases hm : Rx.sgcnUri.fullmatch (py "urn:epc:id:sgcn" ++ ':' :: (A ++ '.' :: (py "*" ++ '.' :: s))) with
  | false => rfl
  | true =>
    obtain ⟨C, I, S, hC, hI, -, e⟩ := SGCN.shape.1 hm
    obtain ⟨-, e2, -⟩ := uri3_inj hA (by decide) hC.2.no_dot hI.no_dot e
    exact absurd (e2 ▸ hI) not_dec_star

/-- SGCN: a pattern with two or three wildcards (`A` may itself be `*`) is refused. -/
theorem C41_sgcn_two_wildcards (A : Str) (n : Option Int) (ty : Option GtinType) (hA : '.' ∉ A) :
    getGs1Key (py "urn:epc:idpat:sgcn:" ++ A ++ py ".*.*") n ty = .error .convert := by
  have h := getGs1Key_idpat_none (c := .sgcn) rfl (b := A ++ py ".*.*") (by
      show (SGCN.new _).map Scheme.sgcn = _
      rw [show py "urn:epc:id:" ++ (Cls.name .sgcn ++ ':' :: (A ++ py ".*.*")) = py "urn:epc:id:sgcn" ++ ':' :: (A ++ '.' :: (py "*" ++ '.' :: py "*")) from rfl,
        sgcn_two_wildcards A _ hA]
      rfl) (fun _ => by
      rw [show py "urn:epc:id:" ++ (Cls.name .sgcn ++ ':' :: (A ++ py ".*.*")) = (py "urn:epc:id:sgcn:" ++ A ++ py ".*") ++ py ".*" by simp [Cls.name],
        subFinalStar_star]
      show (SGCN.new _).map Scheme.sgcn = _
      rw [show (py "urn:epc:id:sgcn:" ++ A ++ py ".*") ++ py ".0" = py "urn:epc:id:sgcn" ++ ':' :: (A ++ '.' :: (py "*" ++ '.' :: py "0")) by simp,
        sgcn_two_wildcards A _ hA]
      rfl) n ty
  rw [← h]
  congr 1

example : getGs1Key (py "urn:epc:idpat:sgcn:0614141.*.*") = .error .convert ∧ Rx.idpatUri.fullmatch (py "urn:epc:idpat:sgcn:0614141.*.*") = true := by
  decide +kernel

/-- The schemes with two components: both are wildcards. -/
theorem C41_two_of_two (c : Cls) (n : Option Int) (ty : Option GtinType)
    (hc : c = .sscc ∨ c = .giai ∨ c = .gsrn ∨ c = .gsrnp ∨ c = .ginc ∨ c = .gsin ∨ c = .pgln) :
    getGs1Key (py "urn:epc:idpat:" ++ c.name ++ py ":*.*") n ty = .error .convert := by
  rw [List.append_assoc]
  rcases hc with rfl | rfl | rfl | rfl | rfl | rfl | rfl <;>
    exact getGs1Key_idpat_none (b := py "*.*") (by decide) (by decide +kernel) (fun h => absurd h (by decide)) n ty

/-- The schemes without a GS1 key: every pattern is refused. -/
theorem C41_other_schemes (c : Cls) (B : Str) (n : Option Int) (ty : Option GtinType) (hc : c.isGs1Keyed = false) :
    getGs1Key (py "urn:epc:idpat:" ++ c.name ++ ':' :: B) n ty = .error .convert := by
  rw [List.append_assoc]
  show getGs1Key (py "urn:epc:idpat:" ++ (c.name ++ ':' :: B)) n ty = _
  cases hm : Rx.idpatUri.fullmatch (py "urn:epc:idpat:" ++ (c.name ++ ':' :: B)) with
  | false => exact key_of_no_source (by rw [source_idpat, hm, if_neg (by decide)]) ty
  | true =>
    refine key_of_source_error ?_ ty
    rw [source_idpat, hm, if_pos rfl]
    have hn : ':' ∉ c.name := by cases c <;> decide
    have hs : split ':' (py "urn:epc:idpat:" ++ (c.name ++ ':' :: B)) = [py "urn", py "epc", py "idpat", c.name] ++ split ':' B :=
      split_urn (py "idpat") c.name B (by decide) hn
    unfold idpatToGs1KeyedScheme
    rw [hs, show getPart ([py "urn", py "epc", py "idpat", c.name] ++ split ':' B) 3 = .ok c.name from rfl, ok_bind,
      clsByName_none.2 (fun c' hk hc' => by rw [Cls.name_inj hc', hc] at hk; cases hk)]

end Epc
