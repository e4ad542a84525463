/-
The patterns of the source and the tables of Spec/Grammar.
-/
import Verif.Spec.Grammar
import Verif.Refine.Patterns
import Verif.Lemmas.SpecDigits
import Verif.Lemmas.Pieces
import Verif.Lemmas.Elem
import Verif.Lemmas.LayoutAdi
import Verif.Lemmas.TagUri
import Verif.Lemmas.ElemParse

namespace Epc.Grammar
open Spec Re

theorem accepts_iff {text : Str} {q : Pat} (h : Pat.reads text q = true) (s : Str) : Accepts text s ↔ Lang q.toRe s := by
  obtain ⟨r, h1, h2⟩ := Pat.compile_of_reads h
  unfold Accepts
  rw [h1, ← h2 s, ← fullmatch_iff]
  exact ⟨fun ⟨_, e, h⟩ => (Option.some.inj e) ▸ h, fun h => ⟨_, rfl, h⟩⟩

theorem accepts_of {text : Str} {q : Pat} {r : Re} (h : Pat.reads text q = true) (e : q.toRe = r) (s : Str) :
    Accepts text s ↔ Lang r s := e ▸ accepts_iff h s

/-! ### Fields -/

def Field.re : Field → Re
  | .digits => Rx.padded
  | .digits? => Rx.paddedOrEmpty
  | .numeral => Rx.numeric
  | .serial => Rx.gs3a3
  | .reference => Rx.cpref
  | .cage => Rx.cage
  | .partNumber => .star Rx.adiChar
  | .hashSerial => .seq (opt (lit (py "%23"))) (plus Rx.adiChar)
  | .star => Rx.ast

theorem lang_field (f : Field) (s : Str) : Lang f.re s ↔ f.Holds s := by
  cases f with
  | digits => show Lang Rx.padded s ↔ s ≠ [] ∧ UDigits s; rw [lang_padded, uDigits_iff]
  | digits? => show Lang Rx.paddedOrEmpty s ↔ UDigits s; rw [lang_paddedOrEmpty, uDigits_iff]
  | numeral => show Lang Rx.numeric s ↔ UNumeral s; rw [lang_numeric, uNumeral_iff]
  | serial => exact lang_serialText
  | reference => exact lang_cpref s
  | cage =>
    show Lang Rx.cage s ↔ (∀ c ∈ s, c ∈ cageChars) ∧ 5 ≤ s.length ∧ s.length ≤ 6
    rw [lang_cage]
    simp only [mem_cage]
    exact And.comm
  | partNumber => exact lang_adiPart s
  | hashSerial =>
    refine (lang_adiSerial' s).trans (exists_congr fun raw => ?_)
    simp only [and_assoc]
  | star => exact lang_chr '*' s

theorem lang_verify (s : Str) : Lang verifyGs3a3Re s ↔ s ≠ [] ∧ ∀ c ∈ s, c ∈ gs82 := by
  simp only [mem_gs82]
  show Lang (plus (.cls isGs3a3Any)) s ↔ _
  rw [lang_cls_plus]

def dottedRe : List Field → Re
  | [] => .eps
  | [f] => f.re
  | f :: fs => .seq f.re (.seq Rx.dot (dottedRe fs))

theorem lang_dot_seq (r : Re) (s : Str) : Lang (.seq Rx.dot r) s ↔ ∃ t, s = '.' :: t ∧ Lang r t := by
  rw [lang_seq]
  constructor
  · rintro ⟨x, y, rfl, hx, hy⟩
    rw [(lang_chr '.' x).1 hx]; exact ⟨y, rfl, hy⟩
  · rintro ⟨t, rfl, h⟩
    exact ⟨['.'], t, rfl, (lang_chr '.' _).2 rfl, h⟩

theorem lang_dotted : ∀ (fs : List Field) (s : Str), Lang (dottedRe fs) s ↔ Dotted fs s
  | [], s => Iff.rfl
  | [f], s => lang_field f s
  | f :: g :: fs, s => by
    have ih := lang_dotted (g :: fs)
    show Lang (.seq f.re (.seq Rx.dot (dottedRe (g :: fs)))) s ↔ ∃ a b, s = a ++ '.' :: b ∧ f.Holds a ∧ Dotted (g :: fs) b
    rw [lang_seq]
    simp only [lang_dot_seq, ih, lang_field]
    constructor
    · rintro ⟨a, _, rfl, ha, b, rfl, hb⟩; exact ⟨a, b, rfl, ha, hb⟩
    · rintro ⟨a, b, rfl, ha, hb⟩; exact ⟨a, _, rfl, ha, b, rfl, hb⟩

/-! ### Pure identity URIs -/

def bodyRe : Cls → Re
  | .bic => Rx.bicBody
  | .imovn => Rx.imovnBody
  | c => dottedRe (fields c)

theorem lang_bodyRe (c : Cls) (s : Str) : Lang (bodyRe c) s ↔ Body c s := by
  cases c
  case bic =>
    refine (BIC.lang_body s).trans ?_
    simp only [Body, mem_bicLetters, digits_iff]
    simp
  case imovn =>
    show Lang (rep (.cls isDigitA) 7) s ↔ _
    rw [lang_rep_cls]
    simp only [Body, digits_iff]
  all_goals exact lang_dotted _ s

def uriRe (c : Cls) : Re := .seq (lit (uriPrefix c)) (bodyRe c)

theorem accepts_uri (c : Cls) (s : Str) : Accepts (uriText c) s ↔ Lang (uriRe c) s := by
  cases c
  case sgtin => exact accepts_of Src.reads_SGTIN_URI (r := uriRe .sgtin) Pat.toRe_sgtinUri s
  case sscc => exact accepts_of Src.reads_SSCC_URI (r := uriRe .sscc) Pat.toRe_ssccUri s
  case sgln => exact accepts_of Src.reads_SGLN_URI (r := uriRe .sgln) Pat.toRe_sglnUri s
  case grai => exact accepts_of Src.reads_GRAI_URI (r := uriRe .grai) Pat.toRe_graiUri s
  case giai => exact accepts_of Src.reads_GIAI_URI (r := uriRe .giai) Pat.toRe_giaiUri s
  case gsrn => exact accepts_of Src.reads_GSRN_URI (r := uriRe .gsrn) Pat.toRe_gsrnUri s
  case gsrnp => exact accepts_of Src.reads_GSRNP_URI (r := uriRe .gsrnp) Pat.toRe_gsrnpUri s
  case gdti => exact accepts_of Src.reads_GDTI_URI (r := uriRe .gdti) Pat.toRe_gdtiUri s
  case cpi => exact accepts_of Src.reads_CPI_URI (r := uriRe .cpi) Pat.toRe_cpiUri s
  case sgcn => exact accepts_of Src.reads_SGCN_URI (r := uriRe .sgcn) Pat.toRe_sgcnUri s
  case ginc => exact accepts_of Src.reads_GINC_URI (r := uriRe .ginc) Pat.toRe_gincUri s
  case gsin => exact accepts_of Src.reads_GSIN_URI (r := uriRe .gsin) Pat.toRe_gsinUri s
  case itip => exact accepts_of Src.reads_ITIP_URI (r := uriRe .itip) Pat.toRe_itipUri s
  case upui => exact accepts_of Src.reads_UPUI_URI (r := uriRe .upui) Pat.toRe_upuiUri s
  case pgln => exact accepts_of Src.reads_PGLN_URI (r := uriRe .pgln) Pat.toRe_pglnUri s
  case gid => exact accepts_of Src.reads_GID_URI (r := uriRe .gid) Pat.toRe_gidUri s
  case usdod => exact accepts_of Src.reads_USDOD_URI (r := uriRe .usdod) Pat.toRe_usdodUri s
  case adi => exact accepts_of Src.reads_ADI_URI (r := uriRe .adi) Pat.toRe_adiUri s
  case bic => exact accepts_of Src.reads_BIC_URI (r := uriRe .bic) Pat.toRe_bicUri s
  case imovn => exact accepts_of Src.reads_IMOVN_URI (r := uriRe .imovn) Pat.toRe_imovnUri s
  case lgtin => exact accepts_of Src.reads_LGTIN_CLASS (r := uriRe .lgtin) Pat.toRe_lgtinClass s

theorem lang_uriRe (c : Cls) (s : Str) : Lang (uriRe c) s ↔ ∃ b, s = uriPrefix c ++ b ∧ Body c b :=
  (lang_lit_seq _ _ s).trans (exists_congr fun b => and_congr Iff.rfl (lang_bodyRe c b))

def order : List Cls :=
  [.sgtin, .sscc, .sgln, .grai, .giai, .gsrn, .gsrnp, .gdti, .cpi, .sgcn, .ginc, .gsin, .itip, .upui, .pgln, .gid, .usdod, .adi, .bic,
   .imovn, .lgtin]

theorem mem_order (c : Cls) : c ∈ order := by cases c <;> decide

theorem lang_alts_map {α : Type} (l : List α) (f : α → Re) (s : Str) : Lang (alts (l.map f)) s ↔ ∃ a ∈ l, Lang (f a) s := by
  rw [lang_alts]
  constructor
  · rintro ⟨r, hr, h⟩
    obtain ⟨a, ha, rfl⟩ := List.mem_map.1 hr
    exact ⟨a, ha, h⟩
  · rintro ⟨a, ha, h⟩
    exact ⟨f a, List.mem_map_of_mem ha, h⟩

theorem epcUri_eq : Rx.epcUri = alts (order.map uriRe) := rfl

theorem accepts_epcUri (s : Str) : Accepts Src.regex.EPC_URI s ↔ ∃ c b, s = uriPrefix c ++ b ∧ Body c b := by
  rw [accepts_of Src.reads_EPC_URI Pat.toRe_epcUri, epcUri_eq, lang_alts_map]
  simp only [mem_order, true_and, lang_uriRe]

/-! ### Tag URIs -/

def tagGroups : List (List Str × Cls × Bool) :=
  [([py "sgtin-96", py "sgtin-198"], .sgtin, true), ([py "sscc-96"], .sscc, true), ([py "sgln-96", py "sgln-195"], .sgln, true),
   ([py "grai-96", py "grai-170"], .grai, true), ([py "giai-96", py "giai-202"], .giai, true), ([py "gsrn-96"], .gsrn, true),
   ([py "gsrnp-96"], .gsrnp, true), ([py "gdti-96", py "gdti-174"], .gdti, true), ([py "cpi-96", py "cpi-var"], .cpi, true),
   ([py "sgcn-96"], .sgcn, true), ([py "itip-110", py "itip-212"], .itip, true), ([py "gid-96"], .gid, false),
   ([py "usdod-96"], .usdod, true), ([py "adi-var"], .adi, true)]

def tagFields (c : Cls) (filter : Bool) : List Field := if filter then .numeral :: fields c else fields c

def groupRe (g : List Str × Cls × Bool) : Re := .seq (alts (g.1.map lit)) (.seq (Re.chr ':') (dottedRe (tagFields g.2.1 g.2.2)))

theorem tagBody_eq : Rx.tagBody = alts (tagGroups.map groupRe) := rfl

theorem tagForms_eq : tagForms = tagGroups.flatMap (fun g => g.1.map (fun n => (n, g.2))) := rfl

theorem lang_groupRe (g : List Str × Cls × Bool) (s : Str) :
    Lang (groupRe g) s ↔ ∃ n ∈ g.1, ∃ b, s = n ++ (':' :: b) ∧ Dotted (tagFields g.2.1 g.2.2) b := by
  unfold groupRe
  rw [lang_seq]
  simp only [lang_alts_map, lang_seq, lang_lit, lang_chr, lang_dotted]
  constructor
  · rintro ⟨_, _, rfl, ⟨n, hn, rfl⟩, _, b, rfl, rfl, h⟩; exact ⟨_, hn, b, rfl, h⟩
  · rintro ⟨n, hn, b, rfl, h⟩; exact ⟨n, _, rfl, ⟨n, hn, rfl⟩, _, b, rfl, rfl, h⟩

theorem accepts_tagUri (s : Str) : Accepts Src.regex.TAG_URI s ↔
    ∃ f ∈ tagForms, ∃ b, s = py "urn:epc:tag:" ++ (f.1 ++ (':' :: b)) ∧ Dotted (tagFields f.2.1 f.2.2) b := by
  rw [accepts_of Src.reads_TAG_URI Pat.toRe_tagUri, Rx.tagUri, lang_lit_seq]
  simp only [tagBody_eq, lang_alts_map, lang_groupRe]
  rw [tagForms_eq]
  constructor
  · rintro ⟨_, rfl, g, hg, n, hn, b, rfl, h⟩
    exact ⟨(n, g.2), List.mem_flatMap.2 ⟨g, hg, List.mem_map_of_mem hn⟩, b, rfl, h⟩
  · rintro ⟨f, hf, b, rfl, h⟩
    obtain ⟨g, hg, hf⟩ := List.mem_flatMap.1 hf
    obtain ⟨n, hn, rfl⟩ := List.mem_map.1 hf
    exact ⟨_, rfl, g, hg, n, hn, b, rfl, h⟩

/-! ### Id patterns -/

def patOrder : List Cls :=
  [.sgtin, .sscc, .sgln, .grai, .giai, .gsrn, .gsrnp, .gdti, .cpi, .sgcn, .ginc, .gsin, .itip, .upui, .pgln, .gid, .usdod, .adi]

theorem mem_patOrder (c : Cls) : c ∈ patOrder ↔ hasPattern c = true := by cases c <;> decide

def stars : Cls → List Nat
  | .itip => [0, 1, 3, 4]
  | c => List.range ((patternFields c).length + 1)

theorem mem_stars (c : Cls) (k : Nat) : k ∈ stars c ↔ Stars c k := by
  cases c
  case itip => show k ∈ [0, 1, 3, 4] ↔ k = 0 ∨ k = 1 ∨ k = 3 ∨ k = 4; simp
  all_goals exact List.mem_range.trans Nat.lt_succ_iff

def patternRe (c : Cls) : Re :=
  alts ((stars c).map (fun k => dottedRe (starred k (patternFields c))) ++
    if c = .itip then [seqs [Rx.ast, Rx.dot, Rx.ast, Rx.ast, Rx.dot, Rx.ast, Rx.dot, Rx.ast]] else [])

theorem lang_patternRe (c : Cls) (s : Str) : Lang (patternRe c) s ↔ PatternBody c s := by
  unfold patternRe PatternBody
  rw [lang_alts]
  simp only [List.mem_append]
  constructor
  · rintro ⟨r, hr | hr, h⟩
    · obtain ⟨k, hk, rfl⟩ := List.mem_map.1 hr
      exact .inl ⟨k, (mem_stars c k).1 hk, (lang_dotted _ s).1 h⟩
    · right
      split at hr
      · rename_i hc
        refine ⟨hc, ?_⟩
        rw [List.mem_singleton.1 hr] at h
        simp only [seqs, lang_seq, Rx.ast, Rx.dot, lang_chr] at h
        obtain ⟨_, _, rfl, rfl, _, _, rfl, rfl, _, _, rfl, rfl, _, _, rfl, rfl, _, _, rfl, rfl, _, _, rfl, rfl, _, _, rfl, rfl, rfl⟩ := h
        rfl
      · exact absurd hr (by simp)
  · rintro (⟨k, hk, h⟩ | ⟨rfl, rfl⟩)
    · exact ⟨_, .inl (List.mem_map_of_mem ((mem_stars c k).2 hk)), (lang_dotted _ s).2 h⟩
    · refine ⟨_, .inr (by rw [if_pos rfl]; exact List.mem_singleton.2 rfl), ?_⟩
      rw [← fullmatch_iff]; decide +kernel

theorem idpatBody_eq : Rx.idpatBody = alts (patOrder.map (fun c => .seq (lit (c.name ++ py ":")) (patternRe c))) := rfl

theorem accepts_idpatUri (s : Str) : Accepts Src.regex.IDPAT_URI s ↔
    ∃ c b, hasPattern c = true ∧ s = py "urn:epc:idpat:" ++ ((c.name ++ py ":") ++ b) ∧ PatternBody c b := by
  rw [accepts_of Src.reads_IDPAT_URI Pat.toRe_idpatUri, Rx.idpatUri, lang_lit_seq]
  simp only [idpatBody_eq, lang_alts_map, lang_lit_seq, lang_patternRe, mem_patOrder]
  constructor
  · rintro ⟨_, rfl, c, hc, b, rfl, h⟩; exact ⟨c, b, hc, rfl, h⟩
  · rintro ⟨c, b, hc, rfl, h⟩; exact ⟨_, rfl, c, hc, b, rfl, h⟩

/-! ### Element strings -/

def Piece.re : Piece → Re
  | .text p => lit p
  | .digits m n => if m = n then rep Rx.digit n else Re.range Rx.digit m n
  | .chars m n => Re.range Rx.elemChar m n
  | .ref m n => Re.range Rx.elemCharCpi m n

def Piece.Ok : Piece → Prop
  | .text _ => True
  | .digits m n | .chars m n | .ref m n => m ≤ n

theorem lang_piece (p : Piece) (hp : p.Ok) (s : Str) : Lang p.re s ↔ p.Holds s := by
  cases p with
  | text p => exact lang_lit p s
  | digits m n =>
    show Lang (if m = n then rep (.cls isDecimal) n else Re.range (.cls isDecimal) m n) s ↔ UDigits s ∧ m ≤ s.length ∧ s.length ≤ n
    rw [uDigits_iff]
    split
    · subst m
      rw [lang_rep_cls]
      constructor
      · rintro ⟨h1, h2⟩; exact ⟨h2, by omega, by omega⟩
      · rintro ⟨h1, h2, h3⟩; exact ⟨by omega, h1⟩
    · rw [lang_range_cls _ hp]; exact And.comm
  | chars m n =>
    show Lang (Re.range (.cls isGs3a3Any) m n) s ↔ (∀ c ∈ s, c ∈ gs82) ∧ m ≤ s.length ∧ s.length ≤ n
    rw [lang_range_cls _ hp]; simp only [mem_gs82]; exact And.comm
  | ref m n =>
    show Lang (Re.range (.cls Rx.isCpiElem) m n) s ↔ (∀ c ∈ s, c ∈ gs39) ∧ m ≤ s.length ∧ s.length ≤ n
    rw [lang_range_cls _ hp]; simp only [isCpiElem_iff]; exact And.comm

theorem lang_row : ∀ (ps : List Piece), (∀ p ∈ ps, p.Ok) → ∀ s : Str, Lang (seqs (ps.map Piece.re)) s ↔ Row ps s
  | [], _, s => Iff.rfl
  | [p], h, s => lang_piece p (h p (by simp)) s
  | p :: q :: ps, h, s => by
    have ih := lang_row (q :: ps) (fun x hx => h x (List.mem_cons_of_mem _ hx))
    show Lang (.seq p.re (seqs ((q :: ps).map Piece.re))) s ↔ ∃ a b, s = a ++ b ∧ p.Holds a ∧ Row (q :: ps) b
    rw [lang_seq]
    simp only [ih, lang_piece p (h p (by simp))]

def elemOrder : List Cls :=
  [.sgtin, .sscc, .sgln, .grai, .giai, .gsrn, .gsrnp, .gdti, .cpi, .sgcn, .ginc, .gsin, .itip, .upui, .pgln, .lgtin]

def elemRe (c : Cls) : Re := seqs (((pieces c).getD []).map Piece.re)

theorem pieces_ok (c : Cls) : ∀ p ∈ (pieces c).getD [], p.Ok := by
  cases c <;> simp [pieces, Piece.Ok]

theorem gs1Elem_eq : Rx.gs1Elem = alts (elemOrder.map elemRe) := rfl

theorem mem_elemOrder (c : Cls) : c ∈ elemOrder ↔ (pieces c).isSome = true := by cases c <;> decide

theorem lang_elemRe (c : Cls) (ps : List Piece) (h : pieces c = some ps) (s : Str) : Lang (elemRe c) s ↔ Row ps s := by
  have := pieces_ok c
  unfold elemRe
  rw [h] at this ⊢
  exact lang_row ps this s

theorem accepts_elem (c : Cls) (text : Str) (h : elemText c = some text) (s : Str) : Accepts text s ↔ Lang (elemRe c) s := by
  cases c
  case sgtin => cases h; exact accepts_of Src.reads_SGTIN_GS1_ELEMENT_STRING (r := elemRe .sgtin) Pat.toRe_sgtinElem s
  case sscc => cases h; exact accepts_of Src.reads_SSCC_GS1_ELEMENT_STRING (r := elemRe .sscc) Pat.toRe_ssccElem s
  case sgln => cases h; exact accepts_of Src.reads_SGLN_GS1_ELEMENT_STRING (r := elemRe .sgln) Pat.toRe_sglnElem s
  case grai => cases h; exact accepts_of Src.reads_GRAI_GS1_ELEMENT_STRING (r := elemRe .grai) Pat.toRe_graiElem s
  case giai => cases h; exact accepts_of Src.reads_GIAI_GS1_ELEMENT_STRING (r := elemRe .giai) Pat.toRe_giaiElem s
  case gsrn => cases h; exact accepts_of Src.reads_GSRN_GS1_ELEMENT_STRING (r := elemRe .gsrn) Pat.toRe_gsrnElem s
  case gsrnp => cases h; exact accepts_of Src.reads_GSRNP_GS1_ELEMENT_STRING (r := elemRe .gsrnp) Pat.toRe_gsrnpElem s
  case gdti => cases h; exact accepts_of Src.reads_GDTI_GS1_ELEMENT_STRING (r := elemRe .gdti) Pat.toRe_gdtiElem s
  case cpi => cases h; exact accepts_of Src.reads_CPI_GS1_ELEMENT_STRING (r := elemRe .cpi) Pat.toRe_cpiElem s
  case sgcn => cases h; exact accepts_of Src.reads_SGCN_GS1_ELEMENT_STRING (r := elemRe .sgcn) Pat.toRe_sgcnElem s
  case ginc => cases h; exact accepts_of Src.reads_GINC_GS1_ELEMENT_STRING (r := elemRe .ginc) Pat.toRe_gincElem s
  case gsin => cases h; exact accepts_of Src.reads_GSIN_GS1_ELEMENT_STRING (r := elemRe .gsin) Pat.toRe_gsinElem s
  case itip => cases h; exact accepts_of Src.reads_ITIP_GS1_ELEMENT_STRING (r := elemRe .itip) Pat.toRe_itipElem s
  case upui => cases h; exact accepts_of Src.reads_UPUI_GS1_ELEMENT_STRING (r := elemRe .upui) Pat.toRe_upuiElem s
  case pgln => cases h; exact accepts_of Src.reads_PGLN_GS1_ELEMENT_STRING (r := elemRe .pgln) Pat.toRe_pglnElem s
  case lgtin => cases h; exact accepts_of Src.reads_LGTIN_GS1_ELEMENT_STRING (r := elemRe .lgtin) Pat.toRe_lgtinElem s
  all_goals exact nomatch h

theorem accepts_gs1Elem (s : Str) : Accepts Src.regex.GS1_ELEMENT_STRING s ↔ ∃ c ps, pieces c = some ps ∧ Row ps s := by
  rw [accepts_of Src.reads_GS1_ELEMENT_STRING Pat.toRe_gs1Elem, gs1Elem_eq, lang_alts_map]
  refine exists_congr fun c => ?_
  rw [mem_elemOrder]
  constructor
  · rintro ⟨hc, h⟩
    obtain ⟨ps, hps⟩ := Option.isSome_iff_exists.1 hc
    exact ⟨ps, hps, (lang_elemRe c ps hps s).1 h⟩
  · rintro ⟨ps, hps, h⟩
    exact ⟨by rw [hps]; rfl, (lang_elemRe c ps hps s).2 h⟩

end Epc.Grammar
