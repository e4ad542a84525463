/-
The regular expressions of the model are those that the source writes down as texts.

Generated by tools/gen_patterns.py: the first part repeats Model/Regexes with patterns instead of regular expressions, the second shows that the
constants of /repo/epcpy/utils/regex.py are the texts of these patterns.
-/
import Verif.Lemmas.Pattern
import Verif.Refine.PatsAttr
import Verif.Model.Regexes
import Verif.Model.Adi
import Verif.Src.Simp

namespace Epc.Pat

/-! ### Sets -/

theorem eq_nat (c a : Char) : (c == a) = decide (c.toNat = a.toNat) := by
  rw [Bool.eq_iff_iff, beq_iff_eq, decide_eq_true_iff]
  exact ⟨fun h => by rw [h], fun h => Char.toNat_inj.1 h⟩

theorem le_nat (c a : Char) : decide (c ≤ a) = decide (c.toNat ≤ a.toNat) := by
  rw [Bool.eq_iff_iff, decide_eq_true_iff, decide_eq_true_iff]
  exact Iff.rfl

/-- Two sets of characters that are written differently. -/
macro "sets" : tactic => `(tactic| (
  simp only [toRe, Re.cls.injEq]
  funext c
  rw [Bool.eq_iff_iff]
  simp only [List.any_cons, List.any_nil, Bool.or_false, Item.has, isDigitA, isHexA, isBit, isAlphaA, isGs3a3Punct, isGs3a3Plain, isEscaped,
    isGs3a3Any, Rx.isUpperA, Rx.isCprefPlain, Rx.isCage, Rx.isBicOwner, Rx.isCpiElem, eq_nat, le_nat, bne, Bool.or_eq_true, Bool.and_eq_true,
    Bool.not_eq_true', decide_eq_true_iff, decide_eq_false_iff_not]
  simp only [Char.reduceToNat]
  all_goals omega))

def digitItems : List Item := [.range '0' '9']
def cprefItems : List Item := [.range '0' '9', .range 'A' 'Z', .one '-']
def adiItems : List Item := [.range 'A' 'Z', .range '0' '9', .one '-']
def cageItems : List Item := [.range '0' '9', .range 'A' 'H', .range 'J' 'N', .range 'P' 'Z']
def bicItems : List Item := [.range 'A' 'H', .range 'J' 'N', .range 'P' 'Z']
def cpiItems : List Item := [.range '0' '9', .range 'A' 'Z', .one '/', .one '-', .one '#']
def hexItems : List Item := [.range '0' '9', .range 'a' 'f', .range 'A' 'F']
def plainItems : List Item :=
  [.range 'a' 'z', .range 'A' 'Z', .range '0' '9', .one '!', .one '\'', .one '(', .one ')', .one '*', .one '+', .range ',' '.', .one ':', .one ';',
   .one '=', .one '_']
def anyItems : List Item :=
  [.range 'a' 'z', .range 'A' 'Z', .range '0' '9', .one '!', .one '\'', .one '(', .one ')', .one '*', .one '+', .range ',' '.', .one ':', .one ';',
   .one '=', .one '_', .one '"', .one '%', .one '&', .one '/', .one '<', .one '>', .one '?']

@[pats] theorem set_digit : (Pat.cls digitItems).toRe = .cls isDigitA := by unfold digitItems; sets
@[pats] theorem set_cpref : (Pat.cls cprefItems).toRe = .cls Rx.isCprefPlain := by unfold cprefItems; sets
@[pats] theorem set_adi : (Pat.cls adiItems).toRe = .cls Rx.isCprefPlain := by unfold adiItems; sets
@[pats] theorem set_cage : (Pat.cls cageItems).toRe = .cls Rx.isCage := by unfold cageItems; sets
@[pats] theorem set_bic : (Pat.cls bicItems).toRe = .cls Rx.isBicOwner := by unfold bicItems; sets
@[pats] theorem set_cpi : (Pat.cls cpiItems).toRe = .cls Rx.isCpiElem := by unfold cpiItems; sets
@[pats] theorem set_hex : (Pat.cls hexItems).toRe = .cls isHexA := by unfold hexItems; sets
@[pats] theorem set_plain : (Pat.cls plainItems).toRe = .cls isGs3a3Plain := by unfold plainItems; sets
@[pats] theorem set_any : (Pat.cls anyItems).toRe = .cls isGs3a3Any := by unfold anyItems; sets
@[pats] theorem set_decimal : (Pat.cls [.digit]).toRe = .cls isDecimal := by
  simp only [toRe, List.any_cons, List.any_nil, Bool.or_false, Item.has]
@[pats] theorem set_dot : (Pat.cls [.any]).toRe = .cls anyChar := by
  simp only [toRe, List.any_cons, List.any_nil, Bool.or_false, Item.has]
@[pats] theorem set_positive : (Pat.cls [.range '1' '9']).toRe = .cls (fun c => isDigitA c && c != '0') := by sets
@[pats] theorem set_category : (Pat.cls [.one 'J', .one 'U', .one 'Z']).toRe = .cls (fun c => c == 'J' || c == 'U' || c == 'Z') := by sets

attribute [pats] toRe_rep toRe_range toRe_plus toRe_opt toRe_seqs toRe_alts toRe_chr List.map_cons List.map_nil

@[pats] theorem toRe_seq (a b : Pat) : (Pat.seq a b).toRe = .seq a.toRe b.toRe := rfl
@[pats] theorem toRe_alt (a b : Pat) : (Pat.alt a b).toRe = .alt a.toRe b.toRe := rfl
@[pats] theorem toRe_star (a : Pat) : (Pat.star a).toRe = .star a.toRe := rfl
@[pats] theorem toRe_lit : ∀ s : Str, (lit s).toRe = Re.lit s
  | [] => rfl
  | [c] => toRe_chr c
  | c :: d :: s => by
    rw [lit, Re.lit, toRe_seq, toRe_chr, toRe_lit (d :: s)]
    · exact fun h => by cases h
    · exact fun h => by cases h

/-! ### The regular expressions of the model as patterns -/

def dot : Pat := Pat.chr '.'
def ast : Pat := Pat.chr '*'
def cpref : Pat := plus (alts [.cls cprefItems, lit (py "%2F"), lit (py "%23")])
def numeric : Pat :=
  alts [lit (py "0"), .seq (.cls [.range '1' '9']) (.star (.cls [.digit]))]
def gs3a3Char : Pat := .alt (.seq (Pat.chr '%') (.cls hexItems)) (.cls plainItems)
def gs3a3 : Pat := plus gs3a3Char
def padded : Pat := plus (.cls [.digit])
def paddedOrEmpty : Pat := .star (.cls [.digit])
def elemChar : Pat := .cls anyItems
def elemCharCpi : Pat := .cls cpiItems
def digit : Pat := .cls [.digit]
def dotted2 (a b : Pat) : Pat := seqs [a, dot, b]
def dotted3 (a b c : Pat) : Pat := seqs [a, dot, b, dot, c]
def sgtinBody : Pat := dotted3 padded padded gs3a3
def sgtinUri : Pat := .seq (lit (py "urn:epc:id:sgtin:")) sgtinBody
def ssccBody : Pat := dotted2 padded padded
def ssccUri : Pat := .seq (lit (py "urn:epc:id:sscc:")) ssccBody
def sglnBody : Pat := dotted3 padded paddedOrEmpty gs3a3
def sglnUri : Pat := .seq (lit (py "urn:epc:id:sgln:")) sglnBody
def graiBody : Pat := dotted3 padded paddedOrEmpty gs3a3
def graiUri : Pat := .seq (lit (py "urn:epc:id:grai:")) graiBody
def giaiBody : Pat := dotted2 padded gs3a3
def giaiUri : Pat := .seq (lit (py "urn:epc:id:giai:")) giaiBody
def gsrnBody : Pat := dotted2 padded padded
def gsrnUri : Pat := .seq (lit (py "urn:epc:id:gsrn:")) gsrnBody
def gsrnpBody : Pat := dotted2 padded padded
def gsrnpUri : Pat := .seq (lit (py "urn:epc:id:gsrnp:")) gsrnBody
def gdtiBody : Pat := dotted3 padded paddedOrEmpty gs3a3
def gdtiUri : Pat := .seq (lit (py "urn:epc:id:gdti:")) gdtiBody
def cpiBody : Pat := dotted3 padded cpref numeric
def cpiUri : Pat := .seq (lit (py "urn:epc:id:cpi:")) cpiBody
def sgcnBody : Pat := dotted3 padded paddedOrEmpty padded
def sgcnUri : Pat := .seq (lit (py "urn:epc:id:sgcn:")) sgcnBody
def gincBody : Pat := dotted2 padded gs3a3
def gincUri : Pat := .seq (lit (py "urn:epc:id:ginc:")) gincBody
def gsinBody : Pat := dotted2 padded padded
def gsinUri : Pat := .seq (lit (py "urn:epc:id:gsin:")) gsinBody
def itipBody : Pat := seqs [padded, dot, padded, dot, padded, dot, padded, dot, gs3a3]
def itipUri : Pat := .seq (lit (py "urn:epc:id:itip:")) itipBody
def upuiBody : Pat := dotted3 padded paddedOrEmpty gs3a3
def upuiUri : Pat := .seq (lit (py "urn:epc:id:upui:")) upuiBody
def pglnBody : Pat := dotted2 padded paddedOrEmpty
def pglnUri : Pat := .seq (lit (py "urn:epc:id:pgln:")) pglnBody
def gidBody : Pat := dotted3 numeric numeric numeric
def gidUri : Pat := .seq (lit (py "urn:epc:id:gid:")) gidBody
def cage : Pat := Pat.range (.cls cageItems) 5 6
def usdodBody : Pat := dotted2 cage numeric
def usdodUri : Pat := .seq (lit (py "urn:epc:id:usdod:")) usdodBody
def adiChar : Pat := .alt (.cls adiItems) (lit (py "%2F"))
def adiBody : Pat := dotted3 cage (.star adiChar) (.seq (opt (lit (py "%23"))) (plus adiChar))
def adiUri : Pat := .seq (lit (py "urn:epc:id:adi:")) adiBody
def bicBody : Pat :=
  seqs [rep (.cls bicItems) 3, .cls [.one 'J', .one 'U', .one 'Z'], rep (.cls digitItems) 7]
def bicUri : Pat := .seq (lit (py "urn:epc:id:bic:")) bicBody
def imovnBody : Pat := rep (.cls digitItems) 7
def imovnUri : Pat := .seq (lit (py "urn:epc:id:imovn:")) imovnBody
def lgtinClass : Pat := .seq (lit (py "urn:epc:class:lgtin:")) (dotted3 padded padded gs3a3)
def epcUri : Pat := alts
  [sgtinUri, ssccUri, sglnUri, graiUri, giaiUri, gsrnUri, gsrnpUri, gdtiUri, cpiUri, sgcnUri, gincUri, gsinUri,
   itipUri, upuiUri, pglnUri, gidUri, usdodUri, adiUri, bicUri, imovnUri, lgtinClass]
def idpat3 (a b c : Pat) : Pat :=
  alts [dotted3 a b c, dotted3 a b ast, dotted3 a ast ast, dotted3 ast ast ast]
def idpat2 (a b : Pat) : Pat := alts [dotted2 a b, dotted2 a ast, dotted2 ast ast]
def idpatBody : Pat := alts
  [.seq (lit (py "sgtin:")) (idpat3 padded padded gs3a3),
   .seq (lit (py "sscc:")) (idpat2 padded padded),
   .seq (lit (py "sgln:")) (idpat3 padded paddedOrEmpty gs3a3),
   .seq (lit (py "grai:")) (idpat3 padded paddedOrEmpty gs3a3),
   .seq (lit (py "giai:")) (idpat2 padded gs3a3),
   .seq (lit (py "gsrn:")) (idpat2 padded padded),
   .seq (lit (py "gsrnp:")) (idpat2 padded padded),
   .seq (lit (py "gdti:")) (idpat3 padded paddedOrEmpty gs3a3),
   .seq (lit (py "cpi:")) (idpat3 padded cpref numeric),
   .seq (lit (py "sgcn:")) (idpat3 padded paddedOrEmpty padded),
   .seq (lit (py "ginc:")) (idpat2 padded gs3a3),
   .seq (lit (py "gsin:")) (idpat2 padded padded),
   .seq (lit (py "itip:")) (alts
      [seqs [padded, dot, padded, dot, padded, dot, padded, dot, gs3a3],
       seqs [padded, dot, padded, dot, padded, dot, padded, dot, ast],
       seqs [padded, dot, padded, dot, ast, dot, ast, dot, ast],
       seqs [padded, dot, ast, dot, ast, dot, ast, dot, ast],
       seqs [ast, dot, ast, ast, dot, ast, dot, ast]]),
   .seq (lit (py "upui:")) (idpat3 padded padded gs3a3),
   .seq (lit (py "pgln:")) (idpat2 padded paddedOrEmpty),
   .seq (lit (py "gid:")) (idpat3 numeric numeric numeric),
   .seq (lit (py "usdod:")) (idpat2 cage numeric),
   .seq (lit (py "adi:")) (idpat3 cage (.star adiChar) (.seq (opt (lit (py "%23"))) (plus adiChar)))]
def idpatUri : Pat := .seq (lit (py "urn:epc:idpat:")) idpatBody
def tagAlt (names : Pat) (body : Pat) : Pat := seqs [names, Pat.chr ':', numeric, dot, body]
def tagBody : Pat := alts
  [tagAlt (alts [lit (py "sgtin-96"), lit (py "sgtin-198")]) sgtinBody,
   tagAlt (lit (py "sscc-96")) ssccBody,
   tagAlt (alts [lit (py "sgln-96"), lit (py "sgln-195")]) sglnBody,
   tagAlt (alts [lit (py "grai-96"), lit (py "grai-170")]) graiBody,
   tagAlt (alts [lit (py "giai-96"), lit (py "giai-202")]) giaiBody,
   tagAlt (lit (py "gsrn-96")) gsrnBody,
   tagAlt (lit (py "gsrnp-96")) gsrnpBody,
   tagAlt (alts [lit (py "gdti-96"), lit (py "gdti-174")]) gdtiBody,
   tagAlt (alts [lit (py "cpi-96"), lit (py "cpi-var")]) cpiBody,
   tagAlt (lit (py "sgcn-96")) sgcnBody,
   tagAlt (alts [lit (py "itip-110"), lit (py "itip-212")]) itipBody,
   seqs [lit (py "gid-96"), Pat.chr ':', gidBody],
   tagAlt (lit (py "usdod-96")) usdodBody,
   tagAlt (lit (py "adi-var")) adiBody]
def tagUri : Pat := .seq (lit (py "urn:epc:tag:")) tagBody
def sgtinElem : Pat := seqs [lit (py "(01)"), rep digit 14, lit (py "(21)"), Pat.range elemChar 1 20]
def ssccElem : Pat := seqs [lit (py "(00)"), rep digit 18]
def sglnElem : Pat := seqs [lit (py "(414)"), rep digit 13, lit (py "(254)"), Pat.range elemChar 1 20]
def graiElem : Pat := seqs [lit (py "(8003)0"), rep digit 13, Pat.range elemChar 1 16]
def giaiElem : Pat := seqs [lit (py "(8004)"), Pat.range digit 6 12, Pat.range elemChar 1 24]
def gsrnElem : Pat := seqs [lit (py "(8018)"), rep digit 18]
def gsrnpElem : Pat := seqs [lit (py "(8017)"), rep digit 18]
def gdtiElem : Pat := seqs [lit (py "(253)"), rep digit 13, Pat.range elemChar 1 17]
def cpiElem : Pat :=
  seqs [lit (py "(8010)"), Pat.range digit 6 12, Pat.range elemCharCpi 0 24, lit (py "(8011)"), Pat.range digit 1 12]
def sgcnElem : Pat := seqs [lit (py "(255)"), rep digit 13, Pat.range elemChar 1 12]
def gincElem : Pat := seqs [lit (py "(401)"), Pat.range digit 6 12, Pat.range elemChar 1 24]
def gsinElem : Pat := seqs [lit (py "(402)"), rep digit 17]
def itipElem : Pat := seqs [lit (py "(8006)"), rep digit 18, lit (py "(21)"), Pat.range elemChar 1 20]
def upuiElem : Pat := seqs [lit (py "(01)"), rep digit 14, lit (py "(235)"), Pat.range elemChar 1 28]
def pglnElem : Pat := seqs [lit (py "(417)"), rep digit 13]
def lgtinElem : Pat := seqs [lit (py "(01)"), rep digit 14, lit (py "(10)"), Pat.range elemChar 1 20]
def gs1Elem : Pat := alts
  [sgtinElem, ssccElem, sglnElem, graiElem, giaiElem, gsrnElem, gsrnpElem, gdtiElem, cpiElem, sgcnElem, gincElem,
   gsinElem, itipElem, upuiElem, pglnElem, lgtinElem]
def verify : Pat := plus (.cls anyItems)

@[pats] theorem toRe_dot  : dot.toRe = Rx.dot := by
  simp only [dot, Rx.dot, pats]
@[pats] theorem toRe_ast  : ast.toRe = Rx.ast := by
  simp only [ast, Rx.ast, pats]
@[pats] theorem toRe_cpref  : cpref.toRe = Rx.cpref := by
  simp only [cpref, Rx.cpref, pats]
@[pats] theorem toRe_numeric  : numeric.toRe = Rx.numeric := by
  simp only [numeric, Rx.numeric, pats]
@[pats] theorem toRe_gs3a3Char  : gs3a3Char.toRe = Rx.gs3a3Char := by
  simp only [gs3a3Char, Rx.gs3a3Char, pats]
@[pats] theorem toRe_gs3a3  : gs3a3.toRe = Rx.gs3a3 := by
  simp only [gs3a3, Rx.gs3a3, pats]
@[pats] theorem toRe_padded  : padded.toRe = Rx.padded := by
  simp only [padded, Rx.padded, pats]
@[pats] theorem toRe_paddedOrEmpty  : paddedOrEmpty.toRe = Rx.paddedOrEmpty := by
  simp only [paddedOrEmpty, Rx.paddedOrEmpty, pats]
@[pats] theorem toRe_elemChar  : elemChar.toRe = Rx.elemChar := by
  simp only [elemChar, Rx.elemChar, pats]
@[pats] theorem toRe_elemCharCpi  : elemCharCpi.toRe = Rx.elemCharCpi := by
  simp only [elemCharCpi, Rx.elemCharCpi, pats]
@[pats] theorem toRe_digit  : digit.toRe = Rx.digit := by
  simp only [digit, Rx.digit, pats]
@[pats] theorem toRe_dotted2 (a b : Pat) : (dotted2 a b).toRe = Rx.dotted2 (a.toRe) (b.toRe) := by
  simp only [dotted2, Rx.dotted2, pats]
@[pats] theorem toRe_dotted3 (a b c : Pat) : (dotted3 a b c).toRe = Rx.dotted3 (a.toRe) (b.toRe) (c.toRe) := by
  simp only [dotted3, Rx.dotted3, pats]
@[pats] theorem toRe_sgtinBody  : sgtinBody.toRe = Rx.sgtinBody := by
  simp only [sgtinBody, Rx.sgtinBody, pats]
@[pats] theorem toRe_sgtinUri  : sgtinUri.toRe = Rx.sgtinUri := by
  simp only [sgtinUri, Rx.sgtinUri, pats]
@[pats] theorem toRe_ssccBody  : ssccBody.toRe = Rx.ssccBody := by
  simp only [ssccBody, Rx.ssccBody, pats]
@[pats] theorem toRe_ssccUri  : ssccUri.toRe = Rx.ssccUri := by
  simp only [ssccUri, Rx.ssccUri, pats]
@[pats] theorem toRe_sglnBody  : sglnBody.toRe = Rx.sglnBody := by
  simp only [sglnBody, Rx.sglnBody, pats]
@[pats] theorem toRe_sglnUri  : sglnUri.toRe = Rx.sglnUri := by
  simp only [sglnUri, Rx.sglnUri, pats]
@[pats] theorem toRe_graiBody  : graiBody.toRe = Rx.graiBody := by
  simp only [graiBody, Rx.graiBody, pats]
@[pats] theorem toRe_graiUri  : graiUri.toRe = Rx.graiUri := by
  simp only [graiUri, Rx.graiUri, pats]
@[pats] theorem toRe_giaiBody  : giaiBody.toRe = Rx.giaiBody := by
  simp only [giaiBody, Rx.giaiBody, pats]
@[pats] theorem toRe_giaiUri  : giaiUri.toRe = Rx.giaiUri := by
  simp only [giaiUri, Rx.giaiUri, pats]
@[pats] theorem toRe_gsrnBody  : gsrnBody.toRe = Rx.gsrnBody := by
  simp only [gsrnBody, Rx.gsrnBody, pats]
@[pats] theorem toRe_gsrnUri  : gsrnUri.toRe = Rx.gsrnUri := by
  simp only [gsrnUri, Rx.gsrnUri, pats]
@[pats] theorem toRe_gsrnpBody  : gsrnpBody.toRe = Rx.gsrnpBody := by
  simp only [gsrnpBody, Rx.gsrnpBody, pats]
@[pats] theorem toRe_gsrnpUri  : gsrnpUri.toRe = Rx.gsrnpUri := by
  simp only [gsrnpUri, Rx.gsrnpUri, pats]
@[pats] theorem toRe_gdtiBody  : gdtiBody.toRe = Rx.gdtiBody := by
  simp only [gdtiBody, Rx.gdtiBody, pats]
@[pats] theorem toRe_gdtiUri  : gdtiUri.toRe = Rx.gdtiUri := by
  simp only [gdtiUri, Rx.gdtiUri, pats]
@[pats] theorem toRe_cpiBody  : cpiBody.toRe = Rx.cpiBody := by
  simp only [cpiBody, Rx.cpiBody, pats]
@[pats] theorem toRe_cpiUri  : cpiUri.toRe = Rx.cpiUri := by
  simp only [cpiUri, Rx.cpiUri, pats]
@[pats] theorem toRe_sgcnBody  : sgcnBody.toRe = Rx.sgcnBody := by
  simp only [sgcnBody, Rx.sgcnBody, pats]
@[pats] theorem toRe_sgcnUri  : sgcnUri.toRe = Rx.sgcnUri := by
  simp only [sgcnUri, Rx.sgcnUri, pats]
@[pats] theorem toRe_gincBody  : gincBody.toRe = Rx.gincBody := by
  simp only [gincBody, Rx.gincBody, pats]
@[pats] theorem toRe_gincUri  : gincUri.toRe = Rx.gincUri := by
  simp only [gincUri, Rx.gincUri, pats]
@[pats] theorem toRe_gsinBody  : gsinBody.toRe = Rx.gsinBody := by
  simp only [gsinBody, Rx.gsinBody, pats]
@[pats] theorem toRe_gsinUri  : gsinUri.toRe = Rx.gsinUri := by
  simp only [gsinUri, Rx.gsinUri, pats]
@[pats] theorem toRe_itipBody  : itipBody.toRe = Rx.itipBody := by
  simp only [itipBody, Rx.itipBody, pats]
@[pats] theorem toRe_itipUri  : itipUri.toRe = Rx.itipUri := by
  simp only [itipUri, Rx.itipUri, pats]
@[pats] theorem toRe_upuiBody  : upuiBody.toRe = Rx.upuiBody := by
  simp only [upuiBody, Rx.upuiBody, pats]
@[pats] theorem toRe_upuiUri  : upuiUri.toRe = Rx.upuiUri := by
  simp only [upuiUri, Rx.upuiUri, pats]
@[pats] theorem toRe_pglnBody  : pglnBody.toRe = Rx.pglnBody := by
  simp only [pglnBody, Rx.pglnBody, pats]
@[pats] theorem toRe_pglnUri  : pglnUri.toRe = Rx.pglnUri := by
  simp only [pglnUri, Rx.pglnUri, pats]
@[pats] theorem toRe_gidBody  : gidBody.toRe = Rx.gidBody := by
  simp only [gidBody, Rx.gidBody, pats]
@[pats] theorem toRe_gidUri  : gidUri.toRe = Rx.gidUri := by
  simp only [gidUri, Rx.gidUri, pats]
@[pats] theorem toRe_cage  : cage.toRe = Rx.cage := by
  simp only [cage, Rx.cage, pats]
@[pats] theorem toRe_usdodBody  : usdodBody.toRe = Rx.usdodBody := by
  simp only [usdodBody, Rx.usdodBody, pats]
@[pats] theorem toRe_usdodUri  : usdodUri.toRe = Rx.usdodUri := by
  simp only [usdodUri, Rx.usdodUri, pats]
@[pats] theorem toRe_adiChar  : adiChar.toRe = Rx.adiChar := by
  simp only [adiChar, Rx.adiChar, pats]
@[pats] theorem toRe_adiBody  : adiBody.toRe = Rx.adiBody := by
  simp only [adiBody, Rx.adiBody, pats]
@[pats] theorem toRe_adiUri  : adiUri.toRe = Rx.adiUri := by
  simp only [adiUri, Rx.adiUri, pats]
@[pats] theorem toRe_bicBody  : bicBody.toRe = Rx.bicBody := by
  simp only [bicBody, Rx.bicBody, pats]
@[pats] theorem toRe_bicUri  : bicUri.toRe = Rx.bicUri := by
  simp only [bicUri, Rx.bicUri, pats]
@[pats] theorem toRe_imovnBody  : imovnBody.toRe = Rx.imovnBody := by
  simp only [imovnBody, Rx.imovnBody, pats]
@[pats] theorem toRe_imovnUri  : imovnUri.toRe = Rx.imovnUri := by
  simp only [imovnUri, Rx.imovnUri, pats]
@[pats] theorem toRe_lgtinClass  : lgtinClass.toRe = Rx.lgtinClass := by
  simp only [lgtinClass, Rx.lgtinClass, pats]
@[pats] theorem toRe_epcUri  : epcUri.toRe = Rx.epcUri := by
  simp only [epcUri, Rx.epcUri, pats]
@[pats] theorem toRe_idpat3 (a b c : Pat) : (idpat3 a b c).toRe = Rx.idpat3 (a.toRe) (b.toRe) (c.toRe) := by
  simp only [idpat3, Rx.idpat3, pats]
@[pats] theorem toRe_idpat2 (a b : Pat) : (idpat2 a b).toRe = Rx.idpat2 (a.toRe) (b.toRe) := by
  simp only [idpat2, Rx.idpat2, pats]
@[pats] theorem toRe_idpatBody  : idpatBody.toRe = Rx.idpatBody := by
  simp only [idpatBody, Rx.idpatBody, pats]
@[pats] theorem toRe_idpatUri  : idpatUri.toRe = Rx.idpatUri := by
  simp only [idpatUri, Rx.idpatUri, pats]
@[pats] theorem toRe_tagAlt (names : Pat) (body : Pat) : (tagAlt names body).toRe = Rx.tagAlt (names.toRe) (body.toRe) := by
  simp only [tagAlt, Rx.tagAlt, pats]
@[pats] theorem toRe_tagBody  : tagBody.toRe = Rx.tagBody := by
  simp only [tagBody, Rx.tagBody, pats]
@[pats] theorem toRe_tagUri  : tagUri.toRe = Rx.tagUri := by
  simp only [tagUri, Rx.tagUri, pats]
@[pats] theorem toRe_sgtinElem  : sgtinElem.toRe = Rx.sgtinElem := by
  simp only [sgtinElem, Rx.sgtinElem, pats]
@[pats] theorem toRe_ssccElem  : ssccElem.toRe = Rx.ssccElem := by
  simp only [ssccElem, Rx.ssccElem, pats]
@[pats] theorem toRe_sglnElem  : sglnElem.toRe = Rx.sglnElem := by
  simp only [sglnElem, Rx.sglnElem, pats]
@[pats] theorem toRe_graiElem  : graiElem.toRe = Rx.graiElem := by
  simp only [graiElem, Rx.graiElem, pats]
@[pats] theorem toRe_giaiElem  : giaiElem.toRe = Rx.giaiElem := by
  simp only [giaiElem, Rx.giaiElem, pats]
@[pats] theorem toRe_gsrnElem  : gsrnElem.toRe = Rx.gsrnElem := by
  simp only [gsrnElem, Rx.gsrnElem, pats]
@[pats] theorem toRe_gsrnpElem  : gsrnpElem.toRe = Rx.gsrnpElem := by
  simp only [gsrnpElem, Rx.gsrnpElem, pats]
@[pats] theorem toRe_gdtiElem  : gdtiElem.toRe = Rx.gdtiElem := by
  simp only [gdtiElem, Rx.gdtiElem, pats]
@[pats] theorem toRe_cpiElem  : cpiElem.toRe = Rx.cpiElem := by
  simp only [cpiElem, Rx.cpiElem, pats]
@[pats] theorem toRe_sgcnElem  : sgcnElem.toRe = Rx.sgcnElem := by
  simp only [sgcnElem, Rx.sgcnElem, pats]
@[pats] theorem toRe_gincElem  : gincElem.toRe = Rx.gincElem := by
  simp only [gincElem, Rx.gincElem, pats]
@[pats] theorem toRe_gsinElem  : gsinElem.toRe = Rx.gsinElem := by
  simp only [gsinElem, Rx.gsinElem, pats]
@[pats] theorem toRe_itipElem  : itipElem.toRe = Rx.itipElem := by
  simp only [itipElem, Rx.itipElem, pats]
@[pats] theorem toRe_upuiElem  : upuiElem.toRe = Rx.upuiElem := by
  simp only [upuiElem, Rx.upuiElem, pats]
@[pats] theorem toRe_pglnElem  : pglnElem.toRe = Rx.pglnElem := by
  simp only [pglnElem, Rx.pglnElem, pats]
@[pats] theorem toRe_lgtinElem  : lgtinElem.toRe = Rx.lgtinElem := by
  simp only [lgtinElem, Rx.lgtinElem, pats]
@[pats] theorem toRe_gs1Elem  : gs1Elem.toRe = Rx.gs1Elem := by
  simp only [gs1Elem, Rx.gs1Elem, pats]
@[pats] theorem toRe_verify : verify.toRe = verifyGs3a3Re := by
  simp only [verify, verifyGs3a3Re, pats]

end Epc.Pat

namespace Epc.Src

/-! ### The texts of the source -/

/-- The regular expression of a text. -/
def rx (text : Str) : Re := (compile text).getD .none

theorem rx_of_reads {text : Str} {q : Pat} (h : Pat.reads text q = true) : compile text = some (rx text) ∧ Pat.Equiv (rx text) q.toRe := by
  obtain ⟨r, h1, h2⟩ := Pat.compile_of_reads h
  unfold rx
  rw [h1]
  exact ⟨rfl, h2⟩

theorem compile_ok {p : Str} {r : Re} (h : compile p = some r) : methodCall (.module .re) .compile [.str p] = .ok (.regex r) := by
  simp only [methodCall, h]

theorem reads_CPREF_COMPONENT : Pat.reads regex.CPREF_COMPONENT Pat.cpref = true := by decide +kernel
theorem equiv_CPREF_COMPONENT : Pat.Equiv (rx regex.CPREF_COMPONENT) Rx.cpref := Pat.toRe_cpref ▸ (rx_of_reads reads_CPREF_COMPONENT).2
@[src] theorem compile_CPREF_COMPONENT : methodCall (.module .re) .compile [.str regex.CPREF_COMPONENT] = .ok (.regex (rx regex.CPREF_COMPONENT)) :=
  compile_ok (rx_of_reads reads_CPREF_COMPONENT).1
@[src] theorem full_CPREF_COMPONENT (s : Str) : (rx regex.CPREF_COMPONENT).fullmatch s = Rx.cpref.fullmatch s := equiv_CPREF_COMPONENT.fullmatch s
@[src] theorem match_CPREF_COMPONENT (s : Str) : (rx regex.CPREF_COMPONENT).matchPrefix s = Rx.cpref.matchPrefix s := equiv_CPREF_COMPONENT.matchPrefix s
theorem reads_NUMERIC_COMPONENT : Pat.reads regex.NUMERIC_COMPONENT Pat.numeric = true := by decide +kernel
theorem equiv_NUMERIC_COMPONENT : Pat.Equiv (rx regex.NUMERIC_COMPONENT) Rx.numeric := Pat.toRe_numeric ▸ (rx_of_reads reads_NUMERIC_COMPONENT).2
@[src] theorem compile_NUMERIC_COMPONENT : methodCall (.module .re) .compile [.str regex.NUMERIC_COMPONENT] = .ok (.regex (rx regex.NUMERIC_COMPONENT)) :=
  compile_ok (rx_of_reads reads_NUMERIC_COMPONENT).1
@[src] theorem full_NUMERIC_COMPONENT (s : Str) : (rx regex.NUMERIC_COMPONENT).fullmatch s = Rx.numeric.fullmatch s := equiv_NUMERIC_COMPONENT.fullmatch s
@[src] theorem match_NUMERIC_COMPONENT (s : Str) : (rx regex.NUMERIC_COMPONENT).matchPrefix s = Rx.numeric.matchPrefix s := equiv_NUMERIC_COMPONENT.matchPrefix s
theorem reads_GS3A3_CHAR : Pat.reads regex.GS3A3_CHAR Pat.gs3a3Char = true := by decide +kernel
theorem equiv_GS3A3_CHAR : Pat.Equiv (rx regex.GS3A3_CHAR) Rx.gs3a3Char := Pat.toRe_gs3a3Char ▸ (rx_of_reads reads_GS3A3_CHAR).2
@[src] theorem compile_GS3A3_CHAR : methodCall (.module .re) .compile [.str regex.GS3A3_CHAR] = .ok (.regex (rx regex.GS3A3_CHAR)) :=
  compile_ok (rx_of_reads reads_GS3A3_CHAR).1
@[src] theorem full_GS3A3_CHAR (s : Str) : (rx regex.GS3A3_CHAR).fullmatch s = Rx.gs3a3Char.fullmatch s := equiv_GS3A3_CHAR.fullmatch s
@[src] theorem match_GS3A3_CHAR (s : Str) : (rx regex.GS3A3_CHAR).matchPrefix s = Rx.gs3a3Char.matchPrefix s := equiv_GS3A3_CHAR.matchPrefix s
theorem reads_GS3A3_COMPONENT : Pat.reads regex.GS3A3_COMPONENT Pat.gs3a3 = true := by decide +kernel
theorem equiv_GS3A3_COMPONENT : Pat.Equiv (rx regex.GS3A3_COMPONENT) Rx.gs3a3 := Pat.toRe_gs3a3 ▸ (rx_of_reads reads_GS3A3_COMPONENT).2
@[src] theorem compile_GS3A3_COMPONENT : methodCall (.module .re) .compile [.str regex.GS3A3_COMPONENT] = .ok (.regex (rx regex.GS3A3_COMPONENT)) :=
  compile_ok (rx_of_reads reads_GS3A3_COMPONENT).1
@[src] theorem full_GS3A3_COMPONENT (s : Str) : (rx regex.GS3A3_COMPONENT).fullmatch s = Rx.gs3a3.fullmatch s := equiv_GS3A3_COMPONENT.fullmatch s
@[src] theorem match_GS3A3_COMPONENT (s : Str) : (rx regex.GS3A3_COMPONENT).matchPrefix s = Rx.gs3a3.matchPrefix s := equiv_GS3A3_COMPONENT.matchPrefix s
theorem reads_PADDED_NUMERIC_COMPONENT : Pat.reads regex.PADDED_NUMERIC_COMPONENT Pat.padded = true := by decide +kernel
theorem equiv_PADDED_NUMERIC_COMPONENT : Pat.Equiv (rx regex.PADDED_NUMERIC_COMPONENT) Rx.padded := Pat.toRe_padded ▸ (rx_of_reads reads_PADDED_NUMERIC_COMPONENT).2
@[src] theorem compile_PADDED_NUMERIC_COMPONENT : methodCall (.module .re) .compile [.str regex.PADDED_NUMERIC_COMPONENT] = .ok (.regex (rx regex.PADDED_NUMERIC_COMPONENT)) :=
  compile_ok (rx_of_reads reads_PADDED_NUMERIC_COMPONENT).1
@[src] theorem full_PADDED_NUMERIC_COMPONENT (s : Str) : (rx regex.PADDED_NUMERIC_COMPONENT).fullmatch s = Rx.padded.fullmatch s := equiv_PADDED_NUMERIC_COMPONENT.fullmatch s
@[src] theorem match_PADDED_NUMERIC_COMPONENT (s : Str) : (rx regex.PADDED_NUMERIC_COMPONENT).matchPrefix s = Rx.padded.matchPrefix s := equiv_PADDED_NUMERIC_COMPONENT.matchPrefix s
theorem reads_PADDED_NUMERIC_COMPONENT_OR_EMPTY : Pat.reads regex.PADDED_NUMERIC_COMPONENT_OR_EMPTY Pat.paddedOrEmpty = true := by decide +kernel
theorem equiv_PADDED_NUMERIC_COMPONENT_OR_EMPTY : Pat.Equiv (rx regex.PADDED_NUMERIC_COMPONENT_OR_EMPTY) Rx.paddedOrEmpty := Pat.toRe_paddedOrEmpty ▸ (rx_of_reads reads_PADDED_NUMERIC_COMPONENT_OR_EMPTY).2
@[src] theorem compile_PADDED_NUMERIC_COMPONENT_OR_EMPTY : methodCall (.module .re) .compile [.str regex.PADDED_NUMERIC_COMPONENT_OR_EMPTY] = .ok (.regex (rx regex.PADDED_NUMERIC_COMPONENT_OR_EMPTY)) :=
  compile_ok (rx_of_reads reads_PADDED_NUMERIC_COMPONENT_OR_EMPTY).1
@[src] theorem full_PADDED_NUMERIC_COMPONENT_OR_EMPTY (s : Str) : (rx regex.PADDED_NUMERIC_COMPONENT_OR_EMPTY).fullmatch s = Rx.paddedOrEmpty.fullmatch s := equiv_PADDED_NUMERIC_COMPONENT_OR_EMPTY.fullmatch s
@[src] theorem match_PADDED_NUMERIC_COMPONENT_OR_EMPTY (s : Str) : (rx regex.PADDED_NUMERIC_COMPONENT_OR_EMPTY).matchPrefix s = Rx.paddedOrEmpty.matchPrefix s := equiv_PADDED_NUMERIC_COMPONENT_OR_EMPTY.matchPrefix s
theorem reads_VERIFY_GS3A3_CHARS : Pat.reads regex.VERIFY_GS3A3_CHARS Pat.verify = true := by decide +kernel
theorem equiv_VERIFY_GS3A3_CHARS : Pat.Equiv (rx regex.VERIFY_GS3A3_CHARS) verifyGs3a3Re := Pat.toRe_verify ▸ (rx_of_reads reads_VERIFY_GS3A3_CHARS).2
@[src] theorem compile_VERIFY_GS3A3_CHARS : methodCall (.module .re) .compile [.str regex.VERIFY_GS3A3_CHARS] = .ok (.regex (rx regex.VERIFY_GS3A3_CHARS)) :=
  compile_ok (rx_of_reads reads_VERIFY_GS3A3_CHARS).1
@[src] theorem full_VERIFY_GS3A3_CHARS (s : Str) : (rx regex.VERIFY_GS3A3_CHARS).fullmatch s = verifyGs3a3Re.fullmatch s := equiv_VERIFY_GS3A3_CHARS.fullmatch s
@[src] theorem match_VERIFY_GS3A3_CHARS (s : Str) : (rx regex.VERIFY_GS3A3_CHARS).matchPrefix s = verifyGs3a3Re.matchPrefix s := equiv_VERIFY_GS3A3_CHARS.matchPrefix s
theorem reads_GS1_ELEM_CHARS : Pat.reads regex.GS1_ELEM_CHARS Pat.elemChar = true := by decide +kernel
theorem equiv_GS1_ELEM_CHARS : Pat.Equiv (rx regex.GS1_ELEM_CHARS) Rx.elemChar := Pat.toRe_elemChar ▸ (rx_of_reads reads_GS1_ELEM_CHARS).2
@[src] theorem compile_GS1_ELEM_CHARS : methodCall (.module .re) .compile [.str regex.GS1_ELEM_CHARS] = .ok (.regex (rx regex.GS1_ELEM_CHARS)) :=
  compile_ok (rx_of_reads reads_GS1_ELEM_CHARS).1
@[src] theorem full_GS1_ELEM_CHARS (s : Str) : (rx regex.GS1_ELEM_CHARS).fullmatch s = Rx.elemChar.fullmatch s := equiv_GS1_ELEM_CHARS.fullmatch s
@[src] theorem match_GS1_ELEM_CHARS (s : Str) : (rx regex.GS1_ELEM_CHARS).matchPrefix s = Rx.elemChar.matchPrefix s := equiv_GS1_ELEM_CHARS.matchPrefix s
theorem reads_GS1_ELEM_CHARS_CPI : Pat.reads regex.GS1_ELEM_CHARS_CPI Pat.elemCharCpi = true := by decide +kernel
theorem equiv_GS1_ELEM_CHARS_CPI : Pat.Equiv (rx regex.GS1_ELEM_CHARS_CPI) Rx.elemCharCpi := Pat.toRe_elemCharCpi ▸ (rx_of_reads reads_GS1_ELEM_CHARS_CPI).2
@[src] theorem compile_GS1_ELEM_CHARS_CPI : methodCall (.module .re) .compile [.str regex.GS1_ELEM_CHARS_CPI] = .ok (.regex (rx regex.GS1_ELEM_CHARS_CPI)) :=
  compile_ok (rx_of_reads reads_GS1_ELEM_CHARS_CPI).1
@[src] theorem full_GS1_ELEM_CHARS_CPI (s : Str) : (rx regex.GS1_ELEM_CHARS_CPI).fullmatch s = Rx.elemCharCpi.fullmatch s := equiv_GS1_ELEM_CHARS_CPI.fullmatch s
@[src] theorem match_GS1_ELEM_CHARS_CPI (s : Str) : (rx regex.GS1_ELEM_CHARS_CPI).matchPrefix s = Rx.elemCharCpi.matchPrefix s := equiv_GS1_ELEM_CHARS_CPI.matchPrefix s
theorem reads_DIGIT : Pat.reads regex.DIGIT Pat.digit = true := by decide +kernel
theorem equiv_DIGIT : Pat.Equiv (rx regex.DIGIT) Rx.digit := Pat.toRe_digit ▸ (rx_of_reads reads_DIGIT).2
@[src] theorem compile_DIGIT : methodCall (.module .re) .compile [.str regex.DIGIT] = .ok (.regex (rx regex.DIGIT)) :=
  compile_ok (rx_of_reads reads_DIGIT).1
@[src] theorem full_DIGIT (s : Str) : (rx regex.DIGIT).fullmatch s = Rx.digit.fullmatch s := equiv_DIGIT.fullmatch s
@[src] theorem match_DIGIT (s : Str) : (rx regex.DIGIT).matchPrefix s = Rx.digit.matchPrefix s := equiv_DIGIT.matchPrefix s
theorem reads_SGTIN_URI_BODY : Pat.reads regex.SGTIN_URI_BODY Pat.sgtinBody = true := by decide +kernel
theorem equiv_SGTIN_URI_BODY : Pat.Equiv (rx regex.SGTIN_URI_BODY) Rx.sgtinBody := Pat.toRe_sgtinBody ▸ (rx_of_reads reads_SGTIN_URI_BODY).2
@[src] theorem compile_SGTIN_URI_BODY : methodCall (.module .re) .compile [.str regex.SGTIN_URI_BODY] = .ok (.regex (rx regex.SGTIN_URI_BODY)) :=
  compile_ok (rx_of_reads reads_SGTIN_URI_BODY).1
@[src] theorem full_SGTIN_URI_BODY (s : Str) : (rx regex.SGTIN_URI_BODY).fullmatch s = Rx.sgtinBody.fullmatch s := equiv_SGTIN_URI_BODY.fullmatch s
@[src] theorem match_SGTIN_URI_BODY (s : Str) : (rx regex.SGTIN_URI_BODY).matchPrefix s = Rx.sgtinBody.matchPrefix s := equiv_SGTIN_URI_BODY.matchPrefix s
theorem reads_SGTIN_URI : Pat.reads regex.SGTIN_URI Pat.sgtinUri = true := by decide +kernel
theorem equiv_SGTIN_URI : Pat.Equiv (rx regex.SGTIN_URI) Rx.sgtinUri := Pat.toRe_sgtinUri ▸ (rx_of_reads reads_SGTIN_URI).2
@[src] theorem compile_SGTIN_URI : methodCall (.module .re) .compile [.str regex.SGTIN_URI] = .ok (.regex (rx regex.SGTIN_URI)) :=
  compile_ok (rx_of_reads reads_SGTIN_URI).1
@[src] theorem full_SGTIN_URI (s : Str) : (rx regex.SGTIN_URI).fullmatch s = Rx.sgtinUri.fullmatch s := equiv_SGTIN_URI.fullmatch s
@[src] theorem match_SGTIN_URI (s : Str) : (rx regex.SGTIN_URI).matchPrefix s = Rx.sgtinUri.matchPrefix s := equiv_SGTIN_URI.matchPrefix s
theorem reads_SSCC_URI_BODY : Pat.reads regex.SSCC_URI_BODY Pat.ssccBody = true := by decide +kernel
theorem equiv_SSCC_URI_BODY : Pat.Equiv (rx regex.SSCC_URI_BODY) Rx.ssccBody := Pat.toRe_ssccBody ▸ (rx_of_reads reads_SSCC_URI_BODY).2
@[src] theorem compile_SSCC_URI_BODY : methodCall (.module .re) .compile [.str regex.SSCC_URI_BODY] = .ok (.regex (rx regex.SSCC_URI_BODY)) :=
  compile_ok (rx_of_reads reads_SSCC_URI_BODY).1
@[src] theorem full_SSCC_URI_BODY (s : Str) : (rx regex.SSCC_URI_BODY).fullmatch s = Rx.ssccBody.fullmatch s := equiv_SSCC_URI_BODY.fullmatch s
@[src] theorem match_SSCC_URI_BODY (s : Str) : (rx regex.SSCC_URI_BODY).matchPrefix s = Rx.ssccBody.matchPrefix s := equiv_SSCC_URI_BODY.matchPrefix s
theorem reads_SSCC_URI : Pat.reads regex.SSCC_URI Pat.ssccUri = true := by decide +kernel
theorem equiv_SSCC_URI : Pat.Equiv (rx regex.SSCC_URI) Rx.ssccUri := Pat.toRe_ssccUri ▸ (rx_of_reads reads_SSCC_URI).2
@[src] theorem compile_SSCC_URI : methodCall (.module .re) .compile [.str regex.SSCC_URI] = .ok (.regex (rx regex.SSCC_URI)) :=
  compile_ok (rx_of_reads reads_SSCC_URI).1
@[src] theorem full_SSCC_URI (s : Str) : (rx regex.SSCC_URI).fullmatch s = Rx.ssccUri.fullmatch s := equiv_SSCC_URI.fullmatch s
@[src] theorem match_SSCC_URI (s : Str) : (rx regex.SSCC_URI).matchPrefix s = Rx.ssccUri.matchPrefix s := equiv_SSCC_URI.matchPrefix s
theorem reads_SGLN_URI_BODY : Pat.reads regex.SGLN_URI_BODY Pat.sglnBody = true := by decide +kernel
theorem equiv_SGLN_URI_BODY : Pat.Equiv (rx regex.SGLN_URI_BODY) Rx.sglnBody := Pat.toRe_sglnBody ▸ (rx_of_reads reads_SGLN_URI_BODY).2
@[src] theorem compile_SGLN_URI_BODY : methodCall (.module .re) .compile [.str regex.SGLN_URI_BODY] = .ok (.regex (rx regex.SGLN_URI_BODY)) :=
  compile_ok (rx_of_reads reads_SGLN_URI_BODY).1
@[src] theorem full_SGLN_URI_BODY (s : Str) : (rx regex.SGLN_URI_BODY).fullmatch s = Rx.sglnBody.fullmatch s := equiv_SGLN_URI_BODY.fullmatch s
@[src] theorem match_SGLN_URI_BODY (s : Str) : (rx regex.SGLN_URI_BODY).matchPrefix s = Rx.sglnBody.matchPrefix s := equiv_SGLN_URI_BODY.matchPrefix s
theorem reads_SGLN_URI : Pat.reads regex.SGLN_URI Pat.sglnUri = true := by decide +kernel
theorem equiv_SGLN_URI : Pat.Equiv (rx regex.SGLN_URI) Rx.sglnUri := Pat.toRe_sglnUri ▸ (rx_of_reads reads_SGLN_URI).2
@[src] theorem compile_SGLN_URI : methodCall (.module .re) .compile [.str regex.SGLN_URI] = .ok (.regex (rx regex.SGLN_URI)) :=
  compile_ok (rx_of_reads reads_SGLN_URI).1
@[src] theorem full_SGLN_URI (s : Str) : (rx regex.SGLN_URI).fullmatch s = Rx.sglnUri.fullmatch s := equiv_SGLN_URI.fullmatch s
@[src] theorem match_SGLN_URI (s : Str) : (rx regex.SGLN_URI).matchPrefix s = Rx.sglnUri.matchPrefix s := equiv_SGLN_URI.matchPrefix s
theorem reads_GRAI_URI_BODY : Pat.reads regex.GRAI_URI_BODY Pat.graiBody = true := by decide +kernel
theorem equiv_GRAI_URI_BODY : Pat.Equiv (rx regex.GRAI_URI_BODY) Rx.graiBody := Pat.toRe_graiBody ▸ (rx_of_reads reads_GRAI_URI_BODY).2
@[src] theorem compile_GRAI_URI_BODY : methodCall (.module .re) .compile [.str regex.GRAI_URI_BODY] = .ok (.regex (rx regex.GRAI_URI_BODY)) :=
  compile_ok (rx_of_reads reads_GRAI_URI_BODY).1
@[src] theorem full_GRAI_URI_BODY (s : Str) : (rx regex.GRAI_URI_BODY).fullmatch s = Rx.graiBody.fullmatch s := equiv_GRAI_URI_BODY.fullmatch s
@[src] theorem match_GRAI_URI_BODY (s : Str) : (rx regex.GRAI_URI_BODY).matchPrefix s = Rx.graiBody.matchPrefix s := equiv_GRAI_URI_BODY.matchPrefix s
theorem reads_GRAI_URI : Pat.reads regex.GRAI_URI Pat.graiUri = true := by decide +kernel
theorem equiv_GRAI_URI : Pat.Equiv (rx regex.GRAI_URI) Rx.graiUri := Pat.toRe_graiUri ▸ (rx_of_reads reads_GRAI_URI).2
@[src] theorem compile_GRAI_URI : methodCall (.module .re) .compile [.str regex.GRAI_URI] = .ok (.regex (rx regex.GRAI_URI)) :=
  compile_ok (rx_of_reads reads_GRAI_URI).1
@[src] theorem full_GRAI_URI (s : Str) : (rx regex.GRAI_URI).fullmatch s = Rx.graiUri.fullmatch s := equiv_GRAI_URI.fullmatch s
@[src] theorem match_GRAI_URI (s : Str) : (rx regex.GRAI_URI).matchPrefix s = Rx.graiUri.matchPrefix s := equiv_GRAI_URI.matchPrefix s
theorem reads_GIAI_URI_BODY : Pat.reads regex.GIAI_URI_BODY Pat.giaiBody = true := by decide +kernel
theorem equiv_GIAI_URI_BODY : Pat.Equiv (rx regex.GIAI_URI_BODY) Rx.giaiBody := Pat.toRe_giaiBody ▸ (rx_of_reads reads_GIAI_URI_BODY).2
@[src] theorem compile_GIAI_URI_BODY : methodCall (.module .re) .compile [.str regex.GIAI_URI_BODY] = .ok (.regex (rx regex.GIAI_URI_BODY)) :=
  compile_ok (rx_of_reads reads_GIAI_URI_BODY).1
@[src] theorem full_GIAI_URI_BODY (s : Str) : (rx regex.GIAI_URI_BODY).fullmatch s = Rx.giaiBody.fullmatch s := equiv_GIAI_URI_BODY.fullmatch s
@[src] theorem match_GIAI_URI_BODY (s : Str) : (rx regex.GIAI_URI_BODY).matchPrefix s = Rx.giaiBody.matchPrefix s := equiv_GIAI_URI_BODY.matchPrefix s
theorem reads_GIAI_URI : Pat.reads regex.GIAI_URI Pat.giaiUri = true := by decide +kernel
theorem equiv_GIAI_URI : Pat.Equiv (rx regex.GIAI_URI) Rx.giaiUri := Pat.toRe_giaiUri ▸ (rx_of_reads reads_GIAI_URI).2
@[src] theorem compile_GIAI_URI : methodCall (.module .re) .compile [.str regex.GIAI_URI] = .ok (.regex (rx regex.GIAI_URI)) :=
  compile_ok (rx_of_reads reads_GIAI_URI).1
@[src] theorem full_GIAI_URI (s : Str) : (rx regex.GIAI_URI).fullmatch s = Rx.giaiUri.fullmatch s := equiv_GIAI_URI.fullmatch s
@[src] theorem match_GIAI_URI (s : Str) : (rx regex.GIAI_URI).matchPrefix s = Rx.giaiUri.matchPrefix s := equiv_GIAI_URI.matchPrefix s
theorem reads_GSRN_URI_BODY : Pat.reads regex.GSRN_URI_BODY Pat.gsrnBody = true := by decide +kernel
theorem equiv_GSRN_URI_BODY : Pat.Equiv (rx regex.GSRN_URI_BODY) Rx.gsrnBody := Pat.toRe_gsrnBody ▸ (rx_of_reads reads_GSRN_URI_BODY).2
@[src] theorem compile_GSRN_URI_BODY : methodCall (.module .re) .compile [.str regex.GSRN_URI_BODY] = .ok (.regex (rx regex.GSRN_URI_BODY)) :=
  compile_ok (rx_of_reads reads_GSRN_URI_BODY).1
@[src] theorem full_GSRN_URI_BODY (s : Str) : (rx regex.GSRN_URI_BODY).fullmatch s = Rx.gsrnBody.fullmatch s := equiv_GSRN_URI_BODY.fullmatch s
@[src] theorem match_GSRN_URI_BODY (s : Str) : (rx regex.GSRN_URI_BODY).matchPrefix s = Rx.gsrnBody.matchPrefix s := equiv_GSRN_URI_BODY.matchPrefix s
theorem reads_GSRN_URI : Pat.reads regex.GSRN_URI Pat.gsrnUri = true := by decide +kernel
theorem equiv_GSRN_URI : Pat.Equiv (rx regex.GSRN_URI) Rx.gsrnUri := Pat.toRe_gsrnUri ▸ (rx_of_reads reads_GSRN_URI).2
@[src] theorem compile_GSRN_URI : methodCall (.module .re) .compile [.str regex.GSRN_URI] = .ok (.regex (rx regex.GSRN_URI)) :=
  compile_ok (rx_of_reads reads_GSRN_URI).1
@[src] theorem full_GSRN_URI (s : Str) : (rx regex.GSRN_URI).fullmatch s = Rx.gsrnUri.fullmatch s := equiv_GSRN_URI.fullmatch s
@[src] theorem match_GSRN_URI (s : Str) : (rx regex.GSRN_URI).matchPrefix s = Rx.gsrnUri.matchPrefix s := equiv_GSRN_URI.matchPrefix s
theorem reads_GSRNP_URI_BODY : Pat.reads regex.GSRNP_URI_BODY Pat.gsrnpBody = true := by decide +kernel
theorem equiv_GSRNP_URI_BODY : Pat.Equiv (rx regex.GSRNP_URI_BODY) Rx.gsrnpBody := Pat.toRe_gsrnpBody ▸ (rx_of_reads reads_GSRNP_URI_BODY).2
@[src] theorem compile_GSRNP_URI_BODY : methodCall (.module .re) .compile [.str regex.GSRNP_URI_BODY] = .ok (.regex (rx regex.GSRNP_URI_BODY)) :=
  compile_ok (rx_of_reads reads_GSRNP_URI_BODY).1
@[src] theorem full_GSRNP_URI_BODY (s : Str) : (rx regex.GSRNP_URI_BODY).fullmatch s = Rx.gsrnpBody.fullmatch s := equiv_GSRNP_URI_BODY.fullmatch s
@[src] theorem match_GSRNP_URI_BODY (s : Str) : (rx regex.GSRNP_URI_BODY).matchPrefix s = Rx.gsrnpBody.matchPrefix s := equiv_GSRNP_URI_BODY.matchPrefix s
theorem reads_GSRNP_URI : Pat.reads regex.GSRNP_URI Pat.gsrnpUri = true := by decide +kernel
theorem equiv_GSRNP_URI : Pat.Equiv (rx regex.GSRNP_URI) Rx.gsrnpUri := Pat.toRe_gsrnpUri ▸ (rx_of_reads reads_GSRNP_URI).2
@[src] theorem compile_GSRNP_URI : methodCall (.module .re) .compile [.str regex.GSRNP_URI] = .ok (.regex (rx regex.GSRNP_URI)) :=
  compile_ok (rx_of_reads reads_GSRNP_URI).1
@[src] theorem full_GSRNP_URI (s : Str) : (rx regex.GSRNP_URI).fullmatch s = Rx.gsrnpUri.fullmatch s := equiv_GSRNP_URI.fullmatch s
@[src] theorem match_GSRNP_URI (s : Str) : (rx regex.GSRNP_URI).matchPrefix s = Rx.gsrnpUri.matchPrefix s := equiv_GSRNP_URI.matchPrefix s
theorem reads_GDTI_URI_BODY : Pat.reads regex.GDTI_URI_BODY Pat.gdtiBody = true := by decide +kernel
theorem equiv_GDTI_URI_BODY : Pat.Equiv (rx regex.GDTI_URI_BODY) Rx.gdtiBody := Pat.toRe_gdtiBody ▸ (rx_of_reads reads_GDTI_URI_BODY).2
@[src] theorem compile_GDTI_URI_BODY : methodCall (.module .re) .compile [.str regex.GDTI_URI_BODY] = .ok (.regex (rx regex.GDTI_URI_BODY)) :=
  compile_ok (rx_of_reads reads_GDTI_URI_BODY).1
@[src] theorem full_GDTI_URI_BODY (s : Str) : (rx regex.GDTI_URI_BODY).fullmatch s = Rx.gdtiBody.fullmatch s := equiv_GDTI_URI_BODY.fullmatch s
@[src] theorem match_GDTI_URI_BODY (s : Str) : (rx regex.GDTI_URI_BODY).matchPrefix s = Rx.gdtiBody.matchPrefix s := equiv_GDTI_URI_BODY.matchPrefix s
theorem reads_GDTI_URI : Pat.reads regex.GDTI_URI Pat.gdtiUri = true := by decide +kernel
theorem equiv_GDTI_URI : Pat.Equiv (rx regex.GDTI_URI) Rx.gdtiUri := Pat.toRe_gdtiUri ▸ (rx_of_reads reads_GDTI_URI).2
@[src] theorem compile_GDTI_URI : methodCall (.module .re) .compile [.str regex.GDTI_URI] = .ok (.regex (rx regex.GDTI_URI)) :=
  compile_ok (rx_of_reads reads_GDTI_URI).1
@[src] theorem full_GDTI_URI (s : Str) : (rx regex.GDTI_URI).fullmatch s = Rx.gdtiUri.fullmatch s := equiv_GDTI_URI.fullmatch s
@[src] theorem match_GDTI_URI (s : Str) : (rx regex.GDTI_URI).matchPrefix s = Rx.gdtiUri.matchPrefix s := equiv_GDTI_URI.matchPrefix s
theorem reads_CPI_URI_BODY : Pat.reads regex.CPI_URI_BODY Pat.cpiBody = true := by decide +kernel
theorem equiv_CPI_URI_BODY : Pat.Equiv (rx regex.CPI_URI_BODY) Rx.cpiBody := Pat.toRe_cpiBody ▸ (rx_of_reads reads_CPI_URI_BODY).2
@[src] theorem compile_CPI_URI_BODY : methodCall (.module .re) .compile [.str regex.CPI_URI_BODY] = .ok (.regex (rx regex.CPI_URI_BODY)) :=
  compile_ok (rx_of_reads reads_CPI_URI_BODY).1
@[src] theorem full_CPI_URI_BODY (s : Str) : (rx regex.CPI_URI_BODY).fullmatch s = Rx.cpiBody.fullmatch s := equiv_CPI_URI_BODY.fullmatch s
@[src] theorem match_CPI_URI_BODY (s : Str) : (rx regex.CPI_URI_BODY).matchPrefix s = Rx.cpiBody.matchPrefix s := equiv_CPI_URI_BODY.matchPrefix s
theorem reads_CPI_URI : Pat.reads regex.CPI_URI Pat.cpiUri = true := by decide +kernel
theorem equiv_CPI_URI : Pat.Equiv (rx regex.CPI_URI) Rx.cpiUri := Pat.toRe_cpiUri ▸ (rx_of_reads reads_CPI_URI).2
@[src] theorem compile_CPI_URI : methodCall (.module .re) .compile [.str regex.CPI_URI] = .ok (.regex (rx regex.CPI_URI)) :=
  compile_ok (rx_of_reads reads_CPI_URI).1
@[src] theorem full_CPI_URI (s : Str) : (rx regex.CPI_URI).fullmatch s = Rx.cpiUri.fullmatch s := equiv_CPI_URI.fullmatch s
@[src] theorem match_CPI_URI (s : Str) : (rx regex.CPI_URI).matchPrefix s = Rx.cpiUri.matchPrefix s := equiv_CPI_URI.matchPrefix s
theorem reads_SGCN_URI_BODY : Pat.reads regex.SGCN_URI_BODY Pat.sgcnBody = true := by decide +kernel
theorem equiv_SGCN_URI_BODY : Pat.Equiv (rx regex.SGCN_URI_BODY) Rx.sgcnBody := Pat.toRe_sgcnBody ▸ (rx_of_reads reads_SGCN_URI_BODY).2
@[src] theorem compile_SGCN_URI_BODY : methodCall (.module .re) .compile [.str regex.SGCN_URI_BODY] = .ok (.regex (rx regex.SGCN_URI_BODY)) :=
  compile_ok (rx_of_reads reads_SGCN_URI_BODY).1
@[src] theorem full_SGCN_URI_BODY (s : Str) : (rx regex.SGCN_URI_BODY).fullmatch s = Rx.sgcnBody.fullmatch s := equiv_SGCN_URI_BODY.fullmatch s
@[src] theorem match_SGCN_URI_BODY (s : Str) : (rx regex.SGCN_URI_BODY).matchPrefix s = Rx.sgcnBody.matchPrefix s := equiv_SGCN_URI_BODY.matchPrefix s
theorem reads_SGCN_URI : Pat.reads regex.SGCN_URI Pat.sgcnUri = true := by decide +kernel
theorem equiv_SGCN_URI : Pat.Equiv (rx regex.SGCN_URI) Rx.sgcnUri := Pat.toRe_sgcnUri ▸ (rx_of_reads reads_SGCN_URI).2
@[src] theorem compile_SGCN_URI : methodCall (.module .re) .compile [.str regex.SGCN_URI] = .ok (.regex (rx regex.SGCN_URI)) :=
  compile_ok (rx_of_reads reads_SGCN_URI).1
@[src] theorem full_SGCN_URI (s : Str) : (rx regex.SGCN_URI).fullmatch s = Rx.sgcnUri.fullmatch s := equiv_SGCN_URI.fullmatch s
@[src] theorem match_SGCN_URI (s : Str) : (rx regex.SGCN_URI).matchPrefix s = Rx.sgcnUri.matchPrefix s := equiv_SGCN_URI.matchPrefix s
theorem reads_GINC_URI_BODY : Pat.reads regex.GINC_URI_BODY Pat.gincBody = true := by decide +kernel
theorem equiv_GINC_URI_BODY : Pat.Equiv (rx regex.GINC_URI_BODY) Rx.gincBody := Pat.toRe_gincBody ▸ (rx_of_reads reads_GINC_URI_BODY).2
@[src] theorem compile_GINC_URI_BODY : methodCall (.module .re) .compile [.str regex.GINC_URI_BODY] = .ok (.regex (rx regex.GINC_URI_BODY)) :=
  compile_ok (rx_of_reads reads_GINC_URI_BODY).1
@[src] theorem full_GINC_URI_BODY (s : Str) : (rx regex.GINC_URI_BODY).fullmatch s = Rx.gincBody.fullmatch s := equiv_GINC_URI_BODY.fullmatch s
@[src] theorem match_GINC_URI_BODY (s : Str) : (rx regex.GINC_URI_BODY).matchPrefix s = Rx.gincBody.matchPrefix s := equiv_GINC_URI_BODY.matchPrefix s
theorem reads_GINC_URI : Pat.reads regex.GINC_URI Pat.gincUri = true := by decide +kernel
theorem equiv_GINC_URI : Pat.Equiv (rx regex.GINC_URI) Rx.gincUri := Pat.toRe_gincUri ▸ (rx_of_reads reads_GINC_URI).2
@[src] theorem compile_GINC_URI : methodCall (.module .re) .compile [.str regex.GINC_URI] = .ok (.regex (rx regex.GINC_URI)) :=
  compile_ok (rx_of_reads reads_GINC_URI).1
@[src] theorem full_GINC_URI (s : Str) : (rx regex.GINC_URI).fullmatch s = Rx.gincUri.fullmatch s := equiv_GINC_URI.fullmatch s
@[src] theorem match_GINC_URI (s : Str) : (rx regex.GINC_URI).matchPrefix s = Rx.gincUri.matchPrefix s := equiv_GINC_URI.matchPrefix s
theorem reads_GSIN_URI_BODY : Pat.reads regex.GSIN_URI_BODY Pat.gsinBody = true := by decide +kernel
theorem equiv_GSIN_URI_BODY : Pat.Equiv (rx regex.GSIN_URI_BODY) Rx.gsinBody := Pat.toRe_gsinBody ▸ (rx_of_reads reads_GSIN_URI_BODY).2
@[src] theorem compile_GSIN_URI_BODY : methodCall (.module .re) .compile [.str regex.GSIN_URI_BODY] = .ok (.regex (rx regex.GSIN_URI_BODY)) :=
  compile_ok (rx_of_reads reads_GSIN_URI_BODY).1
@[src] theorem full_GSIN_URI_BODY (s : Str) : (rx regex.GSIN_URI_BODY).fullmatch s = Rx.gsinBody.fullmatch s := equiv_GSIN_URI_BODY.fullmatch s
@[src] theorem match_GSIN_URI_BODY (s : Str) : (rx regex.GSIN_URI_BODY).matchPrefix s = Rx.gsinBody.matchPrefix s := equiv_GSIN_URI_BODY.matchPrefix s
theorem reads_GSIN_URI : Pat.reads regex.GSIN_URI Pat.gsinUri = true := by decide +kernel
theorem equiv_GSIN_URI : Pat.Equiv (rx regex.GSIN_URI) Rx.gsinUri := Pat.toRe_gsinUri ▸ (rx_of_reads reads_GSIN_URI).2
@[src] theorem compile_GSIN_URI : methodCall (.module .re) .compile [.str regex.GSIN_URI] = .ok (.regex (rx regex.GSIN_URI)) :=
  compile_ok (rx_of_reads reads_GSIN_URI).1
@[src] theorem full_GSIN_URI (s : Str) : (rx regex.GSIN_URI).fullmatch s = Rx.gsinUri.fullmatch s := equiv_GSIN_URI.fullmatch s
@[src] theorem match_GSIN_URI (s : Str) : (rx regex.GSIN_URI).matchPrefix s = Rx.gsinUri.matchPrefix s := equiv_GSIN_URI.matchPrefix s
theorem reads_ITIP_URI_BODY : Pat.reads regex.ITIP_URI_BODY Pat.itipBody = true := by decide +kernel
theorem equiv_ITIP_URI_BODY : Pat.Equiv (rx regex.ITIP_URI_BODY) Rx.itipBody := Pat.toRe_itipBody ▸ (rx_of_reads reads_ITIP_URI_BODY).2
@[src] theorem compile_ITIP_URI_BODY : methodCall (.module .re) .compile [.str regex.ITIP_URI_BODY] = .ok (.regex (rx regex.ITIP_URI_BODY)) :=
  compile_ok (rx_of_reads reads_ITIP_URI_BODY).1
@[src] theorem full_ITIP_URI_BODY (s : Str) : (rx regex.ITIP_URI_BODY).fullmatch s = Rx.itipBody.fullmatch s := equiv_ITIP_URI_BODY.fullmatch s
@[src] theorem match_ITIP_URI_BODY (s : Str) : (rx regex.ITIP_URI_BODY).matchPrefix s = Rx.itipBody.matchPrefix s := equiv_ITIP_URI_BODY.matchPrefix s
theorem reads_ITIP_URI : Pat.reads regex.ITIP_URI Pat.itipUri = true := by decide +kernel
theorem equiv_ITIP_URI : Pat.Equiv (rx regex.ITIP_URI) Rx.itipUri := Pat.toRe_itipUri ▸ (rx_of_reads reads_ITIP_URI).2
@[src] theorem compile_ITIP_URI : methodCall (.module .re) .compile [.str regex.ITIP_URI] = .ok (.regex (rx regex.ITIP_URI)) :=
  compile_ok (rx_of_reads reads_ITIP_URI).1
@[src] theorem full_ITIP_URI (s : Str) : (rx regex.ITIP_URI).fullmatch s = Rx.itipUri.fullmatch s := equiv_ITIP_URI.fullmatch s
@[src] theorem match_ITIP_URI (s : Str) : (rx regex.ITIP_URI).matchPrefix s = Rx.itipUri.matchPrefix s := equiv_ITIP_URI.matchPrefix s
theorem reads_UPUI_URI_BODY : Pat.reads regex.UPUI_URI_BODY Pat.upuiBody = true := by decide +kernel
theorem equiv_UPUI_URI_BODY : Pat.Equiv (rx regex.UPUI_URI_BODY) Rx.upuiBody := Pat.toRe_upuiBody ▸ (rx_of_reads reads_UPUI_URI_BODY).2
@[src] theorem compile_UPUI_URI_BODY : methodCall (.module .re) .compile [.str regex.UPUI_URI_BODY] = .ok (.regex (rx regex.UPUI_URI_BODY)) :=
  compile_ok (rx_of_reads reads_UPUI_URI_BODY).1
@[src] theorem full_UPUI_URI_BODY (s : Str) : (rx regex.UPUI_URI_BODY).fullmatch s = Rx.upuiBody.fullmatch s := equiv_UPUI_URI_BODY.fullmatch s
@[src] theorem match_UPUI_URI_BODY (s : Str) : (rx regex.UPUI_URI_BODY).matchPrefix s = Rx.upuiBody.matchPrefix s := equiv_UPUI_URI_BODY.matchPrefix s
theorem reads_UPUI_URI : Pat.reads regex.UPUI_URI Pat.upuiUri = true := by decide +kernel
theorem equiv_UPUI_URI : Pat.Equiv (rx regex.UPUI_URI) Rx.upuiUri := Pat.toRe_upuiUri ▸ (rx_of_reads reads_UPUI_URI).2
@[src] theorem compile_UPUI_URI : methodCall (.module .re) .compile [.str regex.UPUI_URI] = .ok (.regex (rx regex.UPUI_URI)) :=
  compile_ok (rx_of_reads reads_UPUI_URI).1
@[src] theorem full_UPUI_URI (s : Str) : (rx regex.UPUI_URI).fullmatch s = Rx.upuiUri.fullmatch s := equiv_UPUI_URI.fullmatch s
@[src] theorem match_UPUI_URI (s : Str) : (rx regex.UPUI_URI).matchPrefix s = Rx.upuiUri.matchPrefix s := equiv_UPUI_URI.matchPrefix s
theorem reads_PGLN_URI_BODY : Pat.reads regex.PGLN_URI_BODY Pat.pglnBody = true := by decide +kernel
theorem equiv_PGLN_URI_BODY : Pat.Equiv (rx regex.PGLN_URI_BODY) Rx.pglnBody := Pat.toRe_pglnBody ▸ (rx_of_reads reads_PGLN_URI_BODY).2
@[src] theorem compile_PGLN_URI_BODY : methodCall (.module .re) .compile [.str regex.PGLN_URI_BODY] = .ok (.regex (rx regex.PGLN_URI_BODY)) :=
  compile_ok (rx_of_reads reads_PGLN_URI_BODY).1
@[src] theorem full_PGLN_URI_BODY (s : Str) : (rx regex.PGLN_URI_BODY).fullmatch s = Rx.pglnBody.fullmatch s := equiv_PGLN_URI_BODY.fullmatch s
@[src] theorem match_PGLN_URI_BODY (s : Str) : (rx regex.PGLN_URI_BODY).matchPrefix s = Rx.pglnBody.matchPrefix s := equiv_PGLN_URI_BODY.matchPrefix s
theorem reads_PGLN_URI : Pat.reads regex.PGLN_URI Pat.pglnUri = true := by decide +kernel
theorem equiv_PGLN_URI : Pat.Equiv (rx regex.PGLN_URI) Rx.pglnUri := Pat.toRe_pglnUri ▸ (rx_of_reads reads_PGLN_URI).2
@[src] theorem compile_PGLN_URI : methodCall (.module .re) .compile [.str regex.PGLN_URI] = .ok (.regex (rx regex.PGLN_URI)) :=
  compile_ok (rx_of_reads reads_PGLN_URI).1
@[src] theorem full_PGLN_URI (s : Str) : (rx regex.PGLN_URI).fullmatch s = Rx.pglnUri.fullmatch s := equiv_PGLN_URI.fullmatch s
@[src] theorem match_PGLN_URI (s : Str) : (rx regex.PGLN_URI).matchPrefix s = Rx.pglnUri.matchPrefix s := equiv_PGLN_URI.matchPrefix s
theorem reads_GID_URI_BODY : Pat.reads regex.GID_URI_BODY Pat.gidBody = true := by decide +kernel
theorem equiv_GID_URI_BODY : Pat.Equiv (rx regex.GID_URI_BODY) Rx.gidBody := Pat.toRe_gidBody ▸ (rx_of_reads reads_GID_URI_BODY).2
@[src] theorem compile_GID_URI_BODY : methodCall (.module .re) .compile [.str regex.GID_URI_BODY] = .ok (.regex (rx regex.GID_URI_BODY)) :=
  compile_ok (rx_of_reads reads_GID_URI_BODY).1
@[src] theorem full_GID_URI_BODY (s : Str) : (rx regex.GID_URI_BODY).fullmatch s = Rx.gidBody.fullmatch s := equiv_GID_URI_BODY.fullmatch s
@[src] theorem match_GID_URI_BODY (s : Str) : (rx regex.GID_URI_BODY).matchPrefix s = Rx.gidBody.matchPrefix s := equiv_GID_URI_BODY.matchPrefix s
theorem reads_GID_URI : Pat.reads regex.GID_URI Pat.gidUri = true := by decide +kernel
theorem equiv_GID_URI : Pat.Equiv (rx regex.GID_URI) Rx.gidUri := Pat.toRe_gidUri ▸ (rx_of_reads reads_GID_URI).2
@[src] theorem compile_GID_URI : methodCall (.module .re) .compile [.str regex.GID_URI] = .ok (.regex (rx regex.GID_URI)) :=
  compile_ok (rx_of_reads reads_GID_URI).1
@[src] theorem full_GID_URI (s : Str) : (rx regex.GID_URI).fullmatch s = Rx.gidUri.fullmatch s := equiv_GID_URI.fullmatch s
@[src] theorem match_GID_URI (s : Str) : (rx regex.GID_URI).matchPrefix s = Rx.gidUri.matchPrefix s := equiv_GID_URI.matchPrefix s
theorem reads_CAGE_CODE_OR_DODAAC : Pat.reads regex.CAGE_CODE_OR_DODAAC Pat.cage = true := by decide +kernel
theorem equiv_CAGE_CODE_OR_DODAAC : Pat.Equiv (rx regex.CAGE_CODE_OR_DODAAC) Rx.cage := Pat.toRe_cage ▸ (rx_of_reads reads_CAGE_CODE_OR_DODAAC).2
@[src] theorem compile_CAGE_CODE_OR_DODAAC : methodCall (.module .re) .compile [.str regex.CAGE_CODE_OR_DODAAC] = .ok (.regex (rx regex.CAGE_CODE_OR_DODAAC)) :=
  compile_ok (rx_of_reads reads_CAGE_CODE_OR_DODAAC).1
@[src] theorem full_CAGE_CODE_OR_DODAAC (s : Str) : (rx regex.CAGE_CODE_OR_DODAAC).fullmatch s = Rx.cage.fullmatch s := equiv_CAGE_CODE_OR_DODAAC.fullmatch s
@[src] theorem match_CAGE_CODE_OR_DODAAC (s : Str) : (rx regex.CAGE_CODE_OR_DODAAC).matchPrefix s = Rx.cage.matchPrefix s := equiv_CAGE_CODE_OR_DODAAC.matchPrefix s
theorem reads_USDOD_URI_BODY : Pat.reads regex.USDOD_URI_BODY Pat.usdodBody = true := by decide +kernel
theorem equiv_USDOD_URI_BODY : Pat.Equiv (rx regex.USDOD_URI_BODY) Rx.usdodBody := Pat.toRe_usdodBody ▸ (rx_of_reads reads_USDOD_URI_BODY).2
@[src] theorem compile_USDOD_URI_BODY : methodCall (.module .re) .compile [.str regex.USDOD_URI_BODY] = .ok (.regex (rx regex.USDOD_URI_BODY)) :=
  compile_ok (rx_of_reads reads_USDOD_URI_BODY).1
@[src] theorem full_USDOD_URI_BODY (s : Str) : (rx regex.USDOD_URI_BODY).fullmatch s = Rx.usdodBody.fullmatch s := equiv_USDOD_URI_BODY.fullmatch s
@[src] theorem match_USDOD_URI_BODY (s : Str) : (rx regex.USDOD_URI_BODY).matchPrefix s = Rx.usdodBody.matchPrefix s := equiv_USDOD_URI_BODY.matchPrefix s
theorem reads_USDOD_URI : Pat.reads regex.USDOD_URI Pat.usdodUri = true := by decide +kernel
theorem equiv_USDOD_URI : Pat.Equiv (rx regex.USDOD_URI) Rx.usdodUri := Pat.toRe_usdodUri ▸ (rx_of_reads reads_USDOD_URI).2
@[src] theorem compile_USDOD_URI : methodCall (.module .re) .compile [.str regex.USDOD_URI] = .ok (.regex (rx regex.USDOD_URI)) :=
  compile_ok (rx_of_reads reads_USDOD_URI).1
@[src] theorem full_USDOD_URI (s : Str) : (rx regex.USDOD_URI).fullmatch s = Rx.usdodUri.fullmatch s := equiv_USDOD_URI.fullmatch s
@[src] theorem match_USDOD_URI (s : Str) : (rx regex.USDOD_URI).matchPrefix s = Rx.usdodUri.matchPrefix s := equiv_USDOD_URI.matchPrefix s
theorem reads_ADI_CHAR : Pat.reads regex.ADI_CHAR Pat.adiChar = true := by decide +kernel
theorem equiv_ADI_CHAR : Pat.Equiv (rx regex.ADI_CHAR) Rx.adiChar := Pat.toRe_adiChar ▸ (rx_of_reads reads_ADI_CHAR).2
@[src] theorem compile_ADI_CHAR : methodCall (.module .re) .compile [.str regex.ADI_CHAR] = .ok (.regex (rx regex.ADI_CHAR)) :=
  compile_ok (rx_of_reads reads_ADI_CHAR).1
@[src] theorem full_ADI_CHAR (s : Str) : (rx regex.ADI_CHAR).fullmatch s = Rx.adiChar.fullmatch s := equiv_ADI_CHAR.fullmatch s
@[src] theorem match_ADI_CHAR (s : Str) : (rx regex.ADI_CHAR).matchPrefix s = Rx.adiChar.matchPrefix s := equiv_ADI_CHAR.matchPrefix s
theorem reads_ADI_URI_BODY : Pat.reads regex.ADI_URI_BODY Pat.adiBody = true := by decide +kernel
theorem equiv_ADI_URI_BODY : Pat.Equiv (rx regex.ADI_URI_BODY) Rx.adiBody := Pat.toRe_adiBody ▸ (rx_of_reads reads_ADI_URI_BODY).2
@[src] theorem compile_ADI_URI_BODY : methodCall (.module .re) .compile [.str regex.ADI_URI_BODY] = .ok (.regex (rx regex.ADI_URI_BODY)) :=
  compile_ok (rx_of_reads reads_ADI_URI_BODY).1
@[src] theorem full_ADI_URI_BODY (s : Str) : (rx regex.ADI_URI_BODY).fullmatch s = Rx.adiBody.fullmatch s := equiv_ADI_URI_BODY.fullmatch s
@[src] theorem match_ADI_URI_BODY (s : Str) : (rx regex.ADI_URI_BODY).matchPrefix s = Rx.adiBody.matchPrefix s := equiv_ADI_URI_BODY.matchPrefix s
theorem reads_ADI_URI : Pat.reads regex.ADI_URI Pat.adiUri = true := by decide +kernel
theorem equiv_ADI_URI : Pat.Equiv (rx regex.ADI_URI) Rx.adiUri := Pat.toRe_adiUri ▸ (rx_of_reads reads_ADI_URI).2
@[src] theorem compile_ADI_URI : methodCall (.module .re) .compile [.str regex.ADI_URI] = .ok (.regex (rx regex.ADI_URI)) :=
  compile_ok (rx_of_reads reads_ADI_URI).1
@[src] theorem full_ADI_URI (s : Str) : (rx regex.ADI_URI).fullmatch s = Rx.adiUri.fullmatch s := equiv_ADI_URI.fullmatch s
@[src] theorem match_ADI_URI (s : Str) : (rx regex.ADI_URI).matchPrefix s = Rx.adiUri.matchPrefix s := equiv_ADI_URI.matchPrefix s
theorem reads_BIC_URI_BODY : Pat.reads regex.BIC_URI_BODY Pat.bicBody = true := by decide +kernel
theorem equiv_BIC_URI_BODY : Pat.Equiv (rx regex.BIC_URI_BODY) Rx.bicBody := Pat.toRe_bicBody ▸ (rx_of_reads reads_BIC_URI_BODY).2
@[src] theorem compile_BIC_URI_BODY : methodCall (.module .re) .compile [.str regex.BIC_URI_BODY] = .ok (.regex (rx regex.BIC_URI_BODY)) :=
  compile_ok (rx_of_reads reads_BIC_URI_BODY).1
@[src] theorem full_BIC_URI_BODY (s : Str) : (rx regex.BIC_URI_BODY).fullmatch s = Rx.bicBody.fullmatch s := equiv_BIC_URI_BODY.fullmatch s
@[src] theorem match_BIC_URI_BODY (s : Str) : (rx regex.BIC_URI_BODY).matchPrefix s = Rx.bicBody.matchPrefix s := equiv_BIC_URI_BODY.matchPrefix s
theorem reads_BIC_URI : Pat.reads regex.BIC_URI Pat.bicUri = true := by decide +kernel
theorem equiv_BIC_URI : Pat.Equiv (rx regex.BIC_URI) Rx.bicUri := Pat.toRe_bicUri ▸ (rx_of_reads reads_BIC_URI).2
@[src] theorem compile_BIC_URI : methodCall (.module .re) .compile [.str regex.BIC_URI] = .ok (.regex (rx regex.BIC_URI)) :=
  compile_ok (rx_of_reads reads_BIC_URI).1
@[src] theorem full_BIC_URI (s : Str) : (rx regex.BIC_URI).fullmatch s = Rx.bicUri.fullmatch s := equiv_BIC_URI.fullmatch s
@[src] theorem match_BIC_URI (s : Str) : (rx regex.BIC_URI).matchPrefix s = Rx.bicUri.matchPrefix s := equiv_BIC_URI.matchPrefix s
theorem reads_IMOVN_URI_BODY : Pat.reads regex.IMOVN_URI_BODY Pat.imovnBody = true := by decide +kernel
theorem equiv_IMOVN_URI_BODY : Pat.Equiv (rx regex.IMOVN_URI_BODY) Rx.imovnBody := Pat.toRe_imovnBody ▸ (rx_of_reads reads_IMOVN_URI_BODY).2
@[src] theorem compile_IMOVN_URI_BODY : methodCall (.module .re) .compile [.str regex.IMOVN_URI_BODY] = .ok (.regex (rx regex.IMOVN_URI_BODY)) :=
  compile_ok (rx_of_reads reads_IMOVN_URI_BODY).1
@[src] theorem full_IMOVN_URI_BODY (s : Str) : (rx regex.IMOVN_URI_BODY).fullmatch s = Rx.imovnBody.fullmatch s := equiv_IMOVN_URI_BODY.fullmatch s
@[src] theorem match_IMOVN_URI_BODY (s : Str) : (rx regex.IMOVN_URI_BODY).matchPrefix s = Rx.imovnBody.matchPrefix s := equiv_IMOVN_URI_BODY.matchPrefix s
theorem reads_IMOVN_URI : Pat.reads regex.IMOVN_URI Pat.imovnUri = true := by decide +kernel
theorem equiv_IMOVN_URI : Pat.Equiv (rx regex.IMOVN_URI) Rx.imovnUri := Pat.toRe_imovnUri ▸ (rx_of_reads reads_IMOVN_URI).2
@[src] theorem compile_IMOVN_URI : methodCall (.module .re) .compile [.str regex.IMOVN_URI] = .ok (.regex (rx regex.IMOVN_URI)) :=
  compile_ok (rx_of_reads reads_IMOVN_URI).1
@[src] theorem full_IMOVN_URI (s : Str) : (rx regex.IMOVN_URI).fullmatch s = Rx.imovnUri.fullmatch s := equiv_IMOVN_URI.fullmatch s
@[src] theorem match_IMOVN_URI (s : Str) : (rx regex.IMOVN_URI).matchPrefix s = Rx.imovnUri.matchPrefix s := equiv_IMOVN_URI.matchPrefix s
theorem reads_LGTIN_CLASS : Pat.reads regex.LGTIN_CLASS Pat.lgtinClass = true := by decide +kernel
theorem equiv_LGTIN_CLASS : Pat.Equiv (rx regex.LGTIN_CLASS) Rx.lgtinClass := Pat.toRe_lgtinClass ▸ (rx_of_reads reads_LGTIN_CLASS).2
@[src] theorem compile_LGTIN_CLASS : methodCall (.module .re) .compile [.str regex.LGTIN_CLASS] = .ok (.regex (rx regex.LGTIN_CLASS)) :=
  compile_ok (rx_of_reads reads_LGTIN_CLASS).1
@[src] theorem full_LGTIN_CLASS (s : Str) : (rx regex.LGTIN_CLASS).fullmatch s = Rx.lgtinClass.fullmatch s := equiv_LGTIN_CLASS.fullmatch s
@[src] theorem match_LGTIN_CLASS (s : Str) : (rx regex.LGTIN_CLASS).matchPrefix s = Rx.lgtinClass.matchPrefix s := equiv_LGTIN_CLASS.matchPrefix s
theorem reads_EPC_URI : Pat.reads regex.EPC_URI Pat.epcUri = true := by decide +kernel
theorem equiv_EPC_URI : Pat.Equiv (rx regex.EPC_URI) Rx.epcUri := Pat.toRe_epcUri ▸ (rx_of_reads reads_EPC_URI).2
@[src] theorem compile_EPC_URI : methodCall (.module .re) .compile [.str regex.EPC_URI] = .ok (.regex (rx regex.EPC_URI)) :=
  compile_ok (rx_of_reads reads_EPC_URI).1
@[src] theorem full_EPC_URI (s : Str) : (rx regex.EPC_URI).fullmatch s = Rx.epcUri.fullmatch s := equiv_EPC_URI.fullmatch s
@[src] theorem match_EPC_URI (s : Str) : (rx regex.EPC_URI).matchPrefix s = Rx.epcUri.matchPrefix s := equiv_EPC_URI.matchPrefix s
theorem reads_IDPAT_BODY : Pat.reads regex.IDPAT_BODY Pat.idpatBody = true := by decide +kernel
theorem equiv_IDPAT_BODY : Pat.Equiv (rx regex.IDPAT_BODY) Rx.idpatBody := Pat.toRe_idpatBody ▸ (rx_of_reads reads_IDPAT_BODY).2
@[src] theorem compile_IDPAT_BODY : methodCall (.module .re) .compile [.str regex.IDPAT_BODY] = .ok (.regex (rx regex.IDPAT_BODY)) :=
  compile_ok (rx_of_reads reads_IDPAT_BODY).1
@[src] theorem full_IDPAT_BODY (s : Str) : (rx regex.IDPAT_BODY).fullmatch s = Rx.idpatBody.fullmatch s := equiv_IDPAT_BODY.fullmatch s
@[src] theorem match_IDPAT_BODY (s : Str) : (rx regex.IDPAT_BODY).matchPrefix s = Rx.idpatBody.matchPrefix s := equiv_IDPAT_BODY.matchPrefix s
theorem reads_IDPAT_URI : Pat.reads regex.IDPAT_URI Pat.idpatUri = true := by decide +kernel
theorem equiv_IDPAT_URI : Pat.Equiv (rx regex.IDPAT_URI) Rx.idpatUri := Pat.toRe_idpatUri ▸ (rx_of_reads reads_IDPAT_URI).2
@[src] theorem compile_IDPAT_URI : methodCall (.module .re) .compile [.str regex.IDPAT_URI] = .ok (.regex (rx regex.IDPAT_URI)) :=
  compile_ok (rx_of_reads reads_IDPAT_URI).1
@[src] theorem full_IDPAT_URI (s : Str) : (rx regex.IDPAT_URI).fullmatch s = Rx.idpatUri.fullmatch s := equiv_IDPAT_URI.fullmatch s
@[src] theorem match_IDPAT_URI (s : Str) : (rx regex.IDPAT_URI).matchPrefix s = Rx.idpatUri.matchPrefix s := equiv_IDPAT_URI.matchPrefix s
theorem reads_TAG_URI_BODY : Pat.reads regex.TAG_URI_BODY Pat.tagBody = true := by decide +kernel
theorem equiv_TAG_URI_BODY : Pat.Equiv (rx regex.TAG_URI_BODY) Rx.tagBody := Pat.toRe_tagBody ▸ (rx_of_reads reads_TAG_URI_BODY).2
@[src] theorem compile_TAG_URI_BODY : methodCall (.module .re) .compile [.str regex.TAG_URI_BODY] = .ok (.regex (rx regex.TAG_URI_BODY)) :=
  compile_ok (rx_of_reads reads_TAG_URI_BODY).1
@[src] theorem full_TAG_URI_BODY (s : Str) : (rx regex.TAG_URI_BODY).fullmatch s = Rx.tagBody.fullmatch s := equiv_TAG_URI_BODY.fullmatch s
@[src] theorem match_TAG_URI_BODY (s : Str) : (rx regex.TAG_URI_BODY).matchPrefix s = Rx.tagBody.matchPrefix s := equiv_TAG_URI_BODY.matchPrefix s
theorem reads_TAG_URI : Pat.reads regex.TAG_URI Pat.tagUri = true := by decide +kernel
theorem equiv_TAG_URI : Pat.Equiv (rx regex.TAG_URI) Rx.tagUri := Pat.toRe_tagUri ▸ (rx_of_reads reads_TAG_URI).2
@[src] theorem compile_TAG_URI : methodCall (.module .re) .compile [.str regex.TAG_URI] = .ok (.regex (rx regex.TAG_URI)) :=
  compile_ok (rx_of_reads reads_TAG_URI).1
@[src] theorem full_TAG_URI (s : Str) : (rx regex.TAG_URI).fullmatch s = Rx.tagUri.fullmatch s := equiv_TAG_URI.fullmatch s
@[src] theorem match_TAG_URI (s : Str) : (rx regex.TAG_URI).matchPrefix s = Rx.tagUri.matchPrefix s := equiv_TAG_URI.matchPrefix s
theorem reads_SGTIN_GS1_ELEMENT_STRING : Pat.reads regex.SGTIN_GS1_ELEMENT_STRING Pat.sgtinElem = true := by decide +kernel
theorem equiv_SGTIN_GS1_ELEMENT_STRING : Pat.Equiv (rx regex.SGTIN_GS1_ELEMENT_STRING) Rx.sgtinElem := Pat.toRe_sgtinElem ▸ (rx_of_reads reads_SGTIN_GS1_ELEMENT_STRING).2
@[src] theorem compile_SGTIN_GS1_ELEMENT_STRING : methodCall (.module .re) .compile [.str regex.SGTIN_GS1_ELEMENT_STRING] = .ok (.regex (rx regex.SGTIN_GS1_ELEMENT_STRING)) :=
  compile_ok (rx_of_reads reads_SGTIN_GS1_ELEMENT_STRING).1
@[src] theorem full_SGTIN_GS1_ELEMENT_STRING (s : Str) : (rx regex.SGTIN_GS1_ELEMENT_STRING).fullmatch s = Rx.sgtinElem.fullmatch s := equiv_SGTIN_GS1_ELEMENT_STRING.fullmatch s
@[src] theorem match_SGTIN_GS1_ELEMENT_STRING (s : Str) : (rx regex.SGTIN_GS1_ELEMENT_STRING).matchPrefix s = Rx.sgtinElem.matchPrefix s := equiv_SGTIN_GS1_ELEMENT_STRING.matchPrefix s
theorem reads_SSCC_GS1_ELEMENT_STRING : Pat.reads regex.SSCC_GS1_ELEMENT_STRING Pat.ssccElem = true := by decide +kernel
theorem equiv_SSCC_GS1_ELEMENT_STRING : Pat.Equiv (rx regex.SSCC_GS1_ELEMENT_STRING) Rx.ssccElem := Pat.toRe_ssccElem ▸ (rx_of_reads reads_SSCC_GS1_ELEMENT_STRING).2
@[src] theorem compile_SSCC_GS1_ELEMENT_STRING : methodCall (.module .re) .compile [.str regex.SSCC_GS1_ELEMENT_STRING] = .ok (.regex (rx regex.SSCC_GS1_ELEMENT_STRING)) :=
  compile_ok (rx_of_reads reads_SSCC_GS1_ELEMENT_STRING).1
@[src] theorem full_SSCC_GS1_ELEMENT_STRING (s : Str) : (rx regex.SSCC_GS1_ELEMENT_STRING).fullmatch s = Rx.ssccElem.fullmatch s := equiv_SSCC_GS1_ELEMENT_STRING.fullmatch s
@[src] theorem match_SSCC_GS1_ELEMENT_STRING (s : Str) : (rx regex.SSCC_GS1_ELEMENT_STRING).matchPrefix s = Rx.ssccElem.matchPrefix s := equiv_SSCC_GS1_ELEMENT_STRING.matchPrefix s
theorem reads_SGLN_GS1_ELEMENT_STRING : Pat.reads regex.SGLN_GS1_ELEMENT_STRING Pat.sglnElem = true := by decide +kernel
theorem equiv_SGLN_GS1_ELEMENT_STRING : Pat.Equiv (rx regex.SGLN_GS1_ELEMENT_STRING) Rx.sglnElem := Pat.toRe_sglnElem ▸ (rx_of_reads reads_SGLN_GS1_ELEMENT_STRING).2
@[src] theorem compile_SGLN_GS1_ELEMENT_STRING : methodCall (.module .re) .compile [.str regex.SGLN_GS1_ELEMENT_STRING] = .ok (.regex (rx regex.SGLN_GS1_ELEMENT_STRING)) :=
  compile_ok (rx_of_reads reads_SGLN_GS1_ELEMENT_STRING).1
@[src] theorem full_SGLN_GS1_ELEMENT_STRING (s : Str) : (rx regex.SGLN_GS1_ELEMENT_STRING).fullmatch s = Rx.sglnElem.fullmatch s := equiv_SGLN_GS1_ELEMENT_STRING.fullmatch s
@[src] theorem match_SGLN_GS1_ELEMENT_STRING (s : Str) : (rx regex.SGLN_GS1_ELEMENT_STRING).matchPrefix s = Rx.sglnElem.matchPrefix s := equiv_SGLN_GS1_ELEMENT_STRING.matchPrefix s
theorem reads_GRAI_GS1_ELEMENT_STRING : Pat.reads regex.GRAI_GS1_ELEMENT_STRING Pat.graiElem = true := by decide +kernel
theorem equiv_GRAI_GS1_ELEMENT_STRING : Pat.Equiv (rx regex.GRAI_GS1_ELEMENT_STRING) Rx.graiElem := Pat.toRe_graiElem ▸ (rx_of_reads reads_GRAI_GS1_ELEMENT_STRING).2
@[src] theorem compile_GRAI_GS1_ELEMENT_STRING : methodCall (.module .re) .compile [.str regex.GRAI_GS1_ELEMENT_STRING] = .ok (.regex (rx regex.GRAI_GS1_ELEMENT_STRING)) :=
  compile_ok (rx_of_reads reads_GRAI_GS1_ELEMENT_STRING).1
@[src] theorem full_GRAI_GS1_ELEMENT_STRING (s : Str) : (rx regex.GRAI_GS1_ELEMENT_STRING).fullmatch s = Rx.graiElem.fullmatch s := equiv_GRAI_GS1_ELEMENT_STRING.fullmatch s
@[src] theorem match_GRAI_GS1_ELEMENT_STRING (s : Str) : (rx regex.GRAI_GS1_ELEMENT_STRING).matchPrefix s = Rx.graiElem.matchPrefix s := equiv_GRAI_GS1_ELEMENT_STRING.matchPrefix s
theorem reads_GIAI_GS1_ELEMENT_STRING : Pat.reads regex.GIAI_GS1_ELEMENT_STRING Pat.giaiElem = true := by decide +kernel
theorem equiv_GIAI_GS1_ELEMENT_STRING : Pat.Equiv (rx regex.GIAI_GS1_ELEMENT_STRING) Rx.giaiElem := Pat.toRe_giaiElem ▸ (rx_of_reads reads_GIAI_GS1_ELEMENT_STRING).2
@[src] theorem compile_GIAI_GS1_ELEMENT_STRING : methodCall (.module .re) .compile [.str regex.GIAI_GS1_ELEMENT_STRING] = .ok (.regex (rx regex.GIAI_GS1_ELEMENT_STRING)) :=
  compile_ok (rx_of_reads reads_GIAI_GS1_ELEMENT_STRING).1
@[src] theorem full_GIAI_GS1_ELEMENT_STRING (s : Str) : (rx regex.GIAI_GS1_ELEMENT_STRING).fullmatch s = Rx.giaiElem.fullmatch s := equiv_GIAI_GS1_ELEMENT_STRING.fullmatch s
@[src] theorem match_GIAI_GS1_ELEMENT_STRING (s : Str) : (rx regex.GIAI_GS1_ELEMENT_STRING).matchPrefix s = Rx.giaiElem.matchPrefix s := equiv_GIAI_GS1_ELEMENT_STRING.matchPrefix s
theorem reads_GSRN_GS1_ELEMENT_STRING : Pat.reads regex.GSRN_GS1_ELEMENT_STRING Pat.gsrnElem = true := by decide +kernel
theorem equiv_GSRN_GS1_ELEMENT_STRING : Pat.Equiv (rx regex.GSRN_GS1_ELEMENT_STRING) Rx.gsrnElem := Pat.toRe_gsrnElem ▸ (rx_of_reads reads_GSRN_GS1_ELEMENT_STRING).2
@[src] theorem compile_GSRN_GS1_ELEMENT_STRING : methodCall (.module .re) .compile [.str regex.GSRN_GS1_ELEMENT_STRING] = .ok (.regex (rx regex.GSRN_GS1_ELEMENT_STRING)) :=
  compile_ok (rx_of_reads reads_GSRN_GS1_ELEMENT_STRING).1
@[src] theorem full_GSRN_GS1_ELEMENT_STRING (s : Str) : (rx regex.GSRN_GS1_ELEMENT_STRING).fullmatch s = Rx.gsrnElem.fullmatch s := equiv_GSRN_GS1_ELEMENT_STRING.fullmatch s
@[src] theorem match_GSRN_GS1_ELEMENT_STRING (s : Str) : (rx regex.GSRN_GS1_ELEMENT_STRING).matchPrefix s = Rx.gsrnElem.matchPrefix s := equiv_GSRN_GS1_ELEMENT_STRING.matchPrefix s
theorem reads_GSRNP_GS1_ELEMENT_STRING : Pat.reads regex.GSRNP_GS1_ELEMENT_STRING Pat.gsrnpElem = true := by decide +kernel
theorem equiv_GSRNP_GS1_ELEMENT_STRING : Pat.Equiv (rx regex.GSRNP_GS1_ELEMENT_STRING) Rx.gsrnpElem := Pat.toRe_gsrnpElem ▸ (rx_of_reads reads_GSRNP_GS1_ELEMENT_STRING).2
@[src] theorem compile_GSRNP_GS1_ELEMENT_STRING : methodCall (.module .re) .compile [.str regex.GSRNP_GS1_ELEMENT_STRING] = .ok (.regex (rx regex.GSRNP_GS1_ELEMENT_STRING)) :=
  compile_ok (rx_of_reads reads_GSRNP_GS1_ELEMENT_STRING).1
@[src] theorem full_GSRNP_GS1_ELEMENT_STRING (s : Str) : (rx regex.GSRNP_GS1_ELEMENT_STRING).fullmatch s = Rx.gsrnpElem.fullmatch s := equiv_GSRNP_GS1_ELEMENT_STRING.fullmatch s
@[src] theorem match_GSRNP_GS1_ELEMENT_STRING (s : Str) : (rx regex.GSRNP_GS1_ELEMENT_STRING).matchPrefix s = Rx.gsrnpElem.matchPrefix s := equiv_GSRNP_GS1_ELEMENT_STRING.matchPrefix s
theorem reads_GDTI_GS1_ELEMENT_STRING : Pat.reads regex.GDTI_GS1_ELEMENT_STRING Pat.gdtiElem = true := by decide +kernel
theorem equiv_GDTI_GS1_ELEMENT_STRING : Pat.Equiv (rx regex.GDTI_GS1_ELEMENT_STRING) Rx.gdtiElem := Pat.toRe_gdtiElem ▸ (rx_of_reads reads_GDTI_GS1_ELEMENT_STRING).2
@[src] theorem compile_GDTI_GS1_ELEMENT_STRING : methodCall (.module .re) .compile [.str regex.GDTI_GS1_ELEMENT_STRING] = .ok (.regex (rx regex.GDTI_GS1_ELEMENT_STRING)) :=
  compile_ok (rx_of_reads reads_GDTI_GS1_ELEMENT_STRING).1
@[src] theorem full_GDTI_GS1_ELEMENT_STRING (s : Str) : (rx regex.GDTI_GS1_ELEMENT_STRING).fullmatch s = Rx.gdtiElem.fullmatch s := equiv_GDTI_GS1_ELEMENT_STRING.fullmatch s
@[src] theorem match_GDTI_GS1_ELEMENT_STRING (s : Str) : (rx regex.GDTI_GS1_ELEMENT_STRING).matchPrefix s = Rx.gdtiElem.matchPrefix s := equiv_GDTI_GS1_ELEMENT_STRING.matchPrefix s
theorem reads_CPI_GS1_ELEMENT_STRING : Pat.reads regex.CPI_GS1_ELEMENT_STRING Pat.cpiElem = true := by decide +kernel
theorem equiv_CPI_GS1_ELEMENT_STRING : Pat.Equiv (rx regex.CPI_GS1_ELEMENT_STRING) Rx.cpiElem := Pat.toRe_cpiElem ▸ (rx_of_reads reads_CPI_GS1_ELEMENT_STRING).2
@[src] theorem compile_CPI_GS1_ELEMENT_STRING : methodCall (.module .re) .compile [.str regex.CPI_GS1_ELEMENT_STRING] = .ok (.regex (rx regex.CPI_GS1_ELEMENT_STRING)) :=
  compile_ok (rx_of_reads reads_CPI_GS1_ELEMENT_STRING).1
@[src] theorem full_CPI_GS1_ELEMENT_STRING (s : Str) : (rx regex.CPI_GS1_ELEMENT_STRING).fullmatch s = Rx.cpiElem.fullmatch s := equiv_CPI_GS1_ELEMENT_STRING.fullmatch s
@[src] theorem match_CPI_GS1_ELEMENT_STRING (s : Str) : (rx regex.CPI_GS1_ELEMENT_STRING).matchPrefix s = Rx.cpiElem.matchPrefix s := equiv_CPI_GS1_ELEMENT_STRING.matchPrefix s
theorem reads_SGCN_GS1_ELEMENT_STRING : Pat.reads regex.SGCN_GS1_ELEMENT_STRING Pat.sgcnElem = true := by decide +kernel
theorem equiv_SGCN_GS1_ELEMENT_STRING : Pat.Equiv (rx regex.SGCN_GS1_ELEMENT_STRING) Rx.sgcnElem := Pat.toRe_sgcnElem ▸ (rx_of_reads reads_SGCN_GS1_ELEMENT_STRING).2
@[src] theorem compile_SGCN_GS1_ELEMENT_STRING : methodCall (.module .re) .compile [.str regex.SGCN_GS1_ELEMENT_STRING] = .ok (.regex (rx regex.SGCN_GS1_ELEMENT_STRING)) :=
  compile_ok (rx_of_reads reads_SGCN_GS1_ELEMENT_STRING).1
@[src] theorem full_SGCN_GS1_ELEMENT_STRING (s : Str) : (rx regex.SGCN_GS1_ELEMENT_STRING).fullmatch s = Rx.sgcnElem.fullmatch s := equiv_SGCN_GS1_ELEMENT_STRING.fullmatch s
@[src] theorem match_SGCN_GS1_ELEMENT_STRING (s : Str) : (rx regex.SGCN_GS1_ELEMENT_STRING).matchPrefix s = Rx.sgcnElem.matchPrefix s := equiv_SGCN_GS1_ELEMENT_STRING.matchPrefix s
theorem reads_GINC_GS1_ELEMENT_STRING : Pat.reads regex.GINC_GS1_ELEMENT_STRING Pat.gincElem = true := by decide +kernel
theorem equiv_GINC_GS1_ELEMENT_STRING : Pat.Equiv (rx regex.GINC_GS1_ELEMENT_STRING) Rx.gincElem := Pat.toRe_gincElem ▸ (rx_of_reads reads_GINC_GS1_ELEMENT_STRING).2
@[src] theorem compile_GINC_GS1_ELEMENT_STRING : methodCall (.module .re) .compile [.str regex.GINC_GS1_ELEMENT_STRING] = .ok (.regex (rx regex.GINC_GS1_ELEMENT_STRING)) :=
  compile_ok (rx_of_reads reads_GINC_GS1_ELEMENT_STRING).1
@[src] theorem full_GINC_GS1_ELEMENT_STRING (s : Str) : (rx regex.GINC_GS1_ELEMENT_STRING).fullmatch s = Rx.gincElem.fullmatch s := equiv_GINC_GS1_ELEMENT_STRING.fullmatch s
@[src] theorem match_GINC_GS1_ELEMENT_STRING (s : Str) : (rx regex.GINC_GS1_ELEMENT_STRING).matchPrefix s = Rx.gincElem.matchPrefix s := equiv_GINC_GS1_ELEMENT_STRING.matchPrefix s
theorem reads_GSIN_GS1_ELEMENT_STRING : Pat.reads regex.GSIN_GS1_ELEMENT_STRING Pat.gsinElem = true := by decide +kernel
theorem equiv_GSIN_GS1_ELEMENT_STRING : Pat.Equiv (rx regex.GSIN_GS1_ELEMENT_STRING) Rx.gsinElem := Pat.toRe_gsinElem ▸ (rx_of_reads reads_GSIN_GS1_ELEMENT_STRING).2
@[src] theorem compile_GSIN_GS1_ELEMENT_STRING : methodCall (.module .re) .compile [.str regex.GSIN_GS1_ELEMENT_STRING] = .ok (.regex (rx regex.GSIN_GS1_ELEMENT_STRING)) :=
  compile_ok (rx_of_reads reads_GSIN_GS1_ELEMENT_STRING).1
@[src] theorem full_GSIN_GS1_ELEMENT_STRING (s : Str) : (rx regex.GSIN_GS1_ELEMENT_STRING).fullmatch s = Rx.gsinElem.fullmatch s := equiv_GSIN_GS1_ELEMENT_STRING.fullmatch s
@[src] theorem match_GSIN_GS1_ELEMENT_STRING (s : Str) : (rx regex.GSIN_GS1_ELEMENT_STRING).matchPrefix s = Rx.gsinElem.matchPrefix s := equiv_GSIN_GS1_ELEMENT_STRING.matchPrefix s
theorem reads_ITIP_GS1_ELEMENT_STRING : Pat.reads regex.ITIP_GS1_ELEMENT_STRING Pat.itipElem = true := by decide +kernel
theorem equiv_ITIP_GS1_ELEMENT_STRING : Pat.Equiv (rx regex.ITIP_GS1_ELEMENT_STRING) Rx.itipElem := Pat.toRe_itipElem ▸ (rx_of_reads reads_ITIP_GS1_ELEMENT_STRING).2
@[src] theorem compile_ITIP_GS1_ELEMENT_STRING : methodCall (.module .re) .compile [.str regex.ITIP_GS1_ELEMENT_STRING] = .ok (.regex (rx regex.ITIP_GS1_ELEMENT_STRING)) :=
  compile_ok (rx_of_reads reads_ITIP_GS1_ELEMENT_STRING).1
@[src] theorem full_ITIP_GS1_ELEMENT_STRING (s : Str) : (rx regex.ITIP_GS1_ELEMENT_STRING).fullmatch s = Rx.itipElem.fullmatch s := equiv_ITIP_GS1_ELEMENT_STRING.fullmatch s
@[src] theorem match_ITIP_GS1_ELEMENT_STRING (s : Str) : (rx regex.ITIP_GS1_ELEMENT_STRING).matchPrefix s = Rx.itipElem.matchPrefix s := equiv_ITIP_GS1_ELEMENT_STRING.matchPrefix s
theorem reads_UPUI_GS1_ELEMENT_STRING : Pat.reads regex.UPUI_GS1_ELEMENT_STRING Pat.upuiElem = true := by decide +kernel
theorem equiv_UPUI_GS1_ELEMENT_STRING : Pat.Equiv (rx regex.UPUI_GS1_ELEMENT_STRING) Rx.upuiElem := Pat.toRe_upuiElem ▸ (rx_of_reads reads_UPUI_GS1_ELEMENT_STRING).2
@[src] theorem compile_UPUI_GS1_ELEMENT_STRING : methodCall (.module .re) .compile [.str regex.UPUI_GS1_ELEMENT_STRING] = .ok (.regex (rx regex.UPUI_GS1_ELEMENT_STRING)) :=
  compile_ok (rx_of_reads reads_UPUI_GS1_ELEMENT_STRING).1
@[src] theorem full_UPUI_GS1_ELEMENT_STRING (s : Str) : (rx regex.UPUI_GS1_ELEMENT_STRING).fullmatch s = Rx.upuiElem.fullmatch s := equiv_UPUI_GS1_ELEMENT_STRING.fullmatch s
@[src] theorem match_UPUI_GS1_ELEMENT_STRING (s : Str) : (rx regex.UPUI_GS1_ELEMENT_STRING).matchPrefix s = Rx.upuiElem.matchPrefix s := equiv_UPUI_GS1_ELEMENT_STRING.matchPrefix s
theorem reads_PGLN_GS1_ELEMENT_STRING : Pat.reads regex.PGLN_GS1_ELEMENT_STRING Pat.pglnElem = true := by decide +kernel
theorem equiv_PGLN_GS1_ELEMENT_STRING : Pat.Equiv (rx regex.PGLN_GS1_ELEMENT_STRING) Rx.pglnElem := Pat.toRe_pglnElem ▸ (rx_of_reads reads_PGLN_GS1_ELEMENT_STRING).2
@[src] theorem compile_PGLN_GS1_ELEMENT_STRING : methodCall (.module .re) .compile [.str regex.PGLN_GS1_ELEMENT_STRING] = .ok (.regex (rx regex.PGLN_GS1_ELEMENT_STRING)) :=
  compile_ok (rx_of_reads reads_PGLN_GS1_ELEMENT_STRING).1
@[src] theorem full_PGLN_GS1_ELEMENT_STRING (s : Str) : (rx regex.PGLN_GS1_ELEMENT_STRING).fullmatch s = Rx.pglnElem.fullmatch s := equiv_PGLN_GS1_ELEMENT_STRING.fullmatch s
@[src] theorem match_PGLN_GS1_ELEMENT_STRING (s : Str) : (rx regex.PGLN_GS1_ELEMENT_STRING).matchPrefix s = Rx.pglnElem.matchPrefix s := equiv_PGLN_GS1_ELEMENT_STRING.matchPrefix s
theorem reads_LGTIN_GS1_ELEMENT_STRING : Pat.reads regex.LGTIN_GS1_ELEMENT_STRING Pat.lgtinElem = true := by decide +kernel
theorem equiv_LGTIN_GS1_ELEMENT_STRING : Pat.Equiv (rx regex.LGTIN_GS1_ELEMENT_STRING) Rx.lgtinElem := Pat.toRe_lgtinElem ▸ (rx_of_reads reads_LGTIN_GS1_ELEMENT_STRING).2
@[src] theorem compile_LGTIN_GS1_ELEMENT_STRING : methodCall (.module .re) .compile [.str regex.LGTIN_GS1_ELEMENT_STRING] = .ok (.regex (rx regex.LGTIN_GS1_ELEMENT_STRING)) :=
  compile_ok (rx_of_reads reads_LGTIN_GS1_ELEMENT_STRING).1
@[src] theorem full_LGTIN_GS1_ELEMENT_STRING (s : Str) : (rx regex.LGTIN_GS1_ELEMENT_STRING).fullmatch s = Rx.lgtinElem.fullmatch s := equiv_LGTIN_GS1_ELEMENT_STRING.fullmatch s
@[src] theorem match_LGTIN_GS1_ELEMENT_STRING (s : Str) : (rx regex.LGTIN_GS1_ELEMENT_STRING).matchPrefix s = Rx.lgtinElem.matchPrefix s := equiv_LGTIN_GS1_ELEMENT_STRING.matchPrefix s
theorem reads_GS1_ELEMENT_STRING : Pat.reads regex.GS1_ELEMENT_STRING Pat.gs1Elem = true := by decide +kernel
theorem equiv_GS1_ELEMENT_STRING : Pat.Equiv (rx regex.GS1_ELEMENT_STRING) Rx.gs1Elem := Pat.toRe_gs1Elem ▸ (rx_of_reads reads_GS1_ELEMENT_STRING).2
@[src] theorem compile_GS1_ELEMENT_STRING : methodCall (.module .re) .compile [.str regex.GS1_ELEMENT_STRING] = .ok (.regex (rx regex.GS1_ELEMENT_STRING)) :=
  compile_ok (rx_of_reads reads_GS1_ELEMENT_STRING).1
@[src] theorem full_GS1_ELEMENT_STRING (s : Str) : (rx regex.GS1_ELEMENT_STRING).fullmatch s = Rx.gs1Elem.fullmatch s := equiv_GS1_ELEMENT_STRING.fullmatch s
@[src] theorem match_GS1_ELEMENT_STRING (s : Str) : (rx regex.GS1_ELEMENT_STRING).matchPrefix s = Rx.gs1Elem.matchPrefix s := equiv_GS1_ELEMENT_STRING.matchPrefix s



end Epc.Src
