/-
Model of /repo/epcpy/utils/regex.py, constant by constant.  Character classes written with single
characters are listed as such; `\d` is any Unicode decimal digit (`isDecimal`).
-/
import Verif.Model.Common

namespace Epc.Rx
open Re

/-- Class `[A-Z]`. -/
def isUpperA (c : Char) : Bool := decide ('A' ≤ c) && decide (c ≤ 'Z')

/-- Class `[0-9A-Z-]`.  /repo/epcpy/utils/regex.py:2, 70 -/
def isCprefPlain (c : Char) : Bool := isDigitA c || isUpperA c || c == '-'

/-- Class `[0-9A-HJ-NP-Z]`.  /repo/epcpy/utils/regex.py:66 -/
def isCage (c : Char) : Bool := isDigitA c || (isUpperA c && c != 'I' && c != 'O')

/-- Class `[A-HJ-NP-Z]`.  /repo/epcpy/utils/regex.py:74 -/
def isBicOwner (c : Char) : Bool := isUpperA c && c != 'I' && c != 'O'

/-- Class `[0-9A-Z\/\-\#]`.  /repo/epcpy/utils/regex.py:10 -/
def isCpiElem (c : Char) : Bool := isDigitA c || isUpperA c || c == '/' || c == '-' || c == '#'

/-- `\.` -/
def dot : Re := Re.chr '.'
/-- `\*` -/
def ast : Re := Re.chr '*'

/-- `CPREF_COMPONENT`.  /repo/epcpy/utils/regex.py:2 -/
def cpref : Re := plus (alts [.cls isCprefPlain, lit (py "%2F"), lit (py "%23")])
/-- `NUMERIC_COMPONENT`.  /repo/epcpy/utils/regex.py:3 -/
def numeric : Re :=
  alts [lit (py "0"), .seq (.cls (fun c => isDigitA c && c != '0')) (.star (.cls isDecimal))]
/-- `GS3A3_CHAR`: a percent sign with *one* hexadecimal digit, or a plain character.
/repo/epcpy/utils/regex.py:4 -/
def gs3a3Char : Re := .alt (.seq (Re.chr '%') (.cls isHexA)) (.cls isGs3a3Plain)
/-- `GS3A3_COMPONENT`.  /repo/epcpy/utils/regex.py:5 -/
def gs3a3 : Re := plus gs3a3Char
/-- `PADDED_NUMERIC_COMPONENT`.  /repo/epcpy/utils/regex.py:6 -/
def padded : Re := plus (.cls isDecimal)
/-- `PADDED_NUMERIC_COMPONENT_OR_EMPTY`.  /repo/epcpy/utils/regex.py:7 -/
def paddedOrEmpty : Re := .star (.cls isDecimal)
/-- `GS1_ELEM_CHARS`.  /repo/epcpy/utils/regex.py:9 -/
def elemChar : Re := .cls isGs3a3Any
/-- `GS1_ELEM_CHARS_CPI`.  /repo/epcpy/utils/regex.py:10 -/
def elemCharCpi : Re := .cls isCpiElem
/-- `DIGIT`.  /repo/epcpy/utils/regex.py:11 -/
def digit : Re := .cls isDecimal

/-- `a\.b` -/
def dotted2 (a b : Re) : Re := seqs [a, dot, b]
/-- `a\.b\.c` -/
def dotted3 (a b c : Re) : Re := seqs [a, dot, b, dot, c]

/-- `SGTIN_URI_BODY`.  /repo/epcpy/utils/regex.py:16-18 -/
def sgtinBody : Re := dotted3 padded padded gs3a3
/-- `SGTIN_URI`.  /repo/epcpy/utils/regex.py:19 -/
def sgtinUri : Re := .seq (lit (py "urn:epc:id:sgtin:")) sgtinBody
/-- `SSCC_URI_BODY`.  /repo/epcpy/utils/regex.py:21 -/
def ssccBody : Re := dotted2 padded padded
/-- `SSCC_URI`.  /repo/epcpy/utils/regex.py:22 -/
def ssccUri : Re := .seq (lit (py "urn:epc:id:sscc:")) ssccBody
/-- `SGLN_URI_BODY`.  /repo/epcpy/utils/regex.py:24 -/
def sglnBody : Re := dotted3 padded paddedOrEmpty gs3a3
/-- `SGLN_URI`.  /repo/epcpy/utils/regex.py:25 -/
def sglnUri : Re := .seq (lit (py "urn:epc:id:sgln:")) sglnBody
/-- `GRAI_URI_BODY`.  /repo/epcpy/utils/regex.py:27 -/
def graiBody : Re := dotted3 padded paddedOrEmpty gs3a3
/-- `GRAI_URI`.  /repo/epcpy/utils/regex.py:28 -/
def graiUri : Re := .seq (lit (py "urn:epc:id:grai:")) graiBody
/-- `GIAI_URI_BODY`.  /repo/epcpy/utils/regex.py:30 -/
def giaiBody : Re := dotted2 padded gs3a3
/-- `GIAI_URI`.  /repo/epcpy/utils/regex.py:31 -/
def giaiUri : Re := .seq (lit (py "urn:epc:id:giai:")) giaiBody
/-- `GSRN_URI_BODY`.  /repo/epcpy/utils/regex.py:33 -/
def gsrnBody : Re := dotted2 padded padded
/-- `GSRN_URI`.  /repo/epcpy/utils/regex.py:34 -/
def gsrnUri : Re := .seq (lit (py "urn:epc:id:gsrn:")) gsrnBody
/-- `GSRNP_URI_BODY`.  /repo/epcpy/utils/regex.py:36 -/
def gsrnpBody : Re := dotted2 padded padded
/-- `GSRNP_URI` (built from `GSRN_URI_BODY`).  /repo/epcpy/utils/regex.py:37 -/
def gsrnpUri : Re := .seq (lit (py "urn:epc:id:gsrnp:")) gsrnBody
/-- `GDTI_URI_BODY`.  /repo/epcpy/utils/regex.py:39 -/
def gdtiBody : Re := dotted3 padded paddedOrEmpty gs3a3
/-- `GDTI_URI`.  /repo/epcpy/utils/regex.py:40 -/
def gdtiUri : Re := .seq (lit (py "urn:epc:id:gdti:")) gdtiBody
/-- `CPI_URI_BODY`.  /repo/epcpy/utils/regex.py:42 -/
def cpiBody : Re := dotted3 padded cpref numeric
/-- `CPI_URI`.  /repo/epcpy/utils/regex.py:43 -/
def cpiUri : Re := .seq (lit (py "urn:epc:id:cpi:")) cpiBody
/-- `SGCN_URI_BODY`.  /repo/epcpy/utils/regex.py:45 -/
def sgcnBody : Re := dotted3 padded paddedOrEmpty padded
/-- `SGCN_URI`.  /repo/epcpy/utils/regex.py:46 -/
def sgcnUri : Re := .seq (lit (py "urn:epc:id:sgcn:")) sgcnBody
/-- `GINC_URI_BODY`.  /repo/epcpy/utils/regex.py:48 -/
def gincBody : Re := dotted2 padded gs3a3
/-- `GINC_URI`.  /repo/epcpy/utils/regex.py:49 -/
def gincUri : Re := .seq (lit (py "urn:epc:id:ginc:")) gincBody
/-- `GSIN_URI_BODY`.  /repo/epcpy/utils/regex.py:51 -/
def gsinBody : Re := dotted2 padded padded
/-- `GSIN_URI`.  /repo/epcpy/utils/regex.py:52 -/
def gsinUri : Re := .seq (lit (py "urn:epc:id:gsin:")) gsinBody
/-- `ITIP_URI_BODY` with `FOUR_PADDED_NUMERIC_COMPONENTS`.  /repo/epcpy/utils/regex.py:13, 54 -/
def itipBody : Re := seqs [padded, dot, padded, dot, padded, dot, padded, dot, gs3a3]
/-- `ITIP_URI`.  /repo/epcpy/utils/regex.py:55 -/
def itipUri : Re := .seq (lit (py "urn:epc:id:itip:")) itipBody
/-- `UPUI_URI_BODY`.  /repo/epcpy/utils/regex.py:57 -/
def upuiBody : Re := dotted3 padded paddedOrEmpty gs3a3
/-- `UPUI_URI`.  /repo/epcpy/utils/regex.py:58 -/
def upuiUri : Re := .seq (lit (py "urn:epc:id:upui:")) upuiBody
/-- `PGLN_URI_BODY`.  /repo/epcpy/utils/regex.py:60 -/
def pglnBody : Re := dotted2 padded paddedOrEmpty
/-- `PGLN_URI`.  /repo/epcpy/utils/regex.py:61 -/
def pglnUri : Re := .seq (lit (py "urn:epc:id:pgln:")) pglnBody
/-- `GID_URI_BODY`.  /repo/epcpy/utils/regex.py:63 -/
def gidBody : Re := dotted3 numeric numeric numeric
/-- `GID_URI`.  /repo/epcpy/utils/regex.py:64 -/
def gidUri : Re := .seq (lit (py "urn:epc:id:gid:")) gidBody
/-- `CAGE_CODE_OR_DODAAC`.  /repo/epcpy/utils/regex.py:66 -/
def cage : Re := Re.range (.cls isCage) 5 6
/-- `USDOD_URI_BODY`.  /repo/epcpy/utils/regex.py:67 -/
def usdodBody : Re := dotted2 cage numeric
/-- `USDOD_URI`.  /repo/epcpy/utils/regex.py:68 -/
def usdodUri : Re := .seq (lit (py "urn:epc:id:usdod:")) usdodBody
/-- `ADI_CHAR`.  /repo/epcpy/utils/regex.py:70 -/
def adiChar : Re := .alt (.cls isCprefPlain) (lit (py "%2F"))
/-- `ADI_URI_BODY`.  /repo/epcpy/utils/regex.py:71 -/
def adiBody : Re := dotted3 cage (.star adiChar) (.seq (opt (lit (py "%23"))) (plus adiChar))
/-- `ADI_URI`.  /repo/epcpy/utils/regex.py:72 -/
def adiUri : Re := .seq (lit (py "urn:epc:id:adi:")) adiBody
/-- `BIC_URI_BODY`.  /repo/epcpy/utils/regex.py:74 -/
def bicBody : Re :=
  seqs [rep (.cls isBicOwner) 3, .cls (fun c => c == 'J' || c == 'U' || c == 'Z'), rep (.cls isDigitA) 7]
/-- `BIC_URI`.  /repo/epcpy/utils/regex.py:75 -/
def bicUri : Re := .seq (lit (py "urn:epc:id:bic:")) bicBody
/-- `IMOVN_URI_BODY`.  /repo/epcpy/utils/regex.py:77 -/
def imovnBody : Re := rep (.cls isDigitA) 7
/-- `IMOVN_URI`.  /repo/epcpy/utils/regex.py:78 -/
def imovnUri : Re := .seq (lit (py "urn:epc:id:imovn:")) imovnBody
/-- `LGTIN_CLASS`.  /repo/epcpy/utils/regex.py:80 -/
def lgtinClass : Re := .seq (lit (py "urn:epc:class:lgtin:")) (dotted3 padded padded gs3a3)

/-- `EPC_URI`.  /repo/epcpy/utils/regex.py:82-86 -/
def epcUri : Re := alts
  [sgtinUri, ssccUri, sglnUri, graiUri, giaiUri, gsrnUri, gsrnpUri, gdtiUri, cpiUri, sgcnUri, gincUri, gsinUri,
   itipUri, upuiUri, pglnUri, gidUri, usdodUri, adiUri, bicUri, imovnUri, lgtinClass]

/-- `{a}\.{b}\.{c}|{a}\.{b}\.\*|{a}\.\*\.\*|\*\.\*\.\*` -/
def idpat3 (a b c : Re) : Re :=
  alts [dotted3 a b c, dotted3 a b ast, dotted3 a ast ast, dotted3 ast ast ast]
/-- `{a}\.{b}|{a}\.\*|\*\.\*` -/
def idpat2 (a b : Re) : Re := alts [dotted2 a b, dotted2 a ast, dotted2 ast ast]

/-- `IDPAT_BODY`: the alternatives of lines 89-107 in the order of lines 109-115.
/repo/epcpy/utils/regex.py:88-115 -/
def idpatBody : Re := alts
  [.seq (lit (py "sgtin:")) (idpat3 padded padded gs3a3),
   .seq (lit (py "sscc:")) (idpat2 padded padded),
   .seq (lit (py "sgln:")) (idpat3 padded paddedOrEmpty gs3a3),
   .seq (lit (py "grai:")) (idpat3 padded paddedOrEmpty gs3a3),
   .seq (lit (py "giai:")) (idpat2 padded gs3a3),
   .seq (lit (py "gsrn:")) (idpat2 padded padded),
   .seq (lit (py "gsrnp:")) (idpat2 padded padded),
   .seq (lit (py "gdti:")) (idpat3 padded paddedOrEmpty gs3a3),
   .seq (lit (py "cpi:")) (idpat3 padded cpref numeric),
   .seq (lit (py "sgcn:")) (idpat3 padded paddedOrEmpty padded),
   .seq (lit (py "ginc:")) (idpat2 padded gs3a3),
   .seq (lit (py "gsin:")) (idpat2 padded padded),
   .seq (lit (py "itip:")) (alts
      [seqs [padded, dot, padded, dot, padded, dot, padded, dot, gs3a3],
       seqs [padded, dot, padded, dot, padded, dot, padded, dot, ast],
       seqs [padded, dot, padded, dot, ast, dot, ast, dot, ast],
       seqs [padded, dot, ast, dot, ast, dot, ast, dot, ast],
       seqs [ast, dot, ast, ast, dot, ast, dot, ast]]),
   .seq (lit (py "upui:")) (idpat3 padded padded gs3a3),
   .seq (lit (py "pgln:")) (idpat2 padded paddedOrEmpty),
   .seq (lit (py "gid:")) (idpat3 numeric numeric numeric),
   .seq (lit (py "usdod:")) (idpat2 cage numeric),
   .seq (lit (py "adi:")) (idpat3 cage (.star adiChar) (.seq (opt (lit (py "%23"))) (plus adiChar)))]
/-- `IDPAT_URI`.  /repo/epcpy/utils/regex.py:116 -/
def idpatUri : Re := .seq (lit (py "urn:epc:idpat:")) idpatBody

/-- `f"{names}:{NUMERIC_COMPONENT}\.{body}"` -/
def tagAlt (names : Re) (body : Re) : Re := seqs [names, Re.chr ':', numeric, dot, body]

/-- `TAG_URI_BODY`.  /repo/epcpy/utils/regex.py:118-139 -/
def tagBody : Re := alts
  [tagAlt (alts [lit (py "sgtin-96"), lit (py "sgtin-198")]) sgtinBody,
   tagAlt (lit (py "sscc-96")) ssccBody,
   tagAlt (alts [lit (py "sgln-96"), lit (py "sgln-195")]) sglnBody,
   tagAlt (alts [lit (py "grai-96"), lit (py "grai-170")]) graiBody,
   tagAlt (alts [lit (py "giai-96"), lit (py "giai-202")]) giaiBody,
   tagAlt (lit (py "gsrn-96")) gsrnBody,
   tagAlt (lit (py "gsrnp-96")) gsrnpBody,
   tagAlt (alts [lit (py "gdti-96"), lit (py "gdti-174")]) gdtiBody,
   tagAlt (alts [lit (py "cpi-96"), lit (py "cpi-var")]) cpiBody,
   tagAlt (lit (py "sgcn-96")) sgcnBody,
   tagAlt (alts [lit (py "itip-110"), lit (py "itip-212")]) itipBody,
   seqs [lit (py "gid-96"), Re.chr ':', gidBody],
   tagAlt (lit (py "usdod-96")) usdodBody,
   tagAlt (lit (py "adi-var")) adiBody]
/-- `TAG_URI`.  /repo/epcpy/utils/regex.py:140 -/
def tagUri : Re := .seq (lit (py "urn:epc:tag:")) tagBody

/-- `SGTIN_GS1_ELEMENT_STRING`.  /repo/epcpy/utils/regex.py:143 -/
def sgtinElem : Re := seqs [lit (py "(01)"), rep digit 14, lit (py "(21)"), Re.range elemChar 1 20]
/-- `SSCC_GS1_ELEMENT_STRING`.  /repo/epcpy/utils/regex.py:144 -/
def ssccElem : Re := seqs [lit (py "(00)"), rep digit 18]
/-- `SGLN_GS1_ELEMENT_STRING`.  /repo/epcpy/utils/regex.py:145 -/
def sglnElem : Re := seqs [lit (py "(414)"), rep digit 13, lit (py "(254)"), Re.range elemChar 1 20]
/-- `GRAI_GS1_ELEMENT_STRING`.  /repo/epcpy/utils/regex.py:146 -/
def graiElem : Re := seqs [lit (py "(8003)0"), rep digit 13, Re.range elemChar 1 16]
/-- `GIAI_GS1_ELEMENT_STRING`.  /repo/epcpy/utils/regex.py:147 -/
def giaiElem : Re := seqs [lit (py "(8004)"), Re.range digit 6 12, Re.range elemChar 1 24]
/-- `GSRN_GS1_ELEMENT_STRING`.  /repo/epcpy/utils/regex.py:148 -/
def gsrnElem : Re := seqs [lit (py "(8018)"), rep digit 18]
/-- `GSRNP_GS1_ELEMENT_STRING`.  /repo/epcpy/utils/regex.py:149 -/
def gsrnpElem : Re := seqs [lit (py "(8017)"), rep digit 18]
/-- `GDTI_GS1_ELEMENT_STRING`.  /repo/epcpy/utils/regex.py:150 -/
def gdtiElem : Re := seqs [lit (py "(253)"), rep digit 13, Re.range elemChar 1 17]
/-- `CPI_GS1_ELEMENT_STRING`.  /repo/epcpy/utils/regex.py:151-153 -/
def cpiElem : Re :=
  seqs [lit (py "(8010)"), Re.range digit 6 12, Re.range elemCharCpi 0 24, lit (py "(8011)"), Re.range digit 1 12]
/-- `SGCN_GS1_ELEMENT_STRING`.  /repo/epcpy/utils/regex.py:154 -/
def sgcnElem : Re := seqs [lit (py "(255)"), rep digit 13, Re.range elemChar 1 12]
/-- `GINC_GS1_ELEMENT_STRING`.  /repo/epcpy/utils/regex.py:155 -/
def gincElem : Re := seqs [lit (py "(401)"), Re.range digit 6 12, Re.range elemChar 1 24]
/-- `GSIN_GS1_ELEMENT_STRING`.  /repo/epcpy/utils/regex.py:156 -/
def gsinElem : Re := seqs [lit (py "(402)"), rep digit 17]
/-- `ITIP_GS1_ELEMENT_STRING`.  /repo/epcpy/utils/regex.py:157 -/
def itipElem : Re := seqs [lit (py "(8006)"), rep digit 18, lit (py "(21)"), Re.range elemChar 1 20]
/-- `UPUI_GS1_ELEMENT_STRING`.  /repo/epcpy/utils/regex.py:158 -/
def upuiElem : Re := seqs [lit (py "(01)"), rep digit 14, lit (py "(235)"), Re.range elemChar 1 28]
/-- `PGLN_GS1_ELEMENT_STRING`.  /repo/epcpy/utils/regex.py:159 -/
def pglnElem : Re := seqs [lit (py "(417)"), rep digit 13]
/-- `LGTIN_GS1_ELEMENT_STRING`.  /repo/epcpy/utils/regex.py:160 -/
def lgtinElem : Re := seqs [lit (py "(01)"), rep digit 14, lit (py "(10)"), Re.range elemChar 1 20]

/-- `GS1_ELEMENT_STRING`.  /repo/epcpy/utils/regex.py:162-169 -/
def gs1Elem : Re := alts
  [sgtinElem, ssccElem, sglnElem, graiElem, giaiElem, gsrnElem, gsrnpElem, gdtiElem, cpiElem, sgcnElem, gincElem,
   gsinElem, itipElem, upuiElem, pglnElem, lgtinElem]

end Epc.Rx
