/-
The source of /repo/epcpy/utils/parsers.py.
Generated by tools/gen_src.py from the syntax trees of /repo/epcpy.
-/
import Verif.Src.Syntax

namespace Epc.Src

/-- `EPC_URI_REGEX`.  /repo/epcpy/utils/parsers.py:36-36 -/
def parsers.EPC_URI_REGEX : Expr :=
  (.call (.attr (.name .re) .compile) [(.name .EPC_URI)] [])

/-- `GS1_ELEMENT_STRING_REGEX`.  /repo/epcpy/utils/parsers.py:37-37 -/
def parsers.GS1_ELEMENT_STRING_REGEX : Expr :=
  (.call (.attr (.name .re) .compile) [(.name .GS1_ELEMENT_STRING)] [])

/-- `IDPAT_URI_REGEX`.  /repo/epcpy/utils/parsers.py:38-38 -/
def parsers.IDPAT_URI_REGEX : Expr :=
  (.call (.attr (.name .re) .compile) [(.name .IDPAT_URI)] [])

/-- `TAG_URI_REGEX`.  /repo/epcpy/utils/parsers.py:39-39 -/
def parsers.TAG_URI_REGEX : Expr :=
  (.call (.attr (.name .re) .compile) [(.name .TAG_URI)] [])

/-- `EPC_SCHEMES`.  /repo/epcpy/utils/parsers.py:41-63 -/
def parsers.EPC_SCHEMES : Expr :=
  (.list [(.name .ADI), (.name .BIC), (.name .CPI), (.name .GDTI), (.name .GIAI), (.name .GID), (.name .GINC), (.name .GRAI), (.name .GSIN), (.name .GSRN), (.name .GSRNP), (.name .IMOVN), (.name .ITIP), (.name .LGTIN), (.name .PGLN), (.name .SGCN), (.name .SGLN), (.name .SGTIN), (.name .SSCC), (.name .UPUI), (.name .USDOD)])

/-- `GS1_KEYED_CLASSES`.  /repo/epcpy/utils/parsers.py:64-66 -/
def parsers.GS1_KEYED_CLASSES : Expr :=
  (.comp (.name .cls) .cls (.name .EPC_SCHEMES) (.call (.name .issubclass) [(.name .cls), (.name .GS1Keyed)] []))

/-- `TAG_ENCODABLE_CLASSES`.  /repo/epcpy/utils/parsers.py:67-69 -/
def parsers.TAG_ENCODABLE_CLASSES : Expr :=
  (.comp (.name .cls) .cls (.name .EPC_SCHEMES) (.call (.name .issubclass) [(.name .cls), (.name .TagEncodable)] []))

/-- `TAG_ENCODABLE_BINARY_HEADERS`.  /repo/epcpy/utils/parsers.py:71-73 -/
def parsers.TAG_ENCODABLE_BINARY_HEADERS : Expr :=
  (.mkDict (.flat (.map (.list [(.attr (.name .h) .value), (.name .cls)]) .h (.attr (.name .cls) .BinaryHeader)) .cls (.name .TAG_ENCODABLE_CLASSES)))

/-- `TAG_ENCODABLE_HEX_HEADERS`.  /repo/epcpy/utils/parsers.py:74-78 -/
def parsers.TAG_ENCODABLE_HEX_HEADERS : Expr :=
  (.mkDict (.flat (.map (.list [(.call (.name .binary_to_hex) [(.attr (.name .h) .value)] []), (.name .cls)]) .h (.attr (.name .cls) .BinaryHeader)) .cls (.name .TAG_ENCODABLE_CLASSES)))

/-- `GS1_ELEMENT_STRING_REGEX_TO_SCHEME`.  /repo/epcpy/utils/parsers.py:80-84 -/
def parsers.GS1_ELEMENT_STRING_REGEX_TO_SCHEME : Expr :=
  (.mkDict (.comp (.list [(.attr (.name .cls) .gs1_element_string_regex), (.name .cls)]) .cls (.name .EPC_SCHEMES) (.call (.name .issubclass) [(.name .cls), (.name .GS1Element)] [])))

/-- `EPC_SCHEME_IDENTIFIERS`.  /repo/epcpy/utils/parsers.py:86-86 -/
def parsers.EPC_SCHEME_IDENTIFIERS : Expr :=
  (.mkDict (.map (.list [(.call (.attr (.attr (.name .cls) .__name__) .lower) [] []), (.name .cls)]) .cls (.name .EPC_SCHEMES)))

/-- `TAG_ENCODABLE_SCHEME_IDENTIFIERS`.  /repo/epcpy/utils/parsers.py:87-89 -/
def parsers.TAG_ENCODABLE_SCHEME_IDENTIFIERS : Expr :=
  (.mkDict (.map (.list [(.call (.attr (.attr (.name .cls) .__name__) .lower) [] []), (.name .cls)]) .cls (.name .TAG_ENCODABLE_CLASSES)))

/-- `GS1_KEYED_SCHEME_IDENTIFIERS`.  /repo/epcpy/utils/parsers.py:90-90 -/
def parsers.GS1_KEYED_SCHEME_IDENTIFIERS : Expr :=
  (.mkDict (.map (.list [(.call (.attr (.attr (.name .cls) .__name__) .lower) [] []), (.name .cls)]) .cls (.name .GS1_KEYED_CLASSES)))

/-- `parsers.get_gs1_key`.  /repo/epcpy/utils/parsers.py:93-136 -/
def parsers.get_gs1_key : FunDef :=
  ⟨.parsers, none, [⟨.source, none⟩, ⟨.company_prefix_length, (some .none)⟩], none, (some .kwargs),
    [.assign (.var .scheme) .none,
     .ite (.call (.attr (.name .EPC_URI_REGEX) .fullmatch) [(.name .source)] []) [.assign (.var .scheme) (.call (.name .epc_pure_identity_to_scheme) [(.name .source)] [])] [.ite (.and (.call (.attr (.name .GS1_ELEMENT_STRING_REGEX) .fullmatch) [(.name .source)] []) (.name .company_prefix_length)) [.assign (.var .scheme) (.call (.name .gs1_element_string_to_gs1_element) [(.name .source), (.name .company_prefix_length)] [])] [.ite (.call (.attr (.name .TAG_URI_REGEX) .fullmatch) [(.name .source)] []) [.assign (.var .scheme) (.call (.name .tag_uri_to_tag_encodable) [(.name .source)] [])] [.ite (.call (.attr (.name .IDPAT_URI_REGEX) .fullmatch) [(.name .source)] []) [.assign (.var .scheme) (.call (.name ._idpat_to_gs1_keyed_scheme) [(.name .source)] [])] [.ite (.cmp .isIn (.slice (.name .source) .none (.int 8) .none) (.call (.attr (.name .TAG_ENCODABLE_BINARY_HEADERS) .keys) [] [])) [.assign (.var .scheme) (.call (.name .binary_to_tag_encodable) [(.name .source)] [])] [.ite (.cmp .isIn (.call (.attr (.slice (.name .source) .none (.int 2) .none) .upper) [] []) (.call (.attr (.name .TAG_ENCODABLE_HEX_HEADERS) .keys) [] [])) [.assign (.var .scheme) (.call (.name .hex_to_tag_encodable) [(.name .source)] [])] []]]]]],
     .ite (.not (.call (.name .isinstance) [(.name .scheme), (.name .GS1Keyed)] [])) [.raise (.call (.name .ConvertException) [] [(.message, (.str (py "Source could not be converted to proper GS1Keyed scheme")))])] [],
     .ret (.callKw (.attr (.name .scheme) .gs1_key) (.name .kwargs))]⟩

/-- `parsers.epc_pure_identity_to_scheme`.  /repo/epcpy/utils/parsers.py:139-156 -/
def parsers.epc_pure_identity_to_scheme : FunDef :=
  ⟨.parsers, none, [⟨.epc_pure_identity_uri, none⟩], none, none,
    [.assign (.var .identifier) (.item (.call (.attr (.name .epc_pure_identity_uri) .split) [(.str (py ":"))] []) (.int 3)),
     .ite (.cmp .notIn (.name .identifier) (.name .EPC_SCHEME_IDENTIFIERS)) [.raise (.call (.name .ConvertException) [] [(.message, (.str (py "Unknown EPC URI")))])] [],
     .ret (.call (.attr (.item (.name .EPC_SCHEME_IDENTIFIERS) (.name .identifier)) .from_epc_uri) [(.name .epc_pure_identity_uri)] [])]⟩

/-- `parsers.epc_pure_identity_to_gs1_element`.  /repo/epcpy/utils/parsers.py:159-176 -/
def parsers.epc_pure_identity_to_gs1_element : FunDef :=
  ⟨.parsers, none, [⟨.epc_pure_identity_uri, none⟩], none, none,
    [.assign (.var .scheme) (.call (.name .epc_pure_identity_to_scheme) [(.name .epc_pure_identity_uri)] []),
     .ite (.not (.call (.name .isinstance) [(.name .scheme), (.name .GS1Element)] [])) [.raise (.call (.name .ConvertException) [] [(.message, (.str (py "EPC URI has no GS1 Element")))])] [],
     .ret (.name .scheme)]⟩

/-- `parsers.epc_pure_identity_to_gs1_element_string`.  /repo/epcpy/utils/parsers.py:179-188 -/
def parsers.epc_pure_identity_to_gs1_element_string : FunDef :=
  ⟨.parsers, none, [⟨.epc_pure_identity_uri, none⟩], none, none,
    [.ret (.call (.attr (.call (.name .epc_pure_identity_to_gs1_element) [(.name .epc_pure_identity_uri)] []) .gs1_element_string) [] [])]⟩

/-- `parsers.epc_pure_identity_to_gs1_keyed`.  /repo/epcpy/utils/parsers.py:191-208 -/
def parsers.epc_pure_identity_to_gs1_keyed : FunDef :=
  ⟨.parsers, none, [⟨.epc_pure_identity_uri, none⟩], none, none,
    [.assign (.var .scheme) (.call (.name .epc_pure_identity_to_scheme) [(.name .epc_pure_identity_uri)] []),
     .ite (.not (.call (.name .isinstance) [(.name .scheme), (.name .GS1Keyed)] [])) [.raise (.call (.name .ConvertException) [] [(.message, (.str (py "EPC URI has no GS1 Key")))])] [],
     .ret (.name .scheme)]⟩

/-- `parsers.epc_pure_identity_to_gs1_key`.  /repo/epcpy/utils/parsers.py:211-220 -/
def parsers.epc_pure_identity_to_gs1_key : FunDef :=
  ⟨.parsers, none, [⟨.epc_pure_identity_uri, none⟩], none, (some .kwargs),
    [.ret (.callKw (.attr (.call (.name .epc_pure_identity_to_gs1_keyed) [(.name .epc_pure_identity_uri)] []) .gs1_key) (.name .kwargs))]⟩

/-- `parsers.epc_pure_identity_to_tag_encodable`.  /repo/epcpy/utils/parsers.py:223-240 -/
def parsers.epc_pure_identity_to_tag_encodable : FunDef :=
  ⟨.parsers, none, [⟨.epc_pure_identity_uri, none⟩], none, none,
    [.assign (.var .scheme) (.call (.name .epc_pure_identity_to_scheme) [(.name .epc_pure_identity_uri)] []),
     .ite (.not (.call (.name .isinstance) [(.name .scheme), (.name .TagEncodable)] [])) [.raise (.call (.name .ConvertException) [] [(.message, (.str (py "EPC URI is not tag encodable")))])] [],
     .ret (.name .scheme)]⟩

/-- The body of a loop of `parsers.gs1_element_string_to_gs1_element`. -/
def parsers.gs1_element_string_to_gs1_element.loop1 : List Stmt :=
  [.ite (.call (.attr (.name .regex) .fullmatch) [(.name .gs1_element_string)] []) [.ret (.call (.attr (.name .scheme) .from_gs1_element_string) [(.name .gs1_element_string), (.name .company_prefix_length)] [])] []]

/-- `parsers.gs1_element_string_to_gs1_element`.  /repo/epcpy/utils/parsers.py:243-263 -/
def parsers.gs1_element_string_to_gs1_element : FunDef :=
  ⟨.parsers, none, [⟨.gs1_element_string, none⟩, ⟨.company_prefix_length, none⟩], none, none,
    [.forUnpack [(.var .regex), (.var .scheme)] (.call (.attr (.name .GS1_ELEMENT_STRING_REGEX_TO_SCHEME) .items) [] []) parsers.gs1_element_string_to_gs1_element.loop1,
     .raise (.call (.name .ConvertException) [] [(.message, (.cat (.str (py "Unknown GS1 element string: ")) (.fmt (.name .gs1_element_string) (.str []))))])]⟩

/-- `ONE_ESCAPE_ALLOWED_SCHEMES`.  /repo/epcpy/utils/parsers.py:266-275 -/
def parsers.ONE_ESCAPE_ALLOWED_SCHEMES : Expr :=
  (.map (.call (.attr (.attr (.name .cls) .__name__) .lower) [] []) .cls (.list [(.name .SGTIN), (.name .SGLN), (.name .GRAI), (.name .GDTI), (.name .CPI)]))

/-- `parsers._idpat_to_gs1_keyed_scheme`.  /repo/epcpy/utils/parsers.py:278-308 -/
def parsers._idpat_to_gs1_keyed_scheme : FunDef :=
  ⟨.parsers, none, [⟨.idpat, none⟩], none, none,
    [.assign (.var .identifier) (.item (.call (.attr (.name .idpat) .split) [(.str (py ":"))] []) (.int 3)),
     .ite (.cmp .notIn (.name .identifier) (.name .GS1_KEYED_SCHEME_IDENTIFIERS)) [.raise (.call (.name .ConvertException) [] [(.message, (.str (py "Unknown GS1Keyed identifier")))])] [],
     .assign (.var .uri) (.call (.attr (.name .idpat) .replace) [(.str (py "idpat")), (.str (py "id")), (.int 1)] []),
     .ite (.call (.attr (.name .EPC_URI_REGEX) .fullmatch) [(.name .uri)] []) [.ret (.call (.item (.name .GS1_KEYED_SCHEME_IDENTIFIERS) (.name .identifier)) [(.name .uri)] [])] [],
     .ite (.cmp .notIn (.name .identifier) (.name .ONE_ESCAPE_ALLOWED_SCHEMES)) [.raise (.call (.name .ConvertException) [] [(.message, (.str (py "URI exceeds maximum number of escaped patterns")))])] [],
     .assign (.var .dummy_uri) (.call (.attr (.name .re) .sub) [(.str (py "\\.\\*$")), (.str (py ".0")), (.name .uri), (.int 1)] []),
     .ite (.call (.attr (.name .EPC_URI_REGEX) .fullmatch) [(.name .dummy_uri)] []) [.ret (.call (.item (.name .GS1_KEYED_SCHEME_IDENTIFIERS) (.name .identifier)) [(.name .dummy_uri)] [])] [],
     .raise (.call (.name .ConvertException) [] [(.message, (.str (py "Could not create valid scheme from given id pat")))])]⟩

/-- `parsers.tag_uri_to_tag_encodable`.  /repo/epcpy/utils/parsers.py:311-325 -/
def parsers.tag_uri_to_tag_encodable : FunDef :=
  ⟨.parsers, none, [⟨.epc_tag_uri, none⟩], none, none,
    [.assign (.var .identifier) (.item (.call (.attr (.item (.call (.attr (.name .epc_tag_uri) .split) [(.str (py ":"))] []) (.int 3)) .split) [(.str (py "-"))] []) (.int 0)),
     .ite (.cmp .notIn (.name .identifier) (.name .TAG_ENCODABLE_SCHEME_IDENTIFIERS)) [.raise (.call (.name .ConvertException) [] [(.message, (.str (py "Unknown TagEncodable scheme identifier")))])] [],
     .ret (.call (.attr (.item (.name .TAG_ENCODABLE_SCHEME_IDENTIFIERS) (.name .identifier)) .from_tag_uri) [(.name .epc_tag_uri)] [])]⟩

/-- `parsers.binary_to_tag_encodable`.  /repo/epcpy/utils/parsers.py:328-345 -/
def parsers.binary_to_tag_encodable : FunDef :=
  ⟨.parsers, none, [⟨.binary_string, none⟩], none, none,
    [.assign (.var .header) (.slice (.name .binary_string) .none (.int 8) .none),
     .ite (.cmp .notIn (.name .header) (.name .TAG_ENCODABLE_BINARY_HEADERS)) [.raise (.call (.name .ConvertException) [] [(.message, (.str (py "Unknown header")))])] [],
     .ret (.call (.attr (.item (.name .TAG_ENCODABLE_BINARY_HEADERS) (.name .header)) .from_binary) [(.name .binary_string)] [])]⟩

/-- `parsers.hex_to_tag_encodable`.  /repo/epcpy/utils/parsers.py:348-359 -/
def parsers.hex_to_tag_encodable : FunDef :=
  ⟨.parsers, none, [⟨.hex_string, none⟩], none, none,
    [.assign (.var .binary) (.call (.name .hex_to_binary) [(.name .hex_string)] []),
     .ret (.call (.name .binary_to_tag_encodable) [(.name .binary)] [])]⟩

/-- `parsers.base64_to_tag_encodable`.  /repo/epcpy/utils/parsers.py:362-373 -/
def parsers.base64_to_tag_encodable : FunDef :=
  ⟨.parsers, none, [⟨.base64_string, none⟩], none, none,
    [.assign (.var .hex_string) (.call (.name .base64_to_hex) [(.name .base64_string)] []),
     .ret (.call (.name .hex_to_tag_encodable) [(.name .hex_string)] [])]⟩

end Epc.Src
