/-
The source of /repo/epcpy/epc_schemes/gdti.py.
Generated by tools/gen_src.py from the syntax trees of /repo/epcpy.
-/
import Verif.Src.Syntax

namespace Epc.Src

/-- `GDTI_URI_REGEX`.  /repo/epcpy/epc_schemes/gdti.py:23-23 -/
def gdti.GDTI_URI_REGEX : Expr :=
  (.call (.attr (.name .re) .compile) [(.name .GDTI_URI)] [])

/-- `PARTITION_TABLE_P`.  /repo/epcpy/epc_schemes/gdti.py:25-75 -/
def gdti.PARTITION_TABLE_P : Expr :=
  (.dict [((.int 0), (.dict [((.str (py "P")), (.int 0)), ((.str (py "M")), (.int 40)), ((.str (py "L")), (.int 12)), ((.str (py "N")), (.int 1)), ((.str (py "K")), (.int 0))])), ((.int 1), (.dict [((.str (py "P")), (.int 1)), ((.str (py "M")), (.int 37)), ((.str (py "L")), (.int 11)), ((.str (py "N")), (.int 4)), ((.str (py "K")), (.int 1))])), ((.int 2), (.dict [((.str (py "P")), (.int 2)), ((.str (py "M")), (.int 34)), ((.str (py "L")), (.int 10)), ((.str (py "N")), (.int 7)), ((.str (py "K")), (.int 2))])), ((.int 3), (.dict [((.str (py "P")), (.int 3)), ((.str (py "M")), (.int 30)), ((.str (py "L")), (.int 9)), ((.str (py "N")), (.int 11)), ((.str (py "K")), (.int 3))])), ((.int 4), (.dict [((.str (py "P")), (.int 4)), ((.str (py "M")), (.int 27)), ((.str (py "L")), (.int 8)), ((.str (py "N")), (.int 14)), ((.str (py "K")), (.int 4))])), ((.int 5), (.dict [((.str (py "P")), (.int 5)), ((.str (py "M")), (.int 24)), ((.str (py "L")), (.int 7)), ((.str (py "N")), (.int 17)), ((.str (py "K")), (.int 5))])), ((.int 6), (.dict [((.str (py "P")), (.int 6)), ((.str (py "M")), (.int 20)), ((.str (py "L")), (.int 6)), ((.str (py "N")), (.int 21)), ((.str (py "K")), (.int 6))]))])

/-- `PARTITION_TABLE_L`.  /repo/epcpy/epc_schemes/gdti.py:77-85 -/
def gdti.PARTITION_TABLE_L : Expr :=
  (.dict [((.int 12), (.item (.name .PARTITION_TABLE_P) (.int 0))), ((.int 11), (.item (.name .PARTITION_TABLE_P) (.int 1))), ((.int 10), (.item (.name .PARTITION_TABLE_P) (.int 2))), ((.int 9), (.item (.name .PARTITION_TABLE_P) (.int 3))), ((.int 8), (.item (.name .PARTITION_TABLE_P) (.int 4))), ((.int 7), (.item (.name .PARTITION_TABLE_P) (.int 5))), ((.int 6), (.item (.name .PARTITION_TABLE_P) (.int 6)))])

/-- `GDTI.__init__`.  /repo/epcpy/epc_schemes/gdti.py:132-155 -/
def GDTI.__init__ : FunDef :=
  ⟨.gdti, (some .GDTI), [⟨.self, none⟩, ⟨.epc_uri, none⟩], none, none,
    [.superInit [(.name .epc_uri)],
     .ite (.not (.call (.attr (.name .GDTI_URI_REGEX) .fullmatch) [(.name .epc_uri)] [])) [.raise (.call (.name .ConvertException) [] [(.message, (.cat (.str (py "Invalid GDTI URI ")) (.fmt (.name .epc_uri) (.str []))))])] [],
     .assign (.attr .self ._serial) (.call (.attr (.str (py ".")) .join) [(.slice (.call (.attr (.call (.attr (.str (py ":")) .join) [(.slice (.call (.attr (.name .epc_uri) .split) [(.str (py ":"))] []) (.int 4) .none .none)] []) .split) [(.str (py "."))] []) (.int 2) .none .none)] []),
     .expr (.call (.name .verify_gs3a3_component) [(.attr (.name .self) ._serial)] []),
     .unpack [(.attr .self ._company_pref), (.attr .self ._doc_type)] none (.slice (.call (.attr (.item (.call (.attr (.name .epc_uri) .split) [(.str (py ":"))] []) (.int 4)) .split) [(.str (py "."))] []) .none (.int 2) .none),
     .ite (.or (.cmp .ne (.call (.name .len) [(.cat (.fmt (.attr (.name .self) ._company_pref) (.str [])) (.fmt (.attr (.name .self) ._doc_type) (.str [])))] []) (.int 12)) (.or (.cmp .gt (.call (.name .len) [(.attr (.name .self) ._serial)] []) (.int 17)) (.not (.cmp2 .le .le (.int 6) (.call (.name .len) [(.attr (.name .self) ._company_pref)] []) (.int 12))))) [.raise (.call (.name .ConvertException) [] [(.message, (.cat (.str (py "Invalid GDTI URI ")) (.cat (.fmt (.name .epc_uri) (.str [])) (.str (py " | Company prefix + document type must be 12 digits")))))])] [],
     .assign (.attr .self .epc_uri) (.name .epc_uri),
     .assign (.var .check_digit) (.call (.name .calculate_checksum) [(.cat (.fmt (.attr (.name .self) ._company_pref) (.str [])) (.fmt (.attr (.name .self) ._doc_type) (.str [])))] []),
     .assign (.attr .self ._gdti) (.cat (.fmt (.attr (.name .self) ._company_pref) (.str [])) (.cat (.fmt (.attr (.name .self) ._doc_type) (.str [])) (.cat (.fmt (.name .check_digit) (.str [])) (.fmt (.call (.name .replace_uri_escapes) [(.attr (.name .self) ._serial)] []) (.str [])))))]⟩

/-- `GDTI.gs1_key`.  /repo/epcpy/epc_schemes/gdti.py:157-163 -/
def GDTI.gs1_key : FunDef :=
  ⟨.gdti, (some .GDTI), [⟨.self, none⟩], none, none,
    [.ret (.attr (.name .self) ._gdti)]⟩

/-- `GDTI.gs1_element_string`.  /repo/epcpy/epc_schemes/gdti.py:165-171 -/
def GDTI.gs1_element_string : FunDef :=
  ⟨.gdti, (some .GDTI), [⟨.self, none⟩], none, none,
    [.ret (.cat (.str (py "(253)")) (.fmt (.attr (.name .self) ._gdti) (.str [])))]⟩

/-- `GDTI.from_gs1_element_string`.  /repo/epcpy/epc_schemes/gdti.py:174-200 -/
def GDTI.from_gs1_element_string : FunDef :=
  ⟨.gdti, (some .GDTI), [⟨.cls, none⟩, ⟨.gs1_element_string, none⟩, ⟨.company_prefix_length, none⟩], none, none,
    [.ite (.not (.call (.attr (.attr (.name .GDTI) .gs1_element_string_regex) .fullmatch) [(.name .gs1_element_string)] [])) [.raise (.call (.name .ConvertException) [] [(.message, (.cat (.str (py "Invalid GDTI GS1 element string ")) (.fmt (.name .gs1_element_string) (.str []))))])] [],
     .assign (.var .digits) (.slice (.name .gs1_element_string) (.int 5) (.int 18) .none),
     .assign (.var .chars) (.slice (.name .gs1_element_string) (.int 18) .none .none),
     .assign (.var .chars) (.call (.name .revert_uri_escapes) [(.name .chars)] []),
     .ret (.call (.name .cls) [(.cat (.str (py "urn:epc:id:gdti:")) (.cat (.fmt (.slice (.name .digits) .none (.name .company_prefix_length) .none) (.str [])) (.cat (.str (py ".")) (.cat (.fmt (.slice (.name .digits) (.name .company_prefix_length) (.neg (.int 1)) .none) (.str [])) (.cat (.str (py ".")) (.fmt (.name .chars) (.str [])))))))] [])]⟩

/-- `GDTI.tag_uri`.  /repo/epcpy/epc_schemes/gdti.py:202-235 -/
def GDTI.tag_uri : FunDef :=
  ⟨.gdti, (some .GDTI), [⟨.self, none⟩, ⟨.binary_coding_scheme, none⟩, ⟨.filter_value, none⟩], none, none,
    [.assign (.var .scheme) (.attr (.name .binary_coding_scheme) .value),
     .assign (.var .filter_val) (.attr (.name .filter_value) .value),
     .ite (.or (.and (.cmp .eq (.name .scheme) (.attr (.attr (.attr (.name .GDTI) .BinaryCodingScheme) .GDTI_174) .value)) (.cmp .gt (.call (.name .len) [(.call (.name .replace_uri_escapes) [(.attr (.name .self) ._serial)] [])] []) (.int 17))) (.and (.cmp .eq (.name .scheme) (.attr (.attr (.attr (.name .GDTI) .BinaryCodingScheme) .GDTI_96) .value)) (.or (.not (.call (.attr (.attr (.name .self) ._serial) .isnumeric) [] [])) (.or (.cmp .ge (.call (.name .int) [(.attr (.name .self) ._serial)] []) (.call (.name .pow) [(.int 2), (.int 41)] [])) (.and (.cmp .gt (.call (.name .len) [(.attr (.name .self) ._serial)] []) (.int 1)) (.cmp .eq (.item (.attr (.name .self) ._serial) (.int 0)) (.str (py "0")))))))) [.raise (.call (.name .ConvertException) [] [(.message, (.cat (.str (py "Invalid serial value ")) (.fmt (.attr (.name .self) ._serial) (.str []))))])] [],
     .ret (.cat (.fmt (.attr (.name .self) .TAG_URI_PREFIX) (.str [])) (.cat (.fmt (.name .scheme) (.str [])) (.cat (.str (py ":")) (.cat (.fmt (.name .filter_val) (.str [])) (.cat (.str (py ".")) (.cat (.fmt (.attr (.name .self) ._company_pref) (.str [])) (.cat (.str (py ".")) (.cat (.fmt (.attr (.name .self) ._doc_type) (.str [])) (.cat (.str (py ".")) (.fmt (.attr (.name .self) ._serial) (.str [])))))))))))]⟩

/-- `GDTI.binary`.  /repo/epcpy/epc_schemes/gdti.py:237-263 -/
def GDTI.binary : FunDef :=
  ⟨.gdti, (some .GDTI), [⟨.self, none⟩, ⟨.binary_coding_scheme, none⟩, ⟨.filter_value, none⟩], none, none,
    [.assign (.var .parts) (.list [(.attr (.name .self) ._company_pref), (.attr (.name .self) ._doc_type)]),
     .assign (.var .header) (.attr (.item (.attr (.name .GDTI) .BinaryHeader) (.attr (.name .binary_coding_scheme) .name)) .value),
     .assign (.var .filter_binary) (.call (.name .str_to_binary) [(.attr (.name .filter_value) .value), (.int 3)] []),
     .assign (.var .gdti_binary) (.call (.name .encode_partition_table) [(.name .parts), (.name .PARTITION_TABLE_L)] []),
     .assign (.var .serial_binary) (.ite (.cmp .eq (.name .binary_coding_scheme) (.attr (.attr (.name .GDTI) .BinaryCodingScheme) .GDTI_96)) (.call (.name .str_to_binary) [(.attr (.name .self) ._serial), (.int 41)] []) (.call (.name .encode_string) [(.attr (.name .self) ._serial), (.int 119)] [])),
     .assign (.var ._binary) (.bin .add (.bin .add (.bin .add (.name .header) (.name .filter_binary)) (.name .gdti_binary)) (.name .serial_binary)),
     .ret (.name ._binary)]⟩

/-- `GDTI.from_binary`.  /repo/epcpy/epc_schemes/gdti.py:266-294 -/
def GDTI.from_binary : FunDef :=
  ⟨.gdti, (some .GDTI), [⟨.cls, none⟩, ⟨.binary_string, none⟩], none, none,
    [.unpack [(.var .binary_coding_scheme), (.var .truncated_binary)] none (.call (.name .parse_header_and_truncate_binary) [(.name .binary_string), (.call (.attr (.name .cls) .header_to_schemes) [] [])] []),
     .assign (.var .filter_binary) (.slice (.name .truncated_binary) (.int 8) (.int 11) .none),
     .assign (.var .gdti_binary) (.slice (.name .truncated_binary) (.int 11) (.int 55) .none),
     .assign (.var .serial_binary) (.slice (.name .truncated_binary) (.int 55) .none .none),
     .assign (.var .filter_string) (.call (.name .binary_to_int) [(.name .filter_binary)] []),
     .assign (.var .gdti_string) (.call (.name .decode_partition_table) [(.name .gdti_binary), (.name .PARTITION_TABLE_P)] []),
     .assign (.var .serial_string) (.ite (.cmp .eq (.name .binary_coding_scheme) (.attr (.attr (.name .GDTI) .BinaryCodingScheme) .GDTI_96)) (.call (.name .binary_to_int) [(.name .serial_binary)] []) (.call (.name .decode_string) [(.name .serial_binary)] [])),
     .ret (.call (.attr (.name .cls) .from_tag_uri) [(.cat (.fmt (.attr (.name .cls) .TAG_URI_PREFIX) (.str [])) (.cat (.fmt (.attr (.name .binary_coding_scheme) .value) (.str [])) (.cat (.str (py ":")) (.cat (.fmt (.name .filter_string) (.str [])) (.cat (.str (py ".")) (.cat (.fmt (.name .gdti_string) (.str [])) (.cat (.str (py ".")) (.fmt (.name .serial_string) (.str [])))))))))] [])]⟩

end Epc.Src
