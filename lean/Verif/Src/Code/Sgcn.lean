/-
The source of /repo/epcpy/epc_schemes/sgcn.py.
Generated by tools/gen_src.py from the syntax trees of /repo/epcpy.
-/
import Verif.Src.Syntax

namespace Epc.Src

/-- `SGCN_URI_REGEX`.  /repo/epcpy/epc_schemes/sgcn.py:21-21 -/
def sgcn.SGCN_URI_REGEX : Expr :=
  (.call (.attr (.name .re) .compile) [(.name .SGCN_URI)] [])

/-- `PARTITION_TABLE_P`.  /repo/epcpy/epc_schemes/sgcn.py:24-74 -/
def sgcn.PARTITION_TABLE_P : Expr :=
  (.dict [((.int 0), (.dict [((.str (py "P")), (.int 0)), ((.str (py "M")), (.int 40)), ((.str (py "L")), (.int 12)), ((.str (py "N")), (.int 1)), ((.str (py "K")), (.int 0))])), ((.int 1), (.dict [((.str (py "P")), (.int 1)), ((.str (py "M")), (.int 37)), ((.str (py "L")), (.int 11)), ((.str (py "N")), (.int 4)), ((.str (py "K")), (.int 1))])), ((.int 2), (.dict [((.str (py "P")), (.int 2)), ((.str (py "M")), (.int 34)), ((.str (py "L")), (.int 10)), ((.str (py "N")), (.int 7)), ((.str (py "K")), (.int 2))])), ((.int 3), (.dict [((.str (py "P")), (.int 3)), ((.str (py "M")), (.int 30)), ((.str (py "L")), (.int 9)), ((.str (py "N")), (.int 11)), ((.str (py "K")), (.int 3))])), ((.int 4), (.dict [((.str (py "P")), (.int 4)), ((.str (py "M")), (.int 27)), ((.str (py "L")), (.int 8)), ((.str (py "N")), (.int 14)), ((.str (py "K")), (.int 4))])), ((.int 5), (.dict [((.str (py "P")), (.int 5)), ((.str (py "M")), (.int 24)), ((.str (py "L")), (.int 7)), ((.str (py "N")), (.int 17)), ((.str (py "K")), (.int 5))])), ((.int 6), (.dict [((.str (py "P")), (.int 6)), ((.str (py "M")), (.int 20)), ((.str (py "L")), (.int 6)), ((.str (py "N")), (.int 21)), ((.str (py "K")), (.int 6))]))])

/-- `PARTITION_TABLE_L`.  /repo/epcpy/epc_schemes/sgcn.py:76-84 -/
def sgcn.PARTITION_TABLE_L : Expr :=
  (.dict [((.int 12), (.item (.name .PARTITION_TABLE_P) (.int 0))), ((.int 11), (.item (.name .PARTITION_TABLE_P) (.int 1))), ((.int 10), (.item (.name .PARTITION_TABLE_P) (.int 2))), ((.int 9), (.item (.name .PARTITION_TABLE_P) (.int 3))), ((.int 8), (.item (.name .PARTITION_TABLE_P) (.int 4))), ((.int 7), (.item (.name .PARTITION_TABLE_P) (.int 5))), ((.int 6), (.item (.name .PARTITION_TABLE_P) (.int 6)))])

/-- `SGCN.__init__`.  /repo/epcpy/epc_schemes/sgcn.py:129-151 -/
def SGCN.__init__ : FunDef :=
  ⟨.sgcn, (some .SGCN), [⟨.self, none⟩, ⟨.epc_uri, none⟩], none, none,
    [.superInit [(.name .epc_uri)],
     .ite (.not (.call (.attr (.name .SGCN_URI_REGEX) .fullmatch) [(.name .epc_uri)] [])) [.raise (.call (.name .ConvertException) [] [(.message, (.cat (.str (py "Invalid SGCN URI ")) (.fmt (.name .epc_uri) (.str []))))])] [],
     .unpack [(.attr .self ._company_pref), (.attr .self ._coupon_ref), (.attr .self ._serial)] none (.call (.attr (.item (.call (.attr (.name .epc_uri) .split) [(.str (py ":"))] []) (.int 4)) .split) [(.str (py "."))] []),
     .ite (.or (.cmp .ne (.call (.name .len) [(.cat (.fmt (.attr (.name .self) ._company_pref) (.str [])) (.fmt (.attr (.name .self) ._coupon_ref) (.str [])))] []) (.int 12)) (.or (.cmp .gt (.call (.name .len) [(.attr (.name .self) ._serial)] []) (.int 12)) (.not (.cmp2 .le .le (.int 6) (.call (.name .len) [(.attr (.name .self) ._company_pref)] []) (.int 12))))) [.raise (.call (.name .ConvertException) [] [(.message, (.cat (.str (py "Invalid SGCN URI ")) (.cat (.fmt (.name .epc_uri) (.str [])) (.str (py " | wrong number of digits")))))])] [],
     .assign (.attr .self .epc_uri) (.name .epc_uri),
     .assign (.var .check_digit) (.call (.name .calculate_checksum) [(.cat (.fmt (.attr (.name .self) ._company_pref) (.str [])) (.fmt (.attr (.name .self) ._coupon_ref) (.str [])))] []),
     .assign (.attr .self ._gcn) (.cat (.fmt (.attr (.name .self) ._company_pref) (.str [])) (.cat (.fmt (.attr (.name .self) ._coupon_ref) (.str [])) (.cat (.fmt (.name .check_digit) (.str [])) (.fmt (.attr (.name .self) ._serial) (.str [])))))]⟩

/-- `SGCN.gs1_key`.  /repo/epcpy/epc_schemes/sgcn.py:153-159 -/
def SGCN.gs1_key : FunDef :=
  ⟨.sgcn, (some .SGCN), [⟨.self, none⟩], none, none,
    [.ret (.attr (.name .self) ._gcn)]⟩

/-- `SGCN.gs1_element_string`.  /repo/epcpy/epc_schemes/sgcn.py:161-167 -/
def SGCN.gs1_element_string : FunDef :=
  ⟨.sgcn, (some .SGCN), [⟨.self, none⟩], none, none,
    [.ret (.cat (.str (py "(255)")) (.fmt (.attr (.name .self) ._gcn) (.str [])))]⟩

/-- `SGCN.from_gs1_element_string`.  /repo/epcpy/epc_schemes/sgcn.py:170-196 -/
def SGCN.from_gs1_element_string : FunDef :=
  ⟨.sgcn, (some .SGCN), [⟨.cls, none⟩, ⟨.gs1_element_string, none⟩, ⟨.company_prefix_length, none⟩], none, none,
    [.ite (.not (.call (.attr (.attr (.name .SGCN) .gs1_element_string_regex) .fullmatch) [(.name .gs1_element_string)] [])) [.raise (.call (.name .ConvertException) [] [(.message, (.cat (.str (py "Invalid SGCN GS1 element string ")) (.fmt (.name .gs1_element_string) (.str []))))])] [],
     .assign (.var .digits) (.slice (.name .gs1_element_string) (.int 5) (.int 18) .none),
     .assign (.var .chars) (.slice (.name .gs1_element_string) (.int 18) .none .none),
     .assign (.var .chars) (.call (.name .revert_uri_escapes) [(.name .chars)] []),
     .ret (.call (.name .cls) [(.cat (.str (py "urn:epc:id:sgcn:")) (.cat (.fmt (.slice (.name .digits) .none (.name .company_prefix_length) .none) (.str [])) (.cat (.str (py ".")) (.cat (.fmt (.slice (.name .digits) (.name .company_prefix_length) (.neg (.int 1)) .none) (.str [])) (.cat (.str (py ".")) (.fmt (.name .chars) (.str [])))))))] [])]⟩

/-- `SGCN.tag_uri`.  /repo/epcpy/epc_schemes/sgcn.py:198-213 -/
def SGCN.tag_uri : FunDef :=
  ⟨.sgcn, (some .SGCN), [⟨.self, none⟩, ⟨.filter_value, none⟩, ⟨.binary_coding_scheme, (some (.attr (.name .BinaryCodingScheme) .SGCN_96))⟩], none, none,
    [.ret (.cat (.fmt (.attr (.name .self) .TAG_URI_PREFIX) (.str [])) (.cat (.fmt (.attr (.name .binary_coding_scheme) .value) (.str [])) (.cat (.str (py ":")) (.cat (.fmt (.attr (.name .filter_value) .value) (.str [])) (.cat (.str (py ".")) (.cat (.fmt (.attr (.name .self) ._company_pref) (.str [])) (.cat (.str (py ".")) (.cat (.fmt (.attr (.name .self) ._coupon_ref) (.str [])) (.cat (.str (py ".")) (.fmt (.attr (.name .self) ._serial) (.str [])))))))))))]⟩

/-- `SGCN.binary`.  /repo/epcpy/epc_schemes/sgcn.py:215-237 -/
def SGCN.binary : FunDef :=
  ⟨.sgcn, (some .SGCN), [⟨.self, none⟩, ⟨.filter_value, none⟩, ⟨.binary_coding_scheme, (some (.attr (.name .BinaryCodingScheme) .SGCN_96))⟩], none, none,
    [.assign (.var .parts) (.list [(.attr (.name .self) ._company_pref), (.attr (.name .self) ._coupon_ref)]),
     .assign (.var .header) (.attr (.item (.attr (.name .SGCN) .BinaryHeader) (.attr (.name .binary_coding_scheme) .name)) .value),
     .assign (.var .filter_binary) (.call (.name .str_to_binary) [(.attr (.name .filter_value) .value), (.int 3)] []),
     .assign (.var .sgcn_binary) (.call (.name .encode_partition_table) [(.name .parts), (.name .PARTITION_TABLE_L)] []),
     .assign (.var .serial_binary) (.call (.name .encode_numeric_string) [(.attr (.name .self) ._serial), (.int 41)] []),
     .ret (.bin .add (.bin .add (.bin .add (.name .header) (.name .filter_binary)) (.name .sgcn_binary)) (.name .serial_binary))]⟩

/-- `SGCN.from_binary`.  /repo/epcpy/epc_schemes/sgcn.py:240-264 -/
def SGCN.from_binary : FunDef :=
  ⟨.sgcn, (some .SGCN), [⟨.cls, none⟩, ⟨.binary_string, none⟩], none, none,
    [.unpack [(.var .binary_coding_scheme), (.var .truncated_binary)] none (.call (.name .parse_header_and_truncate_binary) [(.name .binary_string), (.call (.attr (.name .cls) .header_to_schemes) [] [])] []),
     .assign (.var .filter_binary) (.slice (.name .truncated_binary) (.int 8) (.int 11) .none),
     .assign (.var .sgcn_binary) (.slice (.name .truncated_binary) (.int 11) (.int 55) .none),
     .assign (.var .serial_binary) (.slice (.name .truncated_binary) (.int 55) .none .none),
     .assign (.var .filter_string) (.call (.name .binary_to_int) [(.name .filter_binary)] []),
     .assign (.var .sgcn_string) (.call (.name .decode_partition_table) [(.name .sgcn_binary), (.name .PARTITION_TABLE_P)] []),
     .assign (.var .serial_string) (.call (.name .decode_numeric_string) [(.name .serial_binary)] []),
     .ret (.call (.attr (.name .cls) .from_tag_uri) [(.cat (.fmt (.attr (.name .cls) .TAG_URI_PREFIX) (.str [])) (.cat (.fmt (.attr (.name .binary_coding_scheme) .value) (.str [])) (.cat (.str (py ":")) (.cat (.fmt (.name .filter_string) (.str [])) (.cat (.str (py ".")) (.cat (.fmt (.name .sgcn_string) (.str [])) (.cat (.str (py ".")) (.fmt (.name .serial_string) (.str [])))))))))] [])]⟩

end Epc.Src
