/-
The source of /repo/epcpy/epc_schemes/itip.py.
Generated by tools/gen_src.py from the syntax trees of /repo/epcpy.
-/
import Verif.Src.Syntax

namespace Epc.Src

/-- `ITIP_URI_REGEX`.  /repo/epcpy/epc_schemes/itip.py:25-25 -/
def itip.ITIP_URI_REGEX : Expr :=
  (.call (.attr (.name .re) .compile) [(.name .ITIP_URI)] [])

/-- `PARTITION_TABLE_P`.  /repo/epcpy/epc_schemes/itip.py:27-77 -/
def itip.PARTITION_TABLE_P : Expr :=
  (.dict [((.int 0), (.dict [((.str (py "P")), (.int 0)), ((.str (py "M")), (.int 40)), ((.str (py "L")), (.int 12)), ((.str (py "N")), (.int 4)), ((.str (py "K")), (.int 1))])), ((.int 1), (.dict [((.str (py "P")), (.int 1)), ((.str (py "M")), (.int 37)), ((.str (py "L")), (.int 11)), ((.str (py "N")), (.int 7)), ((.str (py "K")), (.int 2))])), ((.int 2), (.dict [((.str (py "P")), (.int 2)), ((.str (py "M")), (.int 34)), ((.str (py "L")), (.int 10)), ((.str (py "N")), (.int 10)), ((.str (py "K")), (.int 3))])), ((.int 3), (.dict [((.str (py "P")), (.int 3)), ((.str (py "M")), (.int 30)), ((.str (py "L")), (.int 9)), ((.str (py "N")), (.int 14)), ((.str (py "K")), (.int 4))])), ((.int 4), (.dict [((.str (py "P")), (.int 4)), ((.str (py "M")), (.int 27)), ((.str (py "L")), (.int 8)), ((.str (py "N")), (.int 17)), ((.str (py "K")), (.int 5))])), ((.int 5), (.dict [((.str (py "P")), (.int 5)), ((.str (py "M")), (.int 24)), ((.str (py "L")), (.int 7)), ((.str (py "N")), (.int 20)), ((.str (py "K")), (.int 6))])), ((.int 6), (.dict [((.str (py "P")), (.int 6)), ((.str (py "M")), (.int 20)), ((.str (py "L")), (.int 6)), ((.str (py "N")), (.int 24)), ((.str (py "K")), (.int 7))]))])

/-- `PARTITION_TABLE_L`.  /repo/epcpy/epc_schemes/itip.py:79-87 -/
def itip.PARTITION_TABLE_L : Expr :=
  (.dict [((.int 12), (.item (.name .PARTITION_TABLE_P) (.int 0))), ((.int 11), (.item (.name .PARTITION_TABLE_P) (.int 1))), ((.int 10), (.item (.name .PARTITION_TABLE_P) (.int 2))), ((.int 9), (.item (.name .PARTITION_TABLE_P) (.int 3))), ((.int 8), (.item (.name .PARTITION_TABLE_P) (.int 4))), ((.int 7), (.item (.name .PARTITION_TABLE_P) (.int 5))), ((.int 6), (.item (.name .PARTITION_TABLE_P) (.int 6)))])

/-- `ITIP.__init__`.  /repo/epcpy/epc_schemes/itip.py:133-157 -/
def ITIP.__init__ : FunDef :=
  ⟨.itip, (some .ITIP), [⟨.self, none⟩, ⟨.epc_uri, none⟩], none, none,
    [.superInit [(.name .epc_uri)],
     .ite (.not (.call (.attr (.name .ITIP_URI_REGEX) .fullmatch) [(.name .epc_uri)] [])) [.raise (.call (.name .ConvertException) [] [(.message, (.cat (.str (py "Invalid ITIP URI ")) (.fmt (.name .epc_uri) (.str []))))])] [],
     .unpack [(.attr .self ._company_pref), (.attr .self ._item_ref), (.attr .self ._piece), (.attr .self ._total)] (some (.var .serial)) (.call (.attr (.call (.attr (.str (py ":")) .join) [(.slice (.call (.attr (.name .epc_uri) .split) [(.str (py ":"))] []) (.int 4) .none .none)] []) .split) [(.str (py "."))] []),
     .assign (.attr .self ._serial) (.call (.attr (.str (py ".")) .join) [(.name .serial)] []),
     .expr (.call (.name .verify_gs3a3_component) [(.attr (.name .self) ._serial)] []),
     .ite (.or (.cmp .ne (.call (.name .len) [(.cat (.fmt (.attr (.name .self) ._company_pref) (.str [])) (.cat (.fmt (.attr (.name .self) ._item_ref) (.str [])) (.cat (.fmt (.attr (.name .self) ._piece) (.str [])) (.fmt (.attr (.name .self) ._total) (.str [])))))] []) (.int 17)) (.or (.not (.cmp2 .le .le (.int 1) (.call (.name .len) [(.call (.name .replace_uri_escapes) [(.attr (.name .self) ._serial)] [])] []) (.int 20))) (.not (.cmp2 .le .le (.int 6) (.call (.name .len) [(.attr (.name .self) ._company_pref)] []) (.int 12))))) [.raise (.call (.name .ConvertException) [] [(.message, (.cat (.str (py "Invalid ITIP URI ")) (.fmt (.name .epc_uri) (.str []))))])] [],
     .assign (.attr .self .epc_uri) (.name .epc_uri)]⟩

/-- `ITIP.gs1_element_string`.  /repo/epcpy/epc_schemes/itip.py:159-170 -/
def ITIP.gs1_element_string : FunDef :=
  ⟨.itip, (some .ITIP), [⟨.self, none⟩], none, none,
    [.assign (.var .indicator) (.item (.attr (.name .self) ._item_ref) (.int 0)),
     .assign (.var .check_digit) (.call (.name .calculate_checksum) [(.cat (.fmt (.name .indicator) (.str [])) (.cat (.fmt (.attr (.name .self) ._company_pref) (.str [])) (.fmt (.slice (.attr (.name .self) ._item_ref) (.int 1) .none .none) (.str []))))] []),
     .ret (.cat (.str (py "(8006)")) (.cat (.fmt (.name .indicator) (.str [])) (.cat (.fmt (.attr (.name .self) ._company_pref) (.str [])) (.cat (.fmt (.slice (.attr (.name .self) ._item_ref) (.int 1) .none .none) (.str [])) (.cat (.fmt (.name .check_digit) (.str [])) (.cat (.fmt (.attr (.name .self) ._piece) (.str [])) (.cat (.fmt (.attr (.name .self) ._total) (.str [])) (.cat (.str (py "(21)")) (.fmt (.call (.name .replace_uri_escapes) [(.attr (.name .self) ._serial)] []) (.str []))))))))))]⟩

/-- `ITIP.from_gs1_element_string`.  /repo/epcpy/epc_schemes/itip.py:173-199 -/
def ITIP.from_gs1_element_string : FunDef :=
  ⟨.itip, (some .ITIP), [⟨.cls, none⟩, ⟨.gs1_element_string, none⟩, ⟨.company_prefix_length, none⟩], none, none,
    [.ite (.not (.call (.attr (.attr (.name .ITIP) .gs1_element_string_regex) .fullmatch) [(.name .gs1_element_string)] [])) [.raise (.call (.name .ConvertException) [] [(.message, (.cat (.str (py "Invalid ITIP GS1 element string ")) (.fmt (.name .gs1_element_string) (.str []))))])] [],
     .assign (.var .digits) (.slice (.name .gs1_element_string) (.int 6) (.int 24) .none),
     .assign (.var .chars) (.slice (.name .gs1_element_string) (.int 28) .none .none),
     .assign (.var .chars) (.call (.name .revert_uri_escapes) [(.name .chars)] []),
     .ret (.call (.name .cls) [(.cat (.str (py "urn:epc:id:itip:")) (.cat (.fmt (.slice (.name .digits) (.int 1) (.bin .add (.int 1) (.name .company_prefix_length)) .none) (.str [])) (.cat (.str (py ".")) (.cat (.fmt (.item (.name .digits) (.int 0)) (.str [])) (.cat (.fmt (.slice (.name .digits) (.bin .add (.int 1) (.name .company_prefix_length)) (.neg (.int 5)) .none) (.str [])) (.cat (.str (py ".")) (.cat (.fmt (.slice (.name .digits) (.neg (.int 4)) (.neg (.int 2)) .none) (.str [])) (.cat (.str (py ".")) (.cat (.fmt (.slice (.name .digits) (.neg (.int 2)) .none .none) (.str [])) (.cat (.str (py ".")) (.fmt (.name .chars) (.str []))))))))))))] [])]⟩

/-- `ITIP.tag_uri`.  /repo/epcpy/epc_schemes/itip.py:201-231 -/
def ITIP.tag_uri : FunDef :=
  ⟨.itip, (some .ITIP), [⟨.self, none⟩, ⟨.binary_coding_scheme, none⟩, ⟨.filter_value, none⟩], none, none,
    [.assign (.var .filter_val) (.attr (.name .filter_value) .value),
     .ite (.or (.and (.cmp .eq (.name .binary_coding_scheme) (.attr (.attr (.name .ITIP) .BinaryCodingScheme) .ITIP_212)) (.cmp .gt (.call (.name .len) [(.call (.name .replace_uri_escapes) [(.attr (.name .self) ._serial)] [])] []) (.int 20))) (.and (.cmp .eq (.name .binary_coding_scheme) (.attr (.attr (.name .ITIP) .BinaryCodingScheme) .ITIP_110)) (.or (.not (.call (.attr (.attr (.name .self) ._serial) .isnumeric) [] [])) (.or (.cmp .ge (.call (.name .int) [(.attr (.name .self) ._serial)] []) (.call (.name .pow) [(.int 2), (.int 38)] [])) (.and (.cmp .gt (.call (.name .len) [(.attr (.name .self) ._serial)] []) (.int 1)) (.cmp .eq (.item (.attr (.name .self) ._serial) (.int 0)) (.str (py "0")))))))) [.raise (.call (.name .ConvertException) [] [(.message, (.cat (.str (py "Invalid serial value ")) (.fmt (.attr (.name .self) ._serial) (.str []))))])] [],
     .ret (.cat (.fmt (.attr (.name .self) .TAG_URI_PREFIX) (.str [])) (.cat (.fmt (.attr (.name .binary_coding_scheme) .value) (.str [])) (.cat (.str (py ":")) (.cat (.fmt (.name .filter_val) (.str [])) (.cat (.str (py ".")) (.cat (.fmt (.attr (.name .self) ._company_pref) (.str [])) (.cat (.str (py ".")) (.cat (.fmt (.attr (.name .self) ._item_ref) (.str [])) (.cat (.str (py ".")) (.cat (.fmt (.attr (.name .self) ._piece) (.str [])) (.cat (.str (py ".")) (.cat (.fmt (.attr (.name .self) ._total) (.str [])) (.cat (.str (py ".")) (.fmt (.attr (.name .self) ._serial) (.str [])))))))))))))))]⟩

/-- `ITIP.binary`.  /repo/epcpy/epc_schemes/itip.py:233-267 -/
def ITIP.binary : FunDef :=
  ⟨.itip, (some .ITIP), [⟨.self, none⟩, ⟨.filter_value, none⟩, ⟨.binary_coding_scheme, none⟩], none, none,
    [.assign (.var .parts) (.list [(.attr (.name .self) ._company_pref), (.attr (.name .self) ._item_ref)]),
     .assign (.var .header) (.attr (.item (.attr (.name .ITIP) .BinaryHeader) (.attr (.name .binary_coding_scheme) .name)) .value),
     .assign (.var .filter_binary) (.call (.name .str_to_binary) [(.attr (.name .filter_value) .value), (.int 3)] []),
     .assign (.var .gtin_binary) (.call (.name .encode_partition_table) [(.name .parts), (.name .PARTITION_TABLE_L)] []),
     .assign (.var .piece_binary) (.call (.name .encode_fixed_width_integer) [(.attr (.name .self) ._piece), (.int 7)] []),
     .assign (.var .total_binary) (.call (.name .encode_fixed_width_integer) [(.attr (.name .self) ._total), (.int 7)] []),
     .assign (.var .serial_binary) (.ite (.cmp .eq (.name .binary_coding_scheme) (.attr (.attr (.name .ITIP) .BinaryCodingScheme) .ITIP_110)) (.call (.name .str_to_binary) [(.attr (.name .self) ._serial), (.int 38)] []) (.call (.name .encode_string) [(.attr (.name .self) ._serial), (.int 140)] [])),
     .ret (.bin .add (.bin .add (.bin .add (.bin .add (.bin .add (.name .header) (.name .filter_binary)) (.name .gtin_binary)) (.name .piece_binary)) (.name .total_binary)) (.name .serial_binary))]⟩

/-- `ITIP.from_binary`.  /repo/epcpy/epc_schemes/itip.py:270-302 -/
def ITIP.from_binary : FunDef :=
  ⟨.itip, (some .ITIP), [⟨.cls, none⟩, ⟨.binary_string, none⟩], none, none,
    [.unpack [(.var .binary_coding_scheme), (.var .truncated_binary)] none (.call (.name .parse_header_and_truncate_binary) [(.name .binary_string), (.call (.attr (.name .cls) .header_to_schemes) [] [])] []),
     .assign (.var .filter_binary) (.slice (.name .truncated_binary) (.int 8) (.int 11) .none),
     .assign (.var .gtin_binary) (.slice (.name .truncated_binary) (.int 11) (.int 58) .none),
     .assign (.var .piece_binary) (.slice (.name .truncated_binary) (.int 58) (.int 65) .none),
     .assign (.var .total_binary) (.slice (.name .truncated_binary) (.int 65) (.int 72) .none),
     .assign (.var .serial_binary) (.slice (.name .truncated_binary) (.int 72) .none .none),
     .assign (.var .filter_string) (.call (.name .binary_to_int) [(.name .filter_binary)] []),
     .assign (.var .gtin_string) (.call (.name .decode_partition_table) [(.name .gtin_binary), (.name .PARTITION_TABLE_P)] []),
     .assign (.var .piece_string) (.call (.name .decode_fixed_width_integer) [(.name .piece_binary)] []),
     .assign (.var .total_string) (.call (.name .decode_fixed_width_integer) [(.name .total_binary)] []),
     .assign (.var .serial_string) (.ite (.cmp .eq (.name .binary_coding_scheme) (.attr (.attr (.name .ITIP) .BinaryCodingScheme) .ITIP_110)) (.call (.name .binary_to_int) [(.name .serial_binary)] []) (.call (.name .decode_string) [(.name .serial_binary)] [])),
     .ret (.call (.attr (.name .cls) .from_tag_uri) [(.cat (.fmt (.attr (.name .cls) .TAG_URI_PREFIX) (.str [])) (.cat (.fmt (.attr (.name .binary_coding_scheme) .value) (.str [])) (.cat (.str (py ":")) (.cat (.fmt (.name .filter_string) (.str [])) (.cat (.str (py ".")) (.cat (.fmt (.name .gtin_string) (.str [])) (.cat (.str (py ".")) (.cat (.fmt (.name .piece_string) (.str [])) (.cat (.str (py ".")) (.cat (.fmt (.name .total_string) (.str [])) (.cat (.str (py ".")) (.fmt (.name .serial_string) (.str [])))))))))))))] [])]⟩

end Epc.Src
