/-
The source of /repo/epcpy/epc_schemes/sgtin.py.
Generated by tools/gen_src.py from the syntax trees of /repo/epcpy.
-/
import Verif.Src.Syntax

namespace Epc.Src

/-- `SGTIN_REGEX`.  /repo/epcpy/epc_schemes/sgtin.py:23-23 -/
def sgtin.SGTIN_REGEX : Expr :=
  (.call (.attr (.name .re) .compile) [(.name .SGTIN_URI)] [])

/-- `PARTITION_TABLE_P`.  /repo/epcpy/epc_schemes/sgtin.py:25-75 -/
def sgtin.PARTITION_TABLE_P : Expr :=
  (.dict [((.int 0), (.dict [((.str (py "P")), (.int 0)), ((.str (py "M")), (.int 40)), ((.str (py "L")), (.int 12)), ((.str (py "N")), (.int 4)), ((.str (py "K")), (.int 1))])), ((.int 1), (.dict [((.str (py "P")), (.int 1)), ((.str (py "M")), (.int 37)), ((.str (py "L")), (.int 11)), ((.str (py "N")), (.int 7)), ((.str (py "K")), (.int 2))])), ((.int 2), (.dict [((.str (py "P")), (.int 2)), ((.str (py "M")), (.int 34)), ((.str (py "L")), (.int 10)), ((.str (py "N")), (.int 10)), ((.str (py "K")), (.int 3))])), ((.int 3), (.dict [((.str (py "P")), (.int 3)), ((.str (py "M")), (.int 30)), ((.str (py "L")), (.int 9)), ((.str (py "N")), (.int 14)), ((.str (py "K")), (.int 4))])), ((.int 4), (.dict [((.str (py "P")), (.int 4)), ((.str (py "M")), (.int 27)), ((.str (py "L")), (.int 8)), ((.str (py "N")), (.int 17)), ((.str (py "K")), (.int 5))])), ((.int 5), (.dict [((.str (py "P")), (.int 5)), ((.str (py "M")), (.int 24)), ((.str (py "L")), (.int 7)), ((.str (py "N")), (.int 20)), ((.str (py "K")), (.int 6))])), ((.int 6), (.dict [((.str (py "P")), (.int 6)), ((.str (py "M")), (.int 20)), ((.str (py "L")), (.int 6)), ((.str (py "N")), (.int 24)), ((.str (py "K")), (.int 7))]))])

/-- `PARTITION_TABLE_L`.  /repo/epcpy/epc_schemes/sgtin.py:77-85 -/
def sgtin.PARTITION_TABLE_L : Expr :=
  (.dict [((.int 12), (.item (.name .PARTITION_TABLE_P) (.int 0))), ((.int 11), (.item (.name .PARTITION_TABLE_P) (.int 1))), ((.int 10), (.item (.name .PARTITION_TABLE_P) (.int 2))), ((.int 9), (.item (.name .PARTITION_TABLE_P) (.int 3))), ((.int 8), (.item (.name .PARTITION_TABLE_P) (.int 4))), ((.int 7), (.item (.name .PARTITION_TABLE_P) (.int 5))), ((.int 6), (.item (.name .PARTITION_TABLE_P) (.int 6)))])

/-- `SGTIN.__init__`.  /repo/epcpy/epc_schemes/sgtin.py:141-174 -/
def SGTIN.__init__ : FunDef :=
  ⟨.sgtin, (some .SGTIN), [⟨.self, none⟩, ⟨.epc_uri, none⟩], none, none,
    [.superInit [(.name .epc_uri)],
     .ite (.not (.call (.attr (.name .SGTIN_REGEX) .fullmatch) [(.name .epc_uri)] [])) [.raise (.call (.name .ConvertException) [] [(.message, (.cat (.str (py "Invalid SGTIN URI ")) (.fmt (.name .epc_uri) (.str []))))])] [],
     .assign (.attr .self .epc_uri) (.name .epc_uri),
     .assign (.var .value) (.item (.call (.attr (.attr (.name .self) .epc_uri) .split) [(.str (py ":"))] []) (.int 4)),
     .assign (.attr .self ._company_pref) (.item (.call (.attr (.name .value) .split) [(.str (py "."))] []) (.int 0)),
     .assign (.attr .self ._item_ref) (.item (.call (.attr (.name .value) .split) [(.str (py "."))] []) (.int 1)),
     .assign (.attr .self ._serial) (.call (.attr (.str (py ".")) .join) [(.slice (.call (.attr (.call (.attr (.str (py ":")) .join) [(.slice (.call (.attr (.name .epc_uri) .split) [(.str (py ":"))] []) (.int 4) .none .none)] []) .split) [(.str (py "."))] []) (.int 2) .none .none)] []),
     .ite (.or (.cmp .ne (.call (.name .len) [(.cat (.fmt (.attr (.name .self) ._company_pref) (.str [])) (.fmt (.attr (.name .self) ._item_ref) (.str [])))] []) (.int 13)) (.not (.cmp2 .le .le (.int 6) (.call (.name .len) [(.attr (.name .self) ._company_pref)] []) (.int 12)))) [.raise (.call (.name .ConvertException) [] [(.message, (.cat (.str (py "Invalid SGTIN URI ")) (.cat (.fmt (.name .epc_uri) (.str [])) (.str (py " | Company prefix + item reference must be 13 digits")))))])] [],
     .expr (.call (.name .verify_gs3a3_component) [(.attr (.name .self) ._serial)] []),
     .ite (.not (.cmp2 .le .le (.int 1) (.call (.name .len) [(.call (.name .replace_uri_escapes) [(.attr (.name .self) ._serial)] [])] []) (.int 20))) [.raise (.call (.name .ConvertException) [] [(.message, (.cat (.str (py "Invalid number of characters in serial: ")) (.fmt (.call (.name .len) [(.call (.name .replace_uri_escapes) [(.attr (.name .self) ._serial)] [])] []) (.str []))))])] [],
     .assign (.var .check_digit) (.call (.name .calculate_checksum) [(.cat (.fmt (.item (.attr (.name .self) ._item_ref) (.int 0)) (.str [])) (.cat (.fmt (.attr (.name .self) ._company_pref) (.str [])) (.fmt (.slice (.attr (.name .self) ._item_ref) (.int 1) .none .none) (.str []))))] []),
     .assign (.attr .self ._gtin) (.call (.attr (.cat (.fmt (.item (.attr (.name .self) ._item_ref) (.int 0)) (.str [])) (.cat (.fmt (.attr (.name .self) ._company_pref) (.str [])) (.cat (.fmt (.slice (.attr (.name .self) ._item_ref) (.int 1) .none .none) (.str [])) (.fmt (.name .check_digit) (.str []))))) .zfill) [(.int 14)] [])]⟩

/-- `SGTIN.from_gtin_plus_serial`.  /repo/epcpy/epc_schemes/sgtin.py:177-193 -/
def SGTIN.from_gtin_plus_serial : FunDef :=
  ⟨.sgtin, (some .SGTIN), [⟨.cls, none⟩, ⟨.gtin, none⟩, ⟨.serial, none⟩, ⟨.company_prefix_length, none⟩], none, none,
    [.assign (.var .gtin) (.call (.attr (.name .gtin) .zfill) [(.int 14)] []),
     .ret (.call (.name .cls) [(.cat (.str (py "urn:epc:id:sgtin:")) (.cat (.fmt (.slice (.name .gtin) (.int 1) (.bin .add (.int 1) (.name .company_prefix_length)) .none) (.str [])) (.cat (.str (py ".")) (.cat (.fmt (.item (.name .gtin) (.int 0)) (.str [])) (.cat (.fmt (.slice (.name .gtin) (.bin .add (.int 1) (.name .company_prefix_length)) (.neg (.int 1)) .none) (.str [])) (.cat (.str (py ".")) (.fmt (.call (.name .str) [(.name .serial)] []) (.str []))))))))] [])]⟩

/-- `SGTIN.gs1_key`.  /repo/epcpy/epc_schemes/sgtin.py:195-205 -/
def SGTIN.gs1_key : FunDef :=
  ⟨.sgtin, (some .SGTIN), [⟨.self, none⟩, ⟨.gtin_type, (some (.attr (.name .GTIN_TYPE) .GTIN14))⟩], none, none,
    [.ret (.call (.attr (.name .self) .gtin) [] [(.gtin_type, (.name .gtin_type))])]⟩

/-- `SGTIN.gtin`.  /repo/epcpy/epc_schemes/sgtin.py:207-224 -/
def SGTIN.gtin : FunDef :=
  ⟨.sgtin, (some .SGTIN), [⟨.self, none⟩, ⟨.gtin_type, (some (.attr (.name .GTIN_TYPE) .GTIN14))⟩], none, none,
    [.ite (.cmp .ne (.name .gtin_type) (.attr (.name .GTIN_TYPE) .GTIN14)) [.ite (.not (.call (.attr (.attr (.name .self) ._gtin) .startswith) [(.bin .mul (.bin .sub (.int 14) (.name .gtin_type)) (.str (py "0")))] [])) [.raise (.call (.name .ConvertException) [] [(.message, (.cat (.str (py "Invalid GTIN")) (.fmt (.name .gtin_type) (.str []))))])] []] [],
     .ret (.slice (.attr (.name .self) ._gtin) (.bin .sub (.int 14) (.name .gtin_type)) (.int 14) .none)]⟩

/-- `SGTIN.gs1_element_string`.  /repo/epcpy/epc_schemes/sgtin.py:226-235 -/
def SGTIN.gs1_element_string : FunDef :=
  ⟨.sgtin, (some .SGTIN), [⟨.self, none⟩], none, none,
    [.assign (.var .gtin) (.attr (.name .self) ._gtin),
     .assign (.var .serial) (.call (.name .replace_uri_escapes) [(.attr (.name .self) ._serial)] []),
     .ret (.cat (.str (py "(01)")) (.cat (.fmt (.name .gtin) (.str [])) (.cat (.str (py "(21)")) (.fmt (.name .serial) (.str [])))))]⟩

/-- `SGTIN.from_gs1_element_string`.  /repo/epcpy/epc_schemes/sgtin.py:238-263 -/
def SGTIN.from_gs1_element_string : FunDef :=
  ⟨.sgtin, (some .SGTIN), [⟨.cls, none⟩, ⟨.gs1_element_string, none⟩, ⟨.company_prefix_length, none⟩], none, none,
    [.ite (.not (.call (.attr (.attr (.name .SGTIN) .gs1_element_string_regex) .fullmatch) [(.name .gs1_element_string)] [])) [.raise (.call (.name .ConvertException) [] [(.message, (.cat (.str (py "Invalid SGTIN GS1 element string ")) (.fmt (.name .gs1_element_string) (.str []))))])] [],
     .unpack [(.var .us), (.var .digits), (.var .chars)] none (.call (.attr (.name .re) .split) [(.str (py "\\(.{2}\\)")), (.name .gs1_element_string)] []),
     .assign (.var .chars) (.call (.name .revert_uri_escapes) [(.name .chars)] []),
     .ret (.call (.name .cls) [(.cat (.str (py "urn:epc:id:sgtin:")) (.cat (.fmt (.slice (.name .digits) (.int 1) (.bin .add (.name .company_prefix_length) (.int 1)) .none) (.str [])) (.cat (.str (py ".")) (.cat (.fmt (.item (.name .digits) (.int 0)) (.str [])) (.cat (.fmt (.slice (.name .digits) (.bin .add (.int 1) (.name .company_prefix_length)) (.neg (.int 1)) .none) (.str [])) (.cat (.str (py ".")) (.fmt (.name .chars) (.str []))))))))] [])]⟩

/-- `SGTIN.tag_uri`.  /repo/epcpy/epc_schemes/sgtin.py:265-294 -/
def SGTIN.tag_uri : FunDef :=
  ⟨.sgtin, (some .SGTIN), [⟨.self, none⟩, ⟨.binary_coding_scheme, none⟩, ⟨.filter_value, none⟩], none, none,
    [.ite (.and (.cmp .eq (.name .binary_coding_scheme) (.attr (.attr (.name .SGTIN) .BinaryCodingScheme) .SGTIN_96)) (.or (.not (.call (.attr (.attr (.name .self) ._serial) .isnumeric) [] [])) (.or (.cmp .ge (.call (.name .int) [(.attr (.name .self) ._serial)] []) (.call (.name .pow) [(.int 2), (.int 38)] [])) (.and (.cmp .gt (.call (.name .len) [(.attr (.name .self) ._serial)] []) (.int 1)) (.cmp .eq (.item (.attr (.name .self) ._serial) (.int 0)) (.str (py "0"))))))) [.raise (.call (.name .ConvertException) [] [(.message, (.cat (.str (py "Invalid serial value ")) (.cat (.fmt (.attr (.name .self) ._serial) (.str [])) (.str (py " for SGTIN_96 coding scheme")))))])] [],
     .assign (.var .scheme) (.attr (.name .binary_coding_scheme) .value),
     .assign (.var .filter_val) (.attr (.name .filter_value) .value),
     .ret (.cat (.fmt (.attr (.name .self) .TAG_URI_PREFIX) (.str [])) (.cat (.fmt (.name .scheme) (.str [])) (.cat (.str (py ":")) (.cat (.fmt (.name .filter_val) (.str [])) (.cat (.str (py ".")) (.cat (.fmt (.attr (.name .self) ._company_pref) (.str [])) (.cat (.str (py ".")) (.cat (.fmt (.attr (.name .self) ._item_ref) (.str [])) (.cat (.str (py ".")) (.fmt (.attr (.name .self) ._serial) (.str [])))))))))))]⟩

/-- `SGTIN.binary`.  /repo/epcpy/epc_schemes/sgtin.py:296-322 -/
def SGTIN.binary : FunDef :=
  ⟨.sgtin, (some .SGTIN), [⟨.self, none⟩, ⟨.binary_coding_scheme, none⟩, ⟨.filter_value, none⟩], none, none,
    [.assign (.var .parts) (.list [(.attr (.name .self) ._company_pref), (.attr (.name .self) ._item_ref)]),
     .assign (.var .header) (.attr (.item (.attr (.name .SGTIN) .BinaryHeader) (.attr (.name .binary_coding_scheme) .name)) .value),
     .assign (.var .filter_binary) (.call (.name .str_to_binary) [(.attr (.name .filter_value) .value), (.int 3)] []),
     .assign (.var .gtin_binary) (.call (.name .encode_partition_table) [(.name .parts), (.name .PARTITION_TABLE_L)] []),
     .assign (.var .serial_binary) (.ite (.cmp .eq (.name .binary_coding_scheme) (.attr (.attr (.name .SGTIN) .BinaryCodingScheme) .SGTIN_96)) (.call (.name .str_to_binary) [(.attr (.name .self) ._serial), (.int 38)] []) (.call (.name .encode_string) [(.attr (.name .self) ._serial), (.int 140)] [])),
     .ret (.bin .add (.bin .add (.bin .add (.name .header) (.name .filter_binary)) (.name .gtin_binary)) (.name .serial_binary))]⟩

/-- `SGTIN.from_binary`.  /repo/epcpy/epc_schemes/sgtin.py:325-354 -/
def SGTIN.from_binary : FunDef :=
  ⟨.sgtin, (some .SGTIN), [⟨.cls, none⟩, ⟨.binary_string, none⟩], none, none,
    [.unpack [(.var .binary_coding_scheme), (.var .truncated_binary)] none (.call (.name .parse_header_and_truncate_binary) [(.name .binary_string), (.call (.attr (.name .cls) .header_to_schemes) [] [])] []),
     .assign (.var .filter_binary) (.slice (.name .truncated_binary) (.int 8) (.int 11) .none),
     .assign (.var .gtin_binary) (.slice (.name .truncated_binary) (.int 11) (.int 58) .none),
     .assign (.var .serial_binary) (.slice (.name .truncated_binary) (.int 58) .none .none),
     .assign (.var .filter_string) (.call (.name .binary_to_int) [(.name .filter_binary)] []),
     .assign (.var .gtin_string) (.call (.name .decode_partition_table) [(.name .gtin_binary), (.name .PARTITION_TABLE_P)] []),
     .assign (.var .serial_string) (.ite (.cmp .eq (.name .binary_coding_scheme) (.attr (.attr (.name .SGTIN) .BinaryCodingScheme) .SGTIN_96)) (.call (.name .binary_to_int) [(.name .serial_binary)] []) (.call (.name .decode_string) [(.name .serial_binary)] [])),
     .ret (.call (.attr (.name .cls) .from_tag_uri) [(.cat (.fmt (.attr (.name .cls) .TAG_URI_PREFIX) (.str [])) (.cat (.fmt (.attr (.name .binary_coding_scheme) .value) (.str [])) (.cat (.str (py ":")) (.cat (.fmt (.name .filter_string) (.str [])) (.cat (.str (py ".")) (.cat (.fmt (.name .gtin_string) (.str [])) (.cat (.str (py ".")) (.fmt (.name .serial_string) (.str [])))))))))] [])]⟩

end Epc.Src
