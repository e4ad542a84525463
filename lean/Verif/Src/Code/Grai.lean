/-
The source of /repo/epcpy/epc_schemes/grai.py.
Generated by tools/gen_src.py from the syntax trees of /repo/epcpy.
-/
import Verif.Src.Syntax

namespace Epc.Src

/-- `GRAI_URI_REGEX`.  /repo/epcpy/epc_schemes/grai.py:23-23 -/
def grai.GRAI_URI_REGEX : Expr :=
  (.call (.attr (.name .re) .compile) [(.name .GRAI_URI)] [])

/-- `PARTITION_TABLE_P`.  /repo/epcpy/epc_schemes/grai.py:25-75 -/
def grai.PARTITION_TABLE_P : Expr :=
  (.dict [((.int 0), (.dict [((.str (py "P")), (.int 0)), ((.str (py "M")), (.int 40)), ((.str (py "L")), (.int 12)), ((.str (py "N")), (.int 4)), ((.str (py "K")), (.int 0))])), ((.int 1), (.dict [((.str (py "P")), (.int 1)), ((.str (py "M")), (.int 37)), ((.str (py "L")), (.int 11)), ((.str (py "N")), (.int 7)), ((.str (py "K")), (.int 1))])), ((.int 2), (.dict [((.str (py "P")), (.int 2)), ((.str (py "M")), (.int 34)), ((.str (py "L")), (.int 10)), ((.str (py "N")), (.int 10)), ((.str (py "K")), (.int 2))])), ((.int 3), (.dict [((.str (py "P")), (.int 3)), ((.str (py "M")), (.int 30)), ((.str (py "L")), (.int 9)), ((.str (py "N")), (.int 14)), ((.str (py "K")), (.int 3))])), ((.int 4), (.dict [((.str (py "P")), (.int 4)), ((.str (py "M")), (.int 27)), ((.str (py "L")), (.int 8)), ((.str (py "N")), (.int 17)), ((.str (py "K")), (.int 4))])), ((.int 5), (.dict [((.str (py "P")), (.int 5)), ((.str (py "M")), (.int 24)), ((.str (py "L")), (.int 7)), ((.str (py "N")), (.int 20)), ((.str (py "K")), (.int 5))])), ((.int 6), (.dict [((.str (py "P")), (.int 6)), ((.str (py "M")), (.int 20)), ((.str (py "L")), (.int 6)), ((.str (py "N")), (.int 24)), ((.str (py "K")), (.int 6))]))])

/-- `PARTITION_TABLE_L`.  /repo/epcpy/epc_schemes/grai.py:77-85 -/
def grai.PARTITION_TABLE_L : Expr :=
  (.dict [((.int 12), (.item (.name .PARTITION_TABLE_P) (.int 0))), ((.int 11), (.item (.name .PARTITION_TABLE_P) (.int 1))), ((.int 10), (.item (.name .PARTITION_TABLE_P) (.int 2))), ((.int 9), (.item (.name .PARTITION_TABLE_P) (.int 3))), ((.int 8), (.item (.name .PARTITION_TABLE_P) (.int 4))), ((.int 7), (.item (.name .PARTITION_TABLE_P) (.int 5))), ((.int 6), (.item (.name .PARTITION_TABLE_P) (.int 6)))])

/-- `GRAI.__init__`.  /repo/epcpy/epc_schemes/grai.py:132-153 -/
def GRAI.__init__ : FunDef :=
  ⟨.grai, (some .GRAI), [⟨.self, none⟩, ⟨.epc_uri, none⟩], none, none,
    [.superInit [(.name .epc_uri)],
     .ite (.not (.call (.attr (.name .GRAI_URI_REGEX) .fullmatch) [(.name .epc_uri)] [])) [.raise (.call (.name .ConvertException) [] [(.message, (.cat (.str (py "Invalid GRAI URI ")) (.fmt (.name .epc_uri) (.str []))))])] [],
     .assign (.attr .self ._serial) (.call (.attr (.str (py ".")) .join) [(.slice (.call (.attr (.call (.attr (.str (py ":")) .join) [(.slice (.call (.attr (.name .epc_uri) .split) [(.str (py ":"))] []) (.int 4) .none .none)] []) .split) [(.str (py "."))] []) (.int 2) .none .none)] []),
     .expr (.call (.name .verify_gs3a3_component) [(.attr (.name .self) ._serial)] []),
     .unpack [(.attr .self ._company_pref), (.attr .self ._asset_type)] none (.slice (.call (.attr (.item (.call (.attr (.name .epc_uri) .split) [(.str (py ":"))] []) (.int 4)) .split) [(.str (py "."))] []) .none (.int 2) .none),
     .ite (.or (.cmp .ne (.call (.name .len) [(.cat (.fmt (.attr (.name .self) ._company_pref) (.str [])) (.fmt (.attr (.name .self) ._asset_type) (.str [])))] []) (.int 12)) (.or (.not (.cmp2 .le .le (.int 6) (.call (.name .len) [(.attr (.name .self) ._company_pref)] []) (.int 12))) (.cmp .gt (.call (.name .len) [(.attr (.name .self) ._serial)] []) (.int 16)))) [.raise (.call (.name .ConvertException) [] [(.message, (.cat (.str (py "Invalid EPC URI ")) (.fmt (.name .epc_uri) (.str []))))])] [],
     .assign (.attr .self .epc_uri) (.name .epc_uri),
     .assign (.var .check_digit) (.call (.name .calculate_checksum) [(.cat (.fmt (.attr (.name .self) ._company_pref) (.str [])) (.fmt (.attr (.name .self) ._asset_type) (.str [])))] []),
     .assign (.attr .self ._grai) (.cat (.fmt (.attr (.name .self) ._company_pref) (.str [])) (.cat (.fmt (.attr (.name .self) ._asset_type) (.str [])) (.cat (.fmt (.name .check_digit) (.str [])) (.fmt (.call (.name .replace_uri_escapes) [(.attr (.name .self) ._serial)] []) (.str [])))))]⟩

/-- `GRAI.gs1_key`.  /repo/epcpy/epc_schemes/grai.py:155-161 -/
def GRAI.gs1_key : FunDef :=
  ⟨.grai, (some .GRAI), [⟨.self, none⟩], none, none,
    [.ret (.attr (.name .self) ._grai)]⟩

/-- `GRAI.gs1_element_string`.  /repo/epcpy/epc_schemes/grai.py:163-169 -/
def GRAI.gs1_element_string : FunDef :=
  ⟨.grai, (some .GRAI), [⟨.self, none⟩], none, none,
    [.ret (.cat (.str (py "(8003)0")) (.fmt (.attr (.name .self) ._grai) (.str [])))]⟩

/-- `GRAI.from_gs1_element_string`.  /repo/epcpy/epc_schemes/grai.py:172-198 -/
def GRAI.from_gs1_element_string : FunDef :=
  ⟨.grai, (some .GRAI), [⟨.cls, none⟩, ⟨.gs1_element_string, none⟩, ⟨.company_prefix_length, none⟩], none, none,
    [.ite (.not (.call (.attr (.attr (.name .GRAI) .gs1_element_string_regex) .fullmatch) [(.name .gs1_element_string)] [])) [.raise (.call (.name .ConvertException) [] [(.message, (.cat (.str (py "Invalid GRAI GS1 element string ")) (.fmt (.name .gs1_element_string) (.str []))))])] [],
     .assign (.var .digits) (.slice (.name .gs1_element_string) (.int 7) (.int 20) .none),
     .assign (.var .chars) (.slice (.name .gs1_element_string) (.int 20) .none .none),
     .assign (.var .chars) (.call (.name .revert_uri_escapes) [(.name .chars)] []),
     .ret (.call (.name .cls) [(.cat (.str (py "urn:epc:id:grai:")) (.cat (.fmt (.slice (.name .digits) .none (.name .company_prefix_length) .none) (.str [])) (.cat (.str (py ".")) (.cat (.fmt (.slice (.name .digits) (.name .company_prefix_length) (.neg (.int 1)) .none) (.str [])) (.cat (.str (py ".")) (.fmt (.name .chars) (.str [])))))))] [])]⟩

/-- `GRAI.tag_uri`.  /repo/epcpy/epc_schemes/grai.py:200-230 -/
def GRAI.tag_uri : FunDef :=
  ⟨.grai, (some .GRAI), [⟨.self, none⟩, ⟨.binary_coding_scheme, none⟩, ⟨.filter_value, none⟩], none, none,
    [.assign (.var .filter_val) (.attr (.name .filter_value) .value),
     .ite (.or (.and (.cmp .eq (.name .binary_coding_scheme) (.attr (.attr (.name .GRAI) .BinaryCodingScheme) .GRAI_170)) (.cmp .gt (.call (.name .len) [(.call (.name .replace_uri_escapes) [(.attr (.name .self) ._serial)] [])] []) (.int 20))) (.and (.cmp .eq (.name .binary_coding_scheme) (.attr (.attr (.name .GRAI) .BinaryCodingScheme) .GRAI_96)) (.or (.not (.call (.attr (.attr (.name .self) ._serial) .isnumeric) [] [])) (.or (.cmp .ge (.call (.name .int) [(.attr (.name .self) ._serial)] []) (.call (.name .pow) [(.int 2), (.int 38)] [])) (.and (.cmp .gt (.call (.name .len) [(.attr (.name .self) ._serial)] []) (.int 1)) (.cmp .eq (.item (.attr (.name .self) ._serial) (.int 0)) (.str (py "0")))))))) [.raise (.call (.name .ConvertException) [] [(.message, (.cat (.str (py "Invalid serial value ")) (.fmt (.attr (.name .self) ._serial) (.str []))))])] [],
     .ret (.cat (.fmt (.attr (.name .self) .TAG_URI_PREFIX) (.str [])) (.cat (.fmt (.attr (.name .binary_coding_scheme) .value) (.str [])) (.cat (.str (py ":")) (.cat (.fmt (.name .filter_val) (.str [])) (.cat (.str (py ".")) (.cat (.fmt (.attr (.name .self) ._company_pref) (.str [])) (.cat (.str (py ".")) (.cat (.fmt (.attr (.name .self) ._asset_type) (.str [])) (.cat (.str (py ".")) (.fmt (.attr (.name .self) ._serial) (.str [])))))))))))]⟩

/-- `GRAI.binary`.  /repo/epcpy/epc_schemes/grai.py:232-258 -/
def GRAI.binary : FunDef :=
  ⟨.grai, (some .GRAI), [⟨.self, none⟩, ⟨.binary_coding_scheme, none⟩, ⟨.filter_value, none⟩], none, none,
    [.assign (.var .parts) (.list [(.attr (.name .self) ._company_pref), (.attr (.name .self) ._asset_type)]),
     .assign (.var .header) (.attr (.item (.attr (.name .GRAI) .BinaryHeader) (.attr (.name .binary_coding_scheme) .name)) .value),
     .assign (.var .filter_binary) (.call (.name .str_to_binary) [(.attr (.name .filter_value) .value), (.int 3)] []),
     .assign (.var .grai_binary) (.call (.name .encode_partition_table) [(.name .parts), (.name .PARTITION_TABLE_L)] []),
     .assign (.var .serial_binary) (.ite (.cmp .eq (.name .binary_coding_scheme) (.attr (.attr (.name .GRAI) .BinaryCodingScheme) .GRAI_96)) (.call (.name .str_to_binary) [(.attr (.name .self) ._serial), (.int 38)] []) (.call (.name .encode_string) [(.attr (.name .self) ._serial), (.int 112)] [])),
     .assign (.var ._binary) (.bin .add (.bin .add (.bin .add (.name .header) (.name .filter_binary)) (.name .grai_binary)) (.name .serial_binary)),
     .ret (.name ._binary)]⟩

/-- `GRAI.from_binary`.  /repo/epcpy/epc_schemes/grai.py:261-290 -/
def GRAI.from_binary : FunDef :=
  ⟨.grai, (some .GRAI), [⟨.cls, none⟩, ⟨.binary_string, none⟩], none, none,
    [.unpack [(.var .binary_coding_scheme), (.var .truncated_binary)] none (.call (.name .parse_header_and_truncate_binary) [(.name .binary_string), (.call (.attr (.name .cls) .header_to_schemes) [] [])] []),
     .assign (.var .filter_binary) (.slice (.name .truncated_binary) (.int 8) (.int 11) .none),
     .assign (.var .grai_binary) (.slice (.name .truncated_binary) (.int 11) (.int 58) .none),
     .assign (.var .serial_binary) (.slice (.name .truncated_binary) (.int 58) .none .none),
     .assign (.var .filter_string) (.call (.name .binary_to_int) [(.name .filter_binary)] []),
     .assign (.var .grai_string) (.call (.name .decode_partition_table) [(.name .grai_binary), (.name .PARTITION_TABLE_P)] []),
     .assign (.var .serial_string) (.ite (.cmp .eq (.name .binary_coding_scheme) (.attr (.attr (.name .GRAI) .BinaryCodingScheme) .GRAI_96)) (.call (.name .binary_to_int) [(.name .serial_binary)] []) (.call (.name .decode_string) [(.name .serial_binary)] [])),
     .ret (.call (.attr (.name .cls) .from_tag_uri) [(.cat (.fmt (.attr (.name .cls) .TAG_URI_PREFIX) (.str [])) (.cat (.fmt (.attr (.name .binary_coding_scheme) .value) (.str [])) (.cat (.str (py ":")) (.cat (.fmt (.name .filter_string) (.str [])) (.cat (.str (py ".")) (.cat (.fmt (.name .grai_string) (.str [])) (.cat (.str (py ".")) (.fmt (.name .serial_string) (.str [])))))))))] [])]⟩

end Epc.Src
