/-
The source of /repo/epcpy/epc_schemes/giai.py.
Generated by tools/gen_src.py from the syntax trees of /repo/epcpy.
-/
import Verif.Src.Syntax

namespace Epc.Src

/-- `GIAI_URI_REGEX`.  /repo/epcpy/epc_schemes/giai.py:20-20 -/
def giai.GIAI_URI_REGEX : Expr :=
  (.call (.attr (.name .re) .compile) [(.name .GIAI_URI)] [])

/-- `PARTITION_TABLE_P_96`.  /repo/epcpy/epc_schemes/giai.py:22-72 -/
def giai.PARTITION_TABLE_P_96 : Expr :=
  (.dict [((.int 0), (.dict [((.str (py "P")), (.int 0)), ((.str (py "M")), (.int 40)), ((.str (py "L")), (.int 12)), ((.str (py "N")), (.int 42)), ((.str (py "K")), (.int 13))])), ((.int 1), (.dict [((.str (py "P")), (.int 1)), ((.str (py "M")), (.int 37)), ((.str (py "L")), (.int 11)), ((.str (py "N")), (.int 45)), ((.str (py "K")), (.int 14))])), ((.int 2), (.dict [((.str (py "P")), (.int 2)), ((.str (py "M")), (.int 34)), ((.str (py "L")), (.int 10)), ((.str (py "N")), (.int 48)), ((.str (py "K")), (.int 15))])), ((.int 3), (.dict [((.str (py "P")), (.int 3)), ((.str (py "M")), (.int 30)), ((.str (py "L")), (.int 9)), ((.str (py "N")), (.int 52)), ((.str (py "K")), (.int 16))])), ((.int 4), (.dict [((.str (py "P")), (.int 4)), ((.str (py "M")), (.int 27)), ((.str (py "L")), (.int 8)), ((.str (py "N")), (.int 55)), ((.str (py "K")), (.int 17))])), ((.int 5), (.dict [((.str (py "P")), (.int 5)), ((.str (py "M")), (.int 24)), ((.str (py "L")), (.int 7)), ((.str (py "N")), (.int 58)), ((.str (py "K")), (.int 18))])), ((.int 6), (.dict [((.str (py "P")), (.int 6)), ((.str (py "M")), (.int 20)), ((.str (py "L")), (.int 6)), ((.str (py "N")), (.int 62)), ((.str (py "K")), (.int 19))]))])

/-- `PARTITION_TABLE_L_96`.  /repo/epcpy/epc_schemes/giai.py:74-82 -/
def giai.PARTITION_TABLE_L_96 : Expr :=
  (.dict [((.int 12), (.item (.name .PARTITION_TABLE_P_96) (.int 0))), ((.int 11), (.item (.name .PARTITION_TABLE_P_96) (.int 1))), ((.int 10), (.item (.name .PARTITION_TABLE_P_96) (.int 2))), ((.int 9), (.item (.name .PARTITION_TABLE_P_96) (.int 3))), ((.int 8), (.item (.name .PARTITION_TABLE_P_96) (.int 4))), ((.int 7), (.item (.name .PARTITION_TABLE_P_96) (.int 5))), ((.int 6), (.item (.name .PARTITION_TABLE_P_96) (.int 6)))])

/-- `PARTITION_TABLE_P_202`.  /repo/epcpy/epc_schemes/giai.py:84-134 -/
def giai.PARTITION_TABLE_P_202 : Expr :=
  (.dict [((.int 0), (.dict [((.str (py "P")), (.int 0)), ((.str (py "M")), (.int 40)), ((.str (py "L")), (.int 12)), ((.str (py "N")), (.int 148)), ((.str (py "K")), (.int 18))])), ((.int 1), (.dict [((.str (py "P")), (.int 1)), ((.str (py "M")), (.int 37)), ((.str (py "L")), (.int 11)), ((.str (py "N")), (.int 151)), ((.str (py "K")), (.int 19))])), ((.int 2), (.dict [((.str (py "P")), (.int 2)), ((.str (py "M")), (.int 34)), ((.str (py "L")), (.int 10)), ((.str (py "N")), (.int 154)), ((.str (py "K")), (.int 20))])), ((.int 3), (.dict [((.str (py "P")), (.int 3)), ((.str (py "M")), (.int 30)), ((.str (py "L")), (.int 9)), ((.str (py "N")), (.int 158)), ((.str (py "K")), (.int 21))])), ((.int 4), (.dict [((.str (py "P")), (.int 4)), ((.str (py "M")), (.int 27)), ((.str (py "L")), (.int 8)), ((.str (py "N")), (.int 161)), ((.str (py "K")), (.int 22))])), ((.int 5), (.dict [((.str (py "P")), (.int 5)), ((.str (py "M")), (.int 24)), ((.str (py "L")), (.int 7)), ((.str (py "N")), (.int 164)), ((.str (py "K")), (.int 23))])), ((.int 6), (.dict [((.str (py "P")), (.int 6)), ((.str (py "M")), (.int 20)), ((.str (py "L")), (.int 6)), ((.str (py "N")), (.int 168)), ((.str (py "K")), (.int 24))]))])

/-- `PARTITION_TABLE_L_202`.  /repo/epcpy/epc_schemes/giai.py:136-144 -/
def giai.PARTITION_TABLE_L_202 : Expr :=
  (.dict [((.int 12), (.item (.name .PARTITION_TABLE_P_202) (.int 0))), ((.int 11), (.item (.name .PARTITION_TABLE_P_202) (.int 1))), ((.int 10), (.item (.name .PARTITION_TABLE_P_202) (.int 2))), ((.int 9), (.item (.name .PARTITION_TABLE_P_202) (.int 3))), ((.int 8), (.item (.name .PARTITION_TABLE_P_202) (.int 4))), ((.int 7), (.item (.name .PARTITION_TABLE_P_202) (.int 5))), ((.int 6), (.item (.name .PARTITION_TABLE_P_202) (.int 6)))])

/-- `GIAI.__init__`.  /repo/epcpy/epc_schemes/giai.py:191-214 -/
def GIAI.__init__ : FunDef :=
  ⟨.giai, (some .GIAI), [⟨.self, none⟩, ⟨.epc_uri, none⟩], none, none,
    [.superInit [(.name .epc_uri)],
     .ite (.not (.call (.attr (.name .GIAI_URI_REGEX) .fullmatch) [(.name .epc_uri)] [])) [.raise (.call (.name .ConvertException) [] [(.message, (.cat (.str (py "Invalid GIAI URI ")) (.fmt (.name .epc_uri) (.str []))))])] [],
     .unpack [(.var .company_prefix)] (some (.var .asset_reference)) (.call (.attr (.item (.call (.attr (.name .epc_uri) .split) [(.str (py ":"))] []) (.int 4)) .split) [(.str (py "."))] []),
     .assign (.var .asset_reference) (.call (.attr (.str (py ".")) .join) [(.name .asset_reference)] []),
     .ite (.or (.not (.cmp2 .le .le (.int 6) (.call (.name .len) [(.name .company_prefix)] []) (.int 12))) (.cmp .gt (.call (.name .len) [(.cat (.fmt (.name .company_prefix) (.str [])) (.fmt (.name .asset_reference) (.str [])))] []) (.int 30))) [.raise (.call (.name .ConvertException) [] [(.message, (.cat (.str (py "Invalid company prefix length ")) (.fmt (.call (.name .len) [(.name .company_prefix)] []) (.str []))))])] [],
     .expr (.call (.name .verify_gs3a3_component) [(.name .asset_reference)] []),
     .assign (.attr .self .epc_uri) (.name .epc_uri),
     .assign (.attr .self ._company_pref) (.name .company_prefix),
     .assign (.attr .self ._asset_ref) (.name .asset_reference),
     .assign (.attr .self ._giai) (.cat (.fmt (.name .company_prefix) (.str [])) (.fmt (.call (.name .replace_uri_escapes) [(.name .asset_reference)] []) (.str [])))]⟩

/-- `GIAI.gs1_key`.  /repo/epcpy/epc_schemes/giai.py:216-222 -/
def GIAI.gs1_key : FunDef :=
  ⟨.giai, (some .GIAI), [⟨.self, none⟩], none, none,
    [.ret (.attr (.name .self) ._giai)]⟩

/-- `GIAI.gs1_element_string`.  /repo/epcpy/epc_schemes/giai.py:224-230 -/
def GIAI.gs1_element_string : FunDef :=
  ⟨.giai, (some .GIAI), [⟨.self, none⟩], none, none,
    [.ret (.cat (.str (py "(8004)")) (.fmt (.attr (.name .self) ._giai) (.str [])))]⟩

/-- `GIAI.from_gs1_element_string`.  /repo/epcpy/epc_schemes/giai.py:233-257 -/
def GIAI.from_gs1_element_string : FunDef :=
  ⟨.giai, (some .GIAI), [⟨.cls, none⟩, ⟨.gs1_element_string, none⟩, ⟨.company_prefix_length, none⟩], none, none,
    [.ite (.not (.call (.attr (.attr (.name .GIAI) .gs1_element_string_regex) .fullmatch) [(.name .gs1_element_string)] [])) [.raise (.call (.name .ConvertException) [] [(.message, (.cat (.str (py "Invalid GIAI GS1 element string ")) (.fmt (.name .gs1_element_string) (.str []))))])] [],
     .assign (.var .digits) (.slice (.name .gs1_element_string) (.int 6) (.bin .add (.int 6) (.name .company_prefix_length)) .none),
     .assign (.var .chars) (.slice (.name .gs1_element_string) (.bin .add (.int 6) (.name .company_prefix_length)) .none .none),
     .assign (.var .chars) (.call (.name .revert_uri_escapes) [(.name .chars)] []),
     .ret (.call (.name .cls) [(.cat (.str (py "urn:epc:id:giai:")) (.cat (.fmt (.name .digits) (.str [])) (.cat (.str (py ".")) (.fmt (.name .chars) (.str [])))))] [])]⟩

/-- `GIAI.tag_uri`.  /repo/epcpy/epc_schemes/giai.py:259-295 -/
def GIAI.tag_uri : FunDef :=
  ⟨.giai, (some .GIAI), [⟨.self, none⟩, ⟨.binary_coding_scheme, none⟩, ⟨.filter_value, none⟩], none, none,
    [.assign (.var .filter_val) (.attr (.name .filter_value) .value),
     .ite (.or (.and (.cmp .eq (.name .binary_coding_scheme) (.attr (.attr (.name .GIAI) .BinaryCodingScheme) .GIAI_202)) (.cmp .gt (.call (.name .len) [(.call (.name .replace_uri_escapes) [(.attr (.name .self) ._asset_ref)] [])] []) (.item (.item (.name .PARTITION_TABLE_L_202) (.call (.name .len) [(.attr (.name .self) ._company_pref)] [])) (.str (py "K"))))) (.and (.cmp .eq (.name .binary_coding_scheme) (.attr (.attr (.name .GIAI) .BinaryCodingScheme) .GIAI_96)) (.or (.not (.call (.attr (.attr (.name .self) ._asset_ref) .isnumeric) [] [])) (.or (.cmp .gt (.call (.name .len) [(.attr (.name .self) ._asset_ref)] []) (.item (.item (.name .PARTITION_TABLE_L_96) (.call (.name .len) [(.attr (.name .self) ._company_pref)] [])) (.str (py "K")))) (.or (.cmp .ge (.call (.name .int) [(.attr (.name .self) ._asset_ref)] []) (.call (.name .pow) [(.int 2), (.item (.item (.name .PARTITION_TABLE_L_96) (.call (.name .len) [(.attr (.name .self) ._company_pref)] [])) (.str (py "N")))] [])) (.and (.cmp .gt (.call (.name .len) [(.attr (.name .self) ._asset_ref)] []) (.int 1)) (.cmp .eq (.item (.attr (.name .self) ._asset_ref) (.int 0)) (.str (py "0"))))))))) [.raise (.call (.name .ConvertException) [] [(.message, (.cat (.str (py "Invalid asset reference value ")) (.fmt (.attr (.name .self) ._asset_ref) (.str []))))])] [],
     .ret (.cat (.fmt (.attr (.name .self) .TAG_URI_PREFIX) (.str [])) (.cat (.fmt (.attr (.name .binary_coding_scheme) .value) (.str [])) (.cat (.str (py ":")) (.cat (.fmt (.name .filter_val) (.str [])) (.cat (.str (py ".")) (.cat (.fmt (.attr (.name .self) ._company_pref) (.str [])) (.cat (.str (py ".")) (.fmt (.attr (.name .self) ._asset_ref) (.str [])))))))))]⟩

/-- `GIAI.binary`.  /repo/epcpy/epc_schemes/giai.py:297-326 -/
def GIAI.binary : FunDef :=
  ⟨.giai, (some .GIAI), [⟨.self, none⟩, ⟨.binary_coding_scheme, none⟩, ⟨.filter_value, none⟩], none, none,
    [.assign (.var .header) (.attr (.item (.attr (.name .GIAI) .BinaryHeader) (.attr (.name .binary_coding_scheme) .name)) .value),
     .assign (.var .filter_binary) (.call (.name .str_to_binary) [(.attr (.name .filter_value) .value), (.int 3)] []),
     .assign (.var .parts) (.list [(.attr (.name .self) ._company_pref), (.attr (.name .self) ._asset_ref)]),
     .assign (.var .giai_binary) (.ite (.cmp .eq (.name .binary_coding_scheme) (.attr (.attr (.name .GIAI) .BinaryCodingScheme) .GIAI_96)) (.call (.name .encode_partition_table) [(.name .parts), (.name .PARTITION_TABLE_L_96)] []) (.call (.name .encode_partition_table) [(.name .parts), (.name .PARTITION_TABLE_L_202)] [(.string_partition, (.bool true))])),
     .assign (.var ._binary) (.bin .add (.bin .add (.name .header) (.name .filter_binary)) (.name .giai_binary)),
     .ret (.name ._binary)]⟩

/-- `GIAI.from_binary`.  /repo/epcpy/epc_schemes/giai.py:329-359 -/
def GIAI.from_binary : FunDef :=
  ⟨.giai, (some .GIAI), [⟨.cls, none⟩, ⟨.binary_string, none⟩], none, none,
    [.unpack [(.var .binary_coding_scheme), (.var .truncated_binary)] none (.call (.name .parse_header_and_truncate_binary) [(.name .binary_string), (.call (.attr (.name .cls) .header_to_schemes) [] [])] []),
     .assign (.var .filter_binary) (.slice (.name .truncated_binary) (.int 8) (.int 11) .none),
     .assign (.var .giai_binary) (.slice (.name .truncated_binary) (.int 11) .none .none),
     .assign (.var .filter_string) (.call (.name .binary_to_int) [(.name .filter_binary)] []),
     .assign (.var .giai_string) (.ite (.cmp .eq (.name .binary_coding_scheme) (.attr (.attr (.name .GIAI) .BinaryCodingScheme) .GIAI_96)) (.call (.name .decode_partition_table) [(.name .giai_binary), (.name .PARTITION_TABLE_P_96)] [(.unpadded_partition, (.bool true))]) (.call (.name .decode_partition_table) [(.name .giai_binary), (.name .PARTITION_TABLE_P_202)] [(.string_partition, (.bool true))])),
     .ret (.call (.attr (.name .cls) .from_tag_uri) [(.cat (.fmt (.attr (.name .cls) .TAG_URI_PREFIX) (.str [])) (.cat (.fmt (.attr (.name .binary_coding_scheme) .value) (.str [])) (.cat (.str (py ":")) (.cat (.fmt (.name .filter_string) (.str [])) (.cat (.str (py ".")) (.fmt (.name .giai_string) (.str [])))))))] [])]⟩

end Epc.Src
