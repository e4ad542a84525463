/-
The source of /repo/epcpy/epc_schemes/gsrn.py.
Generated by tools/gen_src.py from the syntax trees of /repo/epcpy.
-/
import Verif.Src.Syntax

namespace Epc.Src

/-- `GSRN_URI_REGEX`.  /repo/epcpy/epc_schemes/gsrn.py:18-18 -/
def gsrn.GSRN_URI_REGEX : Expr :=
  (.call (.attr (.name .re) .compile) [(.name .GSRN_URI)] [])

/-- `PARTITION_TABLE_P`.  /repo/epcpy/epc_schemes/gsrn.py:21-71 -/
def gsrn.PARTITION_TABLE_P : Expr :=
  (.dict [((.int 0), (.dict [((.str (py "P")), (.int 0)), ((.str (py "M")), (.int 40)), ((.str (py "L")), (.int 12)), ((.str (py "N")), (.int 18)), ((.str (py "K")), (.int 5))])), ((.int 1), (.dict [((.str (py "P")), (.int 1)), ((.str (py "M")), (.int 37)), ((.str (py "L")), (.int 11)), ((.str (py "N")), (.int 21)), ((.str (py "K")), (.int 6))])), ((.int 2), (.dict [((.str (py "P")), (.int 2)), ((.str (py "M")), (.int 34)), ((.str (py "L")), (.int 10)), ((.str (py "N")), (.int 24)), ((.str (py "K")), (.int 7))])), ((.int 3), (.dict [((.str (py "P")), (.int 3)), ((.str (py "M")), (.int 30)), ((.str (py "L")), (.int 9)), ((.str (py "N")), (.int 28)), ((.str (py "K")), (.int 8))])), ((.int 4), (.dict [((.str (py "P")), (.int 4)), ((.str (py "M")), (.int 27)), ((.str (py "L")), (.int 8)), ((.str (py "N")), (.int 31)), ((.str (py "K")), (.int 9))])), ((.int 5), (.dict [((.str (py "P")), (.int 5)), ((.str (py "M")), (.int 24)), ((.str (py "L")), (.int 7)), ((.str (py "N")), (.int 34)), ((.str (py "K")), (.int 10))])), ((.int 6), (.dict [((.str (py "P")), (.int 6)), ((.str (py "M")), (.int 20)), ((.str (py "L")), (.int 6)), ((.str (py "N")), (.int 38)), ((.str (py "K")), (.int 11))]))])

/-- `PARTITION_TABLE_L`.  /repo/epcpy/epc_schemes/gsrn.py:73-81 -/
def gsrn.PARTITION_TABLE_L : Expr :=
  (.dict [((.int 12), (.item (.name .PARTITION_TABLE_P) (.int 0))), ((.int 11), (.item (.name .PARTITION_TABLE_P) (.int 1))), ((.int 10), (.item (.name .PARTITION_TABLE_P) (.int 2))), ((.int 9), (.item (.name .PARTITION_TABLE_P) (.int 3))), ((.int 8), (.item (.name .PARTITION_TABLE_P) (.int 4))), ((.int 7), (.item (.name .PARTITION_TABLE_P) (.int 5))), ((.int 6), (.item (.name .PARTITION_TABLE_P) (.int 6)))])

/-- `GSRN.__init__`.  /repo/epcpy/epc_schemes/gsrn.py:126-145 -/
def GSRN.__init__ : FunDef :=
  ⟨.gsrn, (some .GSRN), [⟨.self, none⟩, ⟨.epc_uri, none⟩], none, none,
    [.superInit [(.name .epc_uri)],
     .ite (.not (.call (.attr (.name .GSRN_URI_REGEX) .fullmatch) [(.name .epc_uri)] [])) [.raise (.call (.name .ConvertException) [] [(.message, (.cat (.str (py "Invalid GSRN URI ")) (.fmt (.name .epc_uri) (.str []))))])] [],
     .unpack [(.attr .self ._company_pref), (.attr .self ._service_ref)] none (.call (.attr (.item (.call (.attr (.name .epc_uri) .split) [(.str (py ":"))] []) (.int 4)) .split) [(.str (py "."))] []),
     .ite (.or (.cmp .ne (.call (.name .len) [(.cat (.fmt (.attr (.name .self) ._company_pref) (.str [])) (.fmt (.attr (.name .self) ._service_ref) (.str [])))] []) (.int 17)) (.not (.cmp2 .le .le (.int 6) (.call (.name .len) [(.attr (.name .self) ._company_pref)] []) (.int 12)))) [.raise (.call (.name .ConvertException) [] [(.message, (.cat (.str (py "Invalid EPC URI ")) (.cat (.fmt (.name .epc_uri) (.str [])) (.str (py " | wrong number of digits")))))])] [],
     .assign (.attr .self .epc_uri) (.name .epc_uri),
     .assign (.var .check_digit) (.call (.name .calculate_checksum) [(.cat (.fmt (.attr (.name .self) ._company_pref) (.str [])) (.fmt (.attr (.name .self) ._service_ref) (.str [])))] []),
     .assign (.attr .self ._gsrn) (.cat (.fmt (.attr (.name .self) ._company_pref) (.str [])) (.cat (.fmt (.attr (.name .self) ._service_ref) (.str [])) (.fmt (.name .check_digit) (.str []))))]⟩

/-- `GSRN.gs1_key`.  /repo/epcpy/epc_schemes/gsrn.py:147-153 -/
def GSRN.gs1_key : FunDef :=
  ⟨.gsrn, (some .GSRN), [⟨.self, none⟩], none, none,
    [.ret (.attr (.name .self) ._gsrn)]⟩

/-- `GSRN.gs1_element_string`.  /repo/epcpy/epc_schemes/gsrn.py:155-161 -/
def GSRN.gs1_element_string : FunDef :=
  ⟨.gsrn, (some .GSRN), [⟨.self, none⟩], none, none,
    [.ret (.cat (.str (py "(8018)")) (.fmt (.attr (.name .self) ._gsrn) (.str [])))]⟩

/-- `GSRN.from_gs1_element_string`.  /repo/epcpy/epc_schemes/gsrn.py:164-188 -/
def GSRN.from_gs1_element_string : FunDef :=
  ⟨.gsrn, (some .GSRN), [⟨.cls, none⟩, ⟨.gs1_element_string, none⟩, ⟨.company_prefix_length, none⟩], none, none,
    [.ite (.not (.call (.attr (.attr (.name .GSRN) .gs1_element_string_regex) .fullmatch) [(.name .gs1_element_string)] [])) [.raise (.call (.name .ConvertException) [] [(.message, (.cat (.str (py "Invalid GSRN GS1 element string ")) (.fmt (.name .gs1_element_string) (.str []))))])] [],
     .assign (.var .digits) (.slice (.name .gs1_element_string) (.int 6) .none .none),
     .ret (.call (.name .cls) [(.cat (.str (py "urn:epc:id:gsrn:")) (.cat (.fmt (.slice (.name .digits) .none (.name .company_prefix_length) .none) (.str [])) (.cat (.str (py ".")) (.fmt (.slice (.name .digits) (.name .company_prefix_length) (.neg (.int 1)) .none) (.str [])))))] [])]⟩

/-- `GSRN.tag_uri`.  /repo/epcpy/epc_schemes/gsrn.py:190-204 -/
def GSRN.tag_uri : FunDef :=
  ⟨.gsrn, (some .GSRN), [⟨.self, none⟩, ⟨.binary_coding_scheme, (some (.attr (.name .BinaryCodingScheme) .GSRN_96))⟩, ⟨.filter_value, (some (.attr (.name .GSRNFilterValue) .ALL_OTHERS))⟩], none, none,
    [.ret (.cat (.fmt (.attr (.name .self) .TAG_URI_PREFIX) (.str [])) (.cat (.fmt (.attr (.name .binary_coding_scheme) .value) (.str [])) (.cat (.str (py ":")) (.cat (.fmt (.attr (.name .filter_value) .value) (.str [])) (.cat (.str (py ".")) (.cat (.fmt (.attr (.name .self) ._company_pref) (.str [])) (.cat (.str (py ".")) (.fmt (.attr (.name .self) ._service_ref) (.str [])))))))))]⟩

/-- `GSRN.binary`.  /repo/epcpy/epc_schemes/gsrn.py:206-226 -/
def GSRN.binary : FunDef :=
  ⟨.gsrn, (some .GSRN), [⟨.self, none⟩, ⟨.binary_coding_scheme, (some (.attr (.name .BinaryCodingScheme) .GSRN_96))⟩, ⟨.filter_value, (some (.attr (.name .GSRNFilterValue) .ALL_OTHERS))⟩], none, none,
    [.assign (.var .parts) (.list [(.attr (.name .self) ._company_pref), (.attr (.name .self) ._service_ref)]),
     .assign (.var .header) (.attr (.item (.attr (.name .GSRN) .BinaryHeader) (.attr (.name .binary_coding_scheme) .name)) .value),
     .assign (.var .filter_binary) (.call (.name .str_to_binary) [(.attr (.name .filter_value) .value), (.int 3)] []),
     .assign (.var .gsrn_binary) (.call (.name .encode_partition_table) [(.name .parts), (.name .PARTITION_TABLE_L)] []),
     .ret (.bin .add (.bin .add (.bin .add (.name .header) (.name .filter_binary)) (.name .gsrn_binary)) (.bin .mul (.str (py "0")) (.int 24)))]⟩

/-- `GSRN.from_binary`.  /repo/epcpy/epc_schemes/gsrn.py:229-251 -/
def GSRN.from_binary : FunDef :=
  ⟨.gsrn, (some .GSRN), [⟨.cls, none⟩, ⟨.binary_string, none⟩], none, none,
    [.unpack [(.var .binary_coding_scheme), (.var .truncated_binary)] none (.call (.name .parse_header_and_truncate_binary) [(.name .binary_string), (.call (.attr (.name .cls) .header_to_schemes) [] [])] []),
     .assign (.var .filter_binary) (.slice (.name .truncated_binary) (.int 8) (.int 11) .none),
     .assign (.var .gsrn_binary) (.slice (.name .truncated_binary) (.int 11) (.int 72) .none),
     .assign (.var .filter_string) (.call (.name .binary_to_int) [(.name .filter_binary)] []),
     .assign (.var .gsrn_string) (.call (.name .decode_partition_table) [(.name .gsrn_binary), (.name .PARTITION_TABLE_P)] []),
     .ret (.call (.attr (.name .cls) .from_tag_uri) [(.cat (.fmt (.attr (.name .cls) .TAG_URI_PREFIX) (.str [])) (.cat (.fmt (.attr (.name .binary_coding_scheme) .value) (.str [])) (.cat (.str (py ":")) (.cat (.fmt (.name .filter_string) (.str [])) (.cat (.str (py ".")) (.fmt (.name .gsrn_string) (.str [])))))))] [])]⟩

end Epc.Src
