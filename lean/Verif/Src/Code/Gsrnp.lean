/-
The source of /repo/epcpy/epc_schemes/gsrnp.py.
Generated by tools/gen_src.py from the syntax trees of /repo/epcpy.
-/
import Verif.Src.Syntax

namespace Epc.Src

/-- `GSRNP_URI_REGEX`.  /repo/epcpy/epc_schemes/gsrnp.py:18-18 -/
def gsrnp.GSRNP_URI_REGEX : Expr :=
  (.call (.attr (.name .re) .compile) [(.name .GSRNP_URI)] [])

/-- `PARTITION_TABLE_P`.  /repo/epcpy/epc_schemes/gsrnp.py:21-71 -/
def gsrnp.PARTITION_TABLE_P : Expr :=
  (.dict [((.int 0), (.dict [((.str (py "P")), (.int 0)), ((.str (py "M")), (.int 40)), ((.str (py "L")), (.int 12)), ((.str (py "N")), (.int 18)), ((.str (py "K")), (.int 5))])), ((.int 1), (.dict [((.str (py "P")), (.int 1)), ((.str (py "M")), (.int 37)), ((.str (py "L")), (.int 11)), ((.str (py "N")), (.int 21)), ((.str (py "K")), (.int 6))])), ((.int 2), (.dict [((.str (py "P")), (.int 2)), ((.str (py "M")), (.int 34)), ((.str (py "L")), (.int 10)), ((.str (py "N")), (.int 24)), ((.str (py "K")), (.int 7))])), ((.int 3), (.dict [((.str (py "P")), (.int 3)), ((.str (py "M")), (.int 30)), ((.str (py "L")), (.int 9)), ((.str (py "N")), (.int 28)), ((.str (py "K")), (.int 8))])), ((.int 4), (.dict [((.str (py "P")), (.int 4)), ((.str (py "M")), (.int 27)), ((.str (py "L")), (.int 8)), ((.str (py "N")), (.int 31)), ((.str (py "K")), (.int 9))])), ((.int 5), (.dict [((.str (py "P")), (.int 5)), ((.str (py "M")), (.int 24)), ((.str (py "L")), (.int 7)), ((.str (py "N")), (.int 34)), ((.str (py "K")), (.int 10))])), ((.int 6), (.dict [((.str (py "P")), (.int 6)), ((.str (py "M")), (.int 20)), ((.str (py "L")), (.int 6)), ((.str (py "N")), (.int 38)), ((.str (py "K")), (.int 11))]))])

/-- `PARTITION_TABLE_L`.  /repo/epcpy/epc_schemes/gsrnp.py:73-81 -/
def gsrnp.PARTITION_TABLE_L : Expr :=
  (.dict [((.int 12), (.item (.name .PARTITION_TABLE_P) (.int 0))), ((.int 11), (.item (.name .PARTITION_TABLE_P) (.int 1))), ((.int 10), (.item (.name .PARTITION_TABLE_P) (.int 2))), ((.int 9), (.item (.name .PARTITION_TABLE_P) (.int 3))), ((.int 8), (.item (.name .PARTITION_TABLE_P) (.int 4))), ((.int 7), (.item (.name .PARTITION_TABLE_P) (.int 5))), ((.int 6), (.item (.name .PARTITION_TABLE_P) (.int 6)))])

/-- `GSRNP.__init__`.  /repo/epcpy/epc_schemes/gsrnp.py:126-145 -/
def GSRNP.__init__ : FunDef :=
  ⟨.gsrnp, (some .GSRNP), [⟨.self, none⟩, ⟨.epc_uri, none⟩], none, none,
    [.superInit [(.name .epc_uri)],
     .ite (.not (.call (.attr (.name .GSRNP_URI_REGEX) .fullmatch) [(.name .epc_uri)] [])) [.raise (.call (.name .ConvertException) [] [(.message, (.cat (.str (py "Invalid GSRNP URI ")) (.fmt (.name .epc_uri) (.str []))))])] [],
     .unpack [(.attr .self ._company_pref), (.attr .self ._service_ref)] none (.call (.attr (.item (.call (.attr (.name .epc_uri) .split) [(.str (py ":"))] []) (.int 4)) .split) [(.str (py "."))] []),
     .ite (.or (.cmp .ne (.call (.name .len) [(.cat (.fmt (.attr (.name .self) ._company_pref) (.str [])) (.fmt (.attr (.name .self) ._service_ref) (.str [])))] []) (.int 17)) (.not (.cmp2 .le .le (.int 6) (.call (.name .len) [(.attr (.name .self) ._company_pref)] []) (.int 12)))) [.raise (.call (.name .ConvertException) [] [(.message, (.cat (.str (py "Invalid EPC URI ")) (.cat (.fmt (.name .epc_uri) (.str [])) (.str (py " | wrong number of digits")))))])] [],
     .assign (.attr .self .epc_uri) (.name .epc_uri),
     .assign (.var .check_digit) (.call (.name .calculate_checksum) [(.cat (.fmt (.attr (.name .self) ._company_pref) (.str [])) (.fmt (.attr (.name .self) ._service_ref) (.str [])))] []),
     .assign (.attr .self ._gsrnp) (.cat (.fmt (.attr (.name .self) ._company_pref) (.str [])) (.cat (.fmt (.attr (.name .self) ._service_ref) (.str [])) (.fmt (.name .check_digit) (.str []))))]⟩

/-- `GSRNP.gs1_key`.  /repo/epcpy/epc_schemes/gsrnp.py:147-153 -/
def GSRNP.gs1_key : FunDef :=
  ⟨.gsrnp, (some .GSRNP), [⟨.self, none⟩], none, none,
    [.ret (.attr (.name .self) ._gsrnp)]⟩

/-- `GSRNP.gs1_element_string`.  /repo/epcpy/epc_schemes/gsrnp.py:155-161 -/
def GSRNP.gs1_element_string : FunDef :=
  ⟨.gsrnp, (some .GSRNP), [⟨.self, none⟩], none, none,
    [.ret (.cat (.str (py "(8017)")) (.fmt (.attr (.name .self) ._gsrnp) (.str [])))]⟩

/-- `GSRNP.from_gs1_element_string`.  /repo/epcpy/epc_schemes/gsrnp.py:164-188 -/
def GSRNP.from_gs1_element_string : FunDef :=
  ⟨.gsrnp, (some .GSRNP), [⟨.cls, none⟩, ⟨.gs1_element_string, none⟩, ⟨.company_prefix_length, none⟩], none, none,
    [.ite (.not (.call (.attr (.attr (.name .GSRNP) .gs1_element_string_regex) .fullmatch) [(.name .gs1_element_string)] [])) [.raise (.call (.name .ConvertException) [] [(.message, (.cat (.str (py "Invalid GSRNP GS1 element string ")) (.fmt (.name .gs1_element_string) (.str []))))])] [],
     .assign (.var .digits) (.slice (.name .gs1_element_string) (.int 6) .none .none),
     .ret (.call (.name .cls) [(.cat (.str (py "urn:epc:id:gsrnp:")) (.cat (.fmt (.slice (.name .digits) .none (.name .company_prefix_length) .none) (.str [])) (.cat (.str (py ".")) (.fmt (.slice (.name .digits) (.name .company_prefix_length) (.neg (.int 1)) .none) (.str [])))))] [])]⟩

/-- `GSRNP.tag_uri`.  /repo/epcpy/epc_schemes/gsrnp.py:190-206 -/
def GSRNP.tag_uri : FunDef :=
  ⟨.gsrnp, (some .GSRNP), [⟨.self, none⟩, ⟨.binary_coding_scheme, (some (.attr (.name .BinaryCodingScheme) .GSRNP_96))⟩, ⟨.filter_value, (some (.attr (.name .GSRNPFilterValue) .ALL_OTHERS))⟩], none, none,
    [.assign (.var .filter_val) (.attr (.name .filter_value) .value),
     .ret (.cat (.fmt (.attr (.name .self) .TAG_URI_PREFIX) (.str [])) (.cat (.fmt (.attr (.name .binary_coding_scheme) .value) (.str [])) (.cat (.str (py ":")) (.cat (.fmt (.name .filter_val) (.str [])) (.cat (.str (py ".")) (.cat (.fmt (.attr (.name .self) ._company_pref) (.str [])) (.cat (.str (py ".")) (.fmt (.attr (.name .self) ._service_ref) (.str [])))))))))]⟩

/-- `GSRNP.binary`.  /repo/epcpy/epc_schemes/gsrnp.py:208-228 -/
def GSRNP.binary : FunDef :=
  ⟨.gsrnp, (some .GSRNP), [⟨.self, none⟩, ⟨.binary_coding_scheme, (some (.attr (.name .BinaryCodingScheme) .GSRNP_96))⟩, ⟨.filter_value, (some (.attr (.name .GSRNPFilterValue) .ALL_OTHERS))⟩], none, none,
    [.assign (.var .parts) (.list [(.attr (.name .self) ._company_pref), (.attr (.name .self) ._service_ref)]),
     .assign (.var .header) (.attr (.item (.attr (.name .GSRNP) .BinaryHeader) (.attr (.name .binary_coding_scheme) .name)) .value),
     .assign (.var .filter_binary) (.call (.name .str_to_binary) [(.attr (.name .filter_value) .value), (.int 3)] []),
     .assign (.var .gsrnp_binary) (.call (.name .encode_partition_table) [(.name .parts), (.name .PARTITION_TABLE_L)] []),
     .ret (.bin .add (.bin .add (.bin .add (.name .header) (.name .filter_binary)) (.name .gsrnp_binary)) (.bin .mul (.str (py "0")) (.int 24)))]⟩

/-- `GSRNP.from_binary`.  /repo/epcpy/epc_schemes/gsrnp.py:231-253 -/
def GSRNP.from_binary : FunDef :=
  ⟨.gsrnp, (some .GSRNP), [⟨.cls, none⟩, ⟨.binary_string, none⟩], none, none,
    [.unpack [(.var .binary_coding_scheme), (.var .truncated_binary)] none (.call (.name .parse_header_and_truncate_binary) [(.name .binary_string), (.call (.attr (.name .cls) .header_to_schemes) [] [])] []),
     .assign (.var .filter_binary) (.slice (.name .truncated_binary) (.int 8) (.int 11) .none),
     .assign (.var .gsrnp_binary) (.slice (.name .truncated_binary) (.int 11) (.int 72) .none),
     .assign (.var .filter_string) (.call (.name .binary_to_int) [(.name .filter_binary)] []),
     .assign (.var .gsrnp_string) (.call (.name .decode_partition_table) [(.name .gsrnp_binary), (.name .PARTITION_TABLE_P)] []),
     .ret (.call (.attr (.name .cls) .from_tag_uri) [(.cat (.fmt (.attr (.name .cls) .TAG_URI_PREFIX) (.str [])) (.cat (.fmt (.attr (.name .binary_coding_scheme) .value) (.str [])) (.cat (.str (py ":")) (.cat (.fmt (.name .filter_string) (.str [])) (.cat (.str (py ".")) (.fmt (.name .gsrnp_string) (.str [])))))))] [])]⟩

end Epc.Src
