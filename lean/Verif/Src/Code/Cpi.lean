/-
The source of /repo/epcpy/epc_schemes/cpi.py.
Generated by tools/gen_src.py from the syntax trees of /repo/epcpy.
-/
import Verif.Src.Syntax

namespace Epc.Src

/-- `CPI_URI_REGEX`.  /repo/epcpy/epc_schemes/cpi.py:17-17 -/
def cpi.CPI_URI_REGEX : Expr :=
  (.call (.attr (.name .re) .compile) [(.name .CPI_URI)] [])

/-- `PARTITION_TABLE_P_96`.  /repo/epcpy/epc_schemes/cpi.py:19-69 -/
def cpi.PARTITION_TABLE_P_96 : Expr :=
  (.dict [((.int 0), (.dict [((.str (py "P")), (.int 0)), ((.str (py "M")), (.int 40)), ((.str (py "L")), (.int 12)), ((.str (py "N")), (.int 11)), ((.str (py "K")), (.int 3))])), ((.int 1), (.dict [((.str (py "P")), (.int 1)), ((.str (py "M")), (.int 37)), ((.str (py "L")), (.int 11)), ((.str (py "N")), (.int 14)), ((.str (py "K")), (.int 4))])), ((.int 2), (.dict [((.str (py "P")), (.int 2)), ((.str (py "M")), (.int 34)), ((.str (py "L")), (.int 10)), ((.str (py "N")), (.int 17)), ((.str (py "K")), (.int 5))])), ((.int 3), (.dict [((.str (py "P")), (.int 3)), ((.str (py "M")), (.int 30)), ((.str (py "L")), (.int 9)), ((.str (py "N")), (.int 21)), ((.str (py "K")), (.int 6))])), ((.int 4), (.dict [((.str (py "P")), (.int 4)), ((.str (py "M")), (.int 27)), ((.str (py "L")), (.int 8)), ((.str (py "N")), (.int 24)), ((.str (py "K")), (.int 7))])), ((.int 5), (.dict [((.str (py "P")), (.int 5)), ((.str (py "M")), (.int 24)), ((.str (py "L")), (.int 7)), ((.str (py "N")), (.int 27)), ((.str (py "K")), (.int 8))])), ((.int 6), (.dict [((.str (py "P")), (.int 6)), ((.str (py "M")), (.int 20)), ((.str (py "L")), (.int 6)), ((.str (py "N")), (.int 31)), ((.str (py "K")), (.int 9))]))])

/-- `PARTITION_TABLE_L_96`.  /repo/epcpy/epc_schemes/cpi.py:71-79 -/
def cpi.PARTITION_TABLE_L_96 : Expr :=
  (.dict [((.int 12), (.item (.name .PARTITION_TABLE_P_96) (.int 0))), ((.int 11), (.item (.name .PARTITION_TABLE_P_96) (.int 1))), ((.int 10), (.item (.name .PARTITION_TABLE_P_96) (.int 2))), ((.int 9), (.item (.name .PARTITION_TABLE_P_96) (.int 3))), ((.int 8), (.item (.name .PARTITION_TABLE_P_96) (.int 4))), ((.int 7), (.item (.name .PARTITION_TABLE_P_96) (.int 5))), ((.int 6), (.item (.name .PARTITION_TABLE_P_96) (.int 6)))])

/-- `PARTITION_TABLE_P_VAR`.  /repo/epcpy/epc_schemes/cpi.py:81-131 -/
def cpi.PARTITION_TABLE_P_VAR : Expr :=
  (.dict [((.int 0), (.dict [((.str (py "P")), (.int 0)), ((.str (py "M")), (.int 40)), ((.str (py "L")), (.int 12)), ((.str (py "N")), (.int 114)), ((.str (py "K")), (.int 18))])), ((.int 1), (.dict [((.str (py "P")), (.int 1)), ((.str (py "M")), (.int 37)), ((.str (py "L")), (.int 11)), ((.str (py "N")), (.int 120)), ((.str (py "K")), (.int 19))])), ((.int 2), (.dict [((.str (py "P")), (.int 2)), ((.str (py "M")), (.int 34)), ((.str (py "L")), (.int 10)), ((.str (py "N")), (.int 126)), ((.str (py "K")), (.int 20))])), ((.int 3), (.dict [((.str (py "P")), (.int 3)), ((.str (py "M")), (.int 30)), ((.str (py "L")), (.int 9)), ((.str (py "N")), (.int 132)), ((.str (py "K")), (.int 21))])), ((.int 4), (.dict [((.str (py "P")), (.int 4)), ((.str (py "M")), (.int 27)), ((.str (py "L")), (.int 8)), ((.str (py "N")), (.int 138)), ((.str (py "K")), (.int 22))])), ((.int 5), (.dict [((.str (py "P")), (.int 5)), ((.str (py "M")), (.int 24)), ((.str (py "L")), (.int 7)), ((.str (py "N")), (.int 144)), ((.str (py "K")), (.int 23))])), ((.int 6), (.dict [((.str (py "P")), (.int 6)), ((.str (py "M")), (.int 20)), ((.str (py "L")), (.int 6)), ((.str (py "N")), (.int 150)), ((.str (py "K")), (.int 24))]))])

/-- `PARTITION_TABLE_L_VAR`.  /repo/epcpy/epc_schemes/cpi.py:133-141 -/
def cpi.PARTITION_TABLE_L_VAR : Expr :=
  (.dict [((.int 12), (.item (.name .PARTITION_TABLE_P_VAR) (.int 0))), ((.int 11), (.item (.name .PARTITION_TABLE_P_VAR) (.int 1))), ((.int 10), (.item (.name .PARTITION_TABLE_P_VAR) (.int 2))), ((.int 9), (.item (.name .PARTITION_TABLE_P_VAR) (.int 3))), ((.int 8), (.item (.name .PARTITION_TABLE_P_VAR) (.int 4))), ((.int 7), (.item (.name .PARTITION_TABLE_P_VAR) (.int 5))), ((.int 6), (.item (.name .PARTITION_TABLE_P_VAR) (.int 6)))])

/-- `cpi.replace_cpi_escapes`.  /repo/epcpy/epc_schemes/cpi.py:155-164 -/
def cpi.replace_cpi_escapes : FunDef :=
  ⟨.cpi, none, [⟨.cpi, none⟩], none, none,
    [.ret (.call (.attr (.call (.attr (.name .cpi) .replace) [(.str (py "%23")), (.str (py "#"))] []) .replace) [(.str (py "%2F")), (.str (py "/"))] [])]⟩

/-- `cpi.revert_cpi_escapes`.  /repo/epcpy/epc_schemes/cpi.py:167-168 -/
def cpi.revert_cpi_escapes : FunDef :=
  ⟨.cpi, none, [⟨.cpi, none⟩], none, none,
    [.ret (.call (.attr (.call (.attr (.name .cpi) .replace) [(.str (py "#")), (.str (py "%23"))] []) .replace) [(.str (py "/")), (.str (py "%2F"))] [])]⟩

/-- `CPI.__init__`.  /repo/epcpy/epc_schemes/cpi.py:203-220 -/
def CPI.__init__ : FunDef :=
  ⟨.cpi, (some .CPI), [⟨.self, none⟩, ⟨.epc_uri, none⟩], none, none,
    [.superInit [(.name .epc_uri)],
     .ite (.not (.call (.attr (.name .CPI_URI_REGEX) .fullmatch) [(.name .epc_uri)] [])) [.raise (.call (.name .ConvertException) [] [(.message, (.cat (.str (py "Invalid CPI URI ")) (.fmt (.name .epc_uri) (.str []))))])] [],
     .unpack [(.attr .self ._company_pref), (.attr .self ._cp_ref), (.attr .self ._serial)] none (.call (.attr (.item (.call (.attr (.name .epc_uri) .split) [(.str (py ":"))] []) (.int 4)) .split) [(.str (py "."))] []),
     .ite (.or (.cmp .gt (.call (.name .len) [(.call (.attr (.str (py "")) .join) [(.list [(.attr (.name .self) ._company_pref), (.attr (.name .self) ._cp_ref)])] [])] []) (.int 30)) (.or (.cmp .gt (.call (.name .len) [(.attr (.name .self) ._serial)] []) (.int 12)) (.not (.cmp2 .le .le (.int 6) (.call (.name .len) [(.attr (.name .self) ._company_pref)] []) (.int 12))))) [.raise (.call (.name .ConvertException) [] [(.message, (.cat (.str (py "Invalid CPI URI ")) (.fmt (.name .epc_uri) (.str []))))])] [],
     .assign (.attr .self .epc_uri) (.name .epc_uri)]⟩

/-- `CPI.gs1_element_string`.  /repo/epcpy/epc_schemes/cpi.py:222-230 -/
def CPI.gs1_element_string : FunDef :=
  ⟨.cpi, (some .CPI), [⟨.self, none⟩], none, none,
    [.assign (.var .cp_ref) (.call (.name .replace_cpi_escapes) [(.attr (.name .self) ._cp_ref)] []),
     .ret (.cat (.str (py "(8010)")) (.cat (.fmt (.attr (.name .self) ._company_pref) (.str [])) (.cat (.fmt (.name .cp_ref) (.str [])) (.cat (.str (py "(8011)")) (.fmt (.attr (.name .self) ._serial) (.str []))))))]⟩

/-- `CPI.from_gs1_element_string`.  /repo/epcpy/epc_schemes/cpi.py:233-258 -/
def CPI.from_gs1_element_string : FunDef :=
  ⟨.cpi, (some .CPI), [⟨.cls, none⟩, ⟨.gs1_element_string, none⟩, ⟨.company_prefix_length, none⟩], none, none,
    [.ite (.not (.call (.attr (.attr (.name .CPI) .gs1_element_string_regex) .fullmatch) [(.name .gs1_element_string)] [])) [.raise (.call (.name .ConvertException) [] [(.message, (.cat (.str (py "Invalid CPI GS1 element string ")) (.fmt (.name .gs1_element_string) (.str []))))])] [],
     .unpack [(.var .us), (.var .digits), (.var .serial_digits)] none (.call (.attr (.name .re) .split) [(.str (py "\\(.{4}\\)")), (.name .gs1_element_string)] []),
     .assign (.var .chars) (.call (.name .revert_cpi_escapes) [(.slice (.name .digits) (.name .company_prefix_length) .none .none)] []),
     .ret (.call (.name .cls) [(.cat (.str (py "urn:epc:id:cpi:")) (.cat (.fmt (.slice (.name .digits) .none (.name .company_prefix_length) .none) (.str [])) (.cat (.str (py ".")) (.cat (.fmt (.name .chars) (.str [])) (.cat (.str (py ".")) (.fmt (.name .serial_digits) (.str [])))))))] [])]⟩

/-- `CPI.tag_uri`.  /repo/epcpy/epc_schemes/cpi.py:260-291 -/
def CPI.tag_uri : FunDef :=
  ⟨.cpi, (some .CPI), [⟨.self, none⟩, ⟨.binary_coding_scheme, none⟩, ⟨.filter_value, none⟩], none, none,
    [.ite (.or (.and (.cmp .eq (.name .binary_coding_scheme) (.attr (.attr (.name .CPI) .BinaryCodingScheme) .CPI_VAR)) (.cmp .gt (.call (.name .len) [(.attr (.name .self) ._serial)] []) (.int 12))) (.and (.cmp .eq (.name .binary_coding_scheme) (.attr (.attr (.name .CPI) .BinaryCodingScheme) .CPI_96)) (.or (.cmp .ge (.call (.name .int) [(.attr (.name .self) ._serial)] []) (.call (.name .pow) [(.int 2), (.int 31)] [])) (.or (.not (.call (.attr (.attr (.name .self) ._cp_ref) .isnumeric) [] [])) (.or (.and (.cmp .gt (.call (.name .len) [(.attr (.name .self) ._cp_ref)] []) (.int 1)) (.cmp .eq (.item (.attr (.name .self) ._cp_ref) (.int 0)) (.str (py "0")))) (.cmp .gt (.call (.name .len) [(.attr (.name .self) ._cp_ref)] []) (.bin .sub (.int 15) (.call (.name .len) [(.attr (.name .self) ._company_pref)] [])))))))) [.raise (.call (.name .ConvertException) [] [(.message, (.cat (.str (py "Invalid serial value ")) (.fmt (.attr (.name .self) ._serial) (.str []))))])] [],
     .assign (.attr .self ._tag_uri) (.cat (.fmt (.attr (.name .self) .TAG_URI_PREFIX) (.str [])) (.cat (.fmt (.attr (.name .binary_coding_scheme) .value) (.str [])) (.cat (.str (py ":")) (.cat (.fmt (.attr (.name .filter_value) .value) (.str [])) (.cat (.str (py ".")) (.cat (.fmt (.attr (.name .self) ._company_pref) (.str [])) (.cat (.str (py ".")) (.cat (.fmt (.attr (.name .self) ._cp_ref) (.str [])) (.cat (.str (py ".")) (.fmt (.attr (.name .self) ._serial) (.str []))))))))))),
     .ret (.attr (.name .self) ._tag_uri)]⟩

/-- `CPI.binary`.  /repo/epcpy/epc_schemes/cpi.py:293-325 -/
def CPI.binary : FunDef :=
  ⟨.cpi, (some .CPI), [⟨.self, none⟩, ⟨.binary_coding_scheme, none⟩, ⟨.filter_value, none⟩], none, none,
    [.assign (.var .parts) (.list [(.attr (.name .self) ._company_pref), (.attr (.name .self) ._cp_ref)]),
     .assign (.var .serial) (.attr (.name .self) ._serial),
     .assign (.var .header) (.attr (.item (.attr (.name .CPI) .BinaryHeader) (.attr (.name .binary_coding_scheme) .name)) .value),
     .assign (.var .filter_binary) (.call (.name .str_to_binary) [(.attr (.name .filter_value) .value), (.int 3)] []),
     .assign (.var .cpi_binary) (.ite (.cmp .eq (.name .binary_coding_scheme) (.attr (.attr (.name .CPI) .BinaryCodingScheme) .CPI_96)) (.call (.name .encode_partition_table) [(.name .parts), (.name .PARTITION_TABLE_L_96)] []) (.call (.name .encode_partition_table) [(.name .parts), (.name .PARTITION_TABLE_L_VAR)] [(.six_bit_variable_partition, (.bool true))])),
     .assign (.var .serial_binary) (.call (.name .str_to_binary) [(.name .serial), (.ite (.cmp .eq (.name .binary_coding_scheme) (.attr (.attr (.name .CPI) .BinaryCodingScheme) .CPI_96)) (.int 31) (.int 40))] []),
     .assign (.var ._binary) (.bin .add (.bin .add (.bin .add (.name .header) (.name .filter_binary)) (.name .cpi_binary)) (.name .serial_binary)),
     .ret (.name ._binary)]⟩

/-- The body of a loop of `CPI.from_binary`. -/
def CPI.from_binary.loop1 : List Stmt :=
  [.ite (.name .is_serial) [.aug .serial_binary (.name .g)] [], .ite (.cmp .eq (.name .g) (.str (py "000000"))) [.assign (.var .is_serial) (.bool true)] []]

/-- `CPI.from_binary`.  /repo/epcpy/epc_schemes/cpi.py:328-374 -/
def CPI.from_binary : FunDef :=
  ⟨.cpi, (some .CPI), [⟨.cls, none⟩, ⟨.binary_string, none⟩], none, none,
    [.unpack [(.var .binary_coding_scheme), (.var .truncated_binary)] none (.call (.name .parse_header_and_truncate_binary) [(.name .binary_string), (.call (.attr (.name .cls) .header_to_schemes) [] [])] []),
     .assign (.var .filter_binary) (.slice (.name .truncated_binary) (.int 8) (.int 11) .none),
     .ite (.cmp .eq (.name .binary_coding_scheme) (.attr (.attr (.name .CPI) .BinaryCodingScheme) .CPI_96)) [.assign (.var .cpi_binary) (.slice (.name .truncated_binary) (.int 11) (.int 65) .none), .assign (.var .serial_binary) (.slice (.name .truncated_binary) (.int 65) .none .none), .assign (.var .cpi_string) (.call (.name .decode_partition_table) [(.name .cpi_binary), (.name .PARTITION_TABLE_P_96)] [(.unpadded_partition, (.bool true))])] [.assign (.var .cpi_binary) (.slice (.name .truncated_binary) (.int 11) .none .none), .assign (.var .cpi_string) (.call (.name .decode_partition_table) [(.name .cpi_binary), (.name .PARTITION_TABLE_P_VAR)] [(.six_bit_variable_partition, (.bool true))]), .assign (.var .partition) (.item (.name .PARTITION_TABLE_P_VAR) (.call (.name .binary_to_int) [(.slice (.name .cpi_binary) .none (.int 3) .none)] [])), .assign (.var .possible_serial_binary) (.slice (.name .truncated_binary) (.bin .add (.bin .add (.int 11) (.int 3)) (.item (.name .partition) (.str (py "M")))) .none .none), .assign (.var .serial_binary) (.str (py "")), .assign (.var .is_serial) (.bool false), .for_ .g (.call (.attr (.name .re) .split) [(.str (py "([0-1]{6})")), (.name .possible_serial_binary)] []) CPI.from_binary.loop1, .assign (.var .serial_binary) (.ite (.cmp .gt (.call (.name .len) [(.name .serial_binary)] []) (.int 0)) (.slice (.name .serial_binary) .none (.int 40) .none) (.str (py "0")))],
     .assign (.var .filter_string) (.call (.name .binary_to_int) [(.name .filter_binary)] []),
     .assign (.var .serial_string) (.call (.name .binary_to_int) [(.name .serial_binary)] []),
     .ret (.call (.attr (.name .cls) .from_tag_uri) [(.cat (.fmt (.attr (.name .cls) .TAG_URI_PREFIX) (.str [])) (.cat (.fmt (.attr (.name .binary_coding_scheme) .value) (.str [])) (.cat (.str (py ":")) (.cat (.fmt (.name .filter_string) (.str [])) (.cat (.str (py ".")) (.cat (.fmt (.name .cpi_string) (.str [])) (.cat (.str (py ".")) (.fmt (.name .serial_string) (.str [])))))))))] [])]⟩

end Epc.Src
