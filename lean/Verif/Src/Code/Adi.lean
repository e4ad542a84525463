/-
The source of /repo/epcpy/epc_schemes/adi.py.
Generated by tools/gen_src.py from the syntax trees of /repo/epcpy.
-/
import Verif.Src.Syntax

namespace Epc.Src

/-- `ADI_URI_REGEX`.  /repo/epcpy/epc_schemes/adi.py:19-19 -/
def adi.ADI_URI_REGEX : Expr :=
  (.call (.attr (.name .re) .compile) [(.name .ADI_URI)] [])

/-- `ADI.__init__`.  /repo/epcpy/epc_schemes/adi.py:115-135 -/
def ADI.__init__ : FunDef :=
  ⟨.adi, (some .ADI), [⟨.self, none⟩, ⟨.epc_uri, none⟩], none, none,
    [.superInit [(.name .epc_uri)],
     .ite (.not (.call (.attr (.name .ADI_URI_REGEX) .fullmatch) [(.name .epc_uri)] [])) [.raise (.call (.name .ConvertException) [] [(.message, (.cat (.str (py "Invalid ADI URI ")) (.fmt (.name .epc_uri) (.str []))))])] [],
     .unpack [(.attr .self ._cage_dodaac), (.attr .self ._part_number), (.attr .self ._serial)] none (.call (.attr (.item (.call (.attr (.name .epc_uri) .split) [(.str (py ":"))] []) (.int 4)) .split) [(.str (py "."))] []),
     .ite (.not (.cmp2 .le .le (.int 0) (.call (.name .len) [(.call (.attr (.attr (.name .self) ._part_number) .replace) [(.str (py "%2F")), (.str (py "/"))] [])] []) (.int 32))) [.raise (.call (.name .ConvertException) [] [(.message, (.cat (.str (py "Invalid number of characters in part number: ")) (.fmt (.call (.name .len) [(.call (.attr (.attr (.name .self) ._part_number) .replace) [(.str (py "%2F")), (.str (py "/"))] [])] []) (.str []))))])] [],
     .ite (.not (.cmp2 .le .le (.int 1) (.call (.name .len) [(.call (.attr (.call (.attr (.attr (.name .self) ._serial) .replace) [(.str (py "%2F")), (.str (py "/"))] []) .replace) [(.str (py "%23")), (.str (py "#"))] [])] []) (.int 30))) [.raise (.call (.name .ConvertException) [] [(.message, (.cat (.str (py "Invalid number of characters in serial: ")) (.fmt (.call (.name .len) [(.call (.attr (.call (.attr (.attr (.name .self) ._serial) .replace) [(.str (py "%2F")), (.str (py "/"))] []) .replace) [(.str (py "%23")), (.str (py "#"))] [])] []) (.str []))))])] [],
     .assign (.attr .self .epc_uri) (.name .epc_uri)]⟩

/-- `ADI.tag_uri`.  /repo/epcpy/epc_schemes/adi.py:137-151 -/
def ADI.tag_uri : FunDef :=
  ⟨.adi, (some .ADI), [⟨.self, none⟩, ⟨.filter_value, none⟩, ⟨.binary_coding_scheme, (some (.attr (.name .BinaryCodingScheme) .ADI_VAR))⟩], none, none,
    [.ret (.cat (.fmt (.attr (.name .self) .TAG_URI_PREFIX) (.str [])) (.cat (.fmt (.attr (.name .binary_coding_scheme) .value) (.str [])) (.cat (.str (py ":")) (.cat (.fmt (.attr (.name .filter_value) .value) (.str [])) (.cat (.str (py ".")) (.cat (.fmt (.attr (.name .self) ._cage_dodaac) (.str [])) (.cat (.str (py ".")) (.cat (.fmt (.attr (.name .self) ._part_number) (.str [])) (.cat (.str (py ".")) (.fmt (.attr (.name .self) ._serial) (.str [])))))))))))]⟩

/-- `ADI.binary`.  /repo/epcpy/epc_schemes/adi.py:153-180 -/
def ADI.binary : FunDef :=
  ⟨.adi, (some .ADI), [⟨.self, none⟩, ⟨.filter_value, none⟩, ⟨.binary_coding_scheme, (some (.attr (.name .BinaryCodingScheme) .ADI_VAR))⟩], none, none,
    [.assign (.var .header) (.attr (.item (.attr (.name .ADI) .BinaryHeader) (.attr (.name .binary_coding_scheme) .name)) .value),
     .assign (.var .filter_binary) (.call (.name .str_to_binary) [(.attr (.name .filter_value) .value), (.int 6)] []),
     .assign (.var .cage_code_binary) (.call (.name .encode_cage_code_six_bits) [(.attr (.name .self) ._cage_dodaac)] []),
     .assign (.var .part_number_binary) (.call (.name .encode_string_six_bits) [(.attr (.name .self) ._part_number)] []),
     .assign (.var .serial_binary) (.call (.name .encode_string_six_bits) [(.attr (.name .self) ._serial)] []),
     .assign (.var ._binary) (.bin .add (.bin .add (.bin .add (.bin .add (.name .header) (.name .filter_binary)) (.name .cage_code_binary)) (.name .part_number_binary)) (.name .serial_binary)),
     .ret (.name ._binary)]⟩

/-- `ADI.from_binary`.  /repo/epcpy/epc_schemes/adi.py:183-221 -/
def ADI.from_binary : FunDef :=
  ⟨.adi, (some .ADI), [⟨.cls, none⟩, ⟨.binary_string, none⟩], none, none,
    [.unpack [(.var .binary_coding_scheme), (.var .truncated_binary)] none (.call (.name .parse_header_and_truncate_binary) [(.name .binary_string), (.call (.attr (.name .cls) .header_to_schemes) [] [])] []),
     .assign (.var .filter_binary) (.slice (.name .truncated_binary) (.int 8) (.int 14) .none),
     .assign (.var .cage_code_binary) (.slice (.name .truncated_binary) (.int 14) (.int 50) .none),
     .ite (.not (.call (.attr (.name .re) .«match») [(.str (py ".*([0]{6})+.*")), (.slice (.name .truncated_binary) (.int 50) .none .none)] [])) [.raise (.call (.name .ConvertException) [] [(.message, (.str (py "Invalid binary for ADI, missing 6-bit terminators")))])] [],
     .unpack [(.var .part_number_binary), (.var .us)] (some (.var .serial_binary)) (.call (.attr (.name .re) .split) [(.str (py "([0]{6})")), (.slice (.name .truncated_binary) (.int 50) .none .none)] []),
     .assign (.var .serial_binary_trimmed) (.slice (.call (.attr (.str (py "")) .join) [(.name .serial_binary)] []) .none (.neg (.int 6)) .none),
     .assign (.var .filter_string) (.call (.name .binary_to_int) [(.name .filter_binary)] []),
     .assign (.var .cage_code_string) (.call (.name .decode_cage_code_six_bits) [(.name .cage_code_binary)] []),
     .assign (.var .part_number_string) (.call (.name .decode_string_six_bits) [(.name .part_number_binary), (.int 32)] []),
     .assign (.var .serial_string) (.call (.name .decode_string_six_bits) [(.name .serial_binary_trimmed), (.int 30)] []),
     .ret (.call (.attr (.name .cls) .from_tag_uri) [(.cat (.fmt (.attr (.name .cls) .TAG_URI_PREFIX) (.str [])) (.cat (.fmt (.attr (.name .binary_coding_scheme) .value) (.str [])) (.cat (.str (py ":")) (.cat (.fmt (.name .filter_string) (.str [])) (.cat (.str (py ".")) (.cat (.fmt (.name .cage_code_string) (.str [])) (.cat (.str (py ".")) (.cat (.fmt (.name .part_number_string) (.str [])) (.cat (.str (py ".")) (.fmt (.name .serial_string) (.str [])))))))))))] [])]⟩

end Epc.Src
