/-
The source of /repo/epcpy/epc_schemes/usdod.py.
Generated by tools/gen_src.py from the syntax trees of /repo/epcpy.
-/
import Verif.Src.Syntax

namespace Epc.Src

/-- `USDOD_URI_REGEX`.  /repo/epcpy/epc_schemes/usdod.py:17-17 -/
def usdod.USDOD_URI_REGEX : Expr :=
  (.call (.attr (.name .re) .compile) [(.name .USDOD_URI)] [])

/-- `USDOD.__init__`.  /repo/epcpy/epc_schemes/usdod.py:65-78 -/
def USDOD.__init__ : FunDef :=
  ⟨.usdod, (some .USDOD), [⟨.self, none⟩, ⟨.epc_uri, none⟩], none, none,
    [.superInit [(.name .epc_uri)],
     .ite (.not (.call (.attr (.name .USDOD_URI_REGEX) .fullmatch) [(.name .epc_uri)] [])) [.raise (.call (.name .ConvertException) [] [(.message, (.cat (.str (py "Invalid USDOD URI ")) (.fmt (.name .epc_uri) (.str []))))])] [],
     .unpack [(.attr .self ._cage_dodaac), (.attr .self ._serial)] none (.call (.attr (.item (.call (.attr (.name .epc_uri) .split) [(.str (py ":"))] []) (.int 4)) .split) [(.str (py "."))] []),
     .ite (.or (.cmp .ge (.call (.name .int) [(.attr (.name .self) ._serial)] []) (.call (.name .pow) [(.int 2), (.int 36)] [])) (.and (.cmp .gt (.call (.name .len) [(.attr (.name .self) ._serial)] []) (.int 1)) (.cmp .eq (.item (.attr (.name .self) ._serial) (.int 0)) (.str (py "0"))))) [.raise (.call (.name .ConvertException) [] [(.message, (.cat (.str (py "Serial out of range: (max: ")) (.cat (.fmt (.call (.name .pow) [(.int 2), (.int 36)] []) (.str [])) (.str (py ")")))))])] [],
     .assign (.attr .self .epc_uri) (.name .epc_uri)]⟩

/-- `USDOD.tag_uri`.  /repo/epcpy/epc_schemes/usdod.py:80-95 -/
def USDOD.tag_uri : FunDef :=
  ⟨.usdod, (some .USDOD), [⟨.self, none⟩, ⟨.filter_value, none⟩, ⟨.binary_coding_scheme, (some (.attr (.name .BinaryCodingScheme) .USDOD_96))⟩], none, none,
    [.ret (.cat (.fmt (.attr (.name .self) .TAG_URI_PREFIX) (.str [])) (.cat (.fmt (.attr (.name .binary_coding_scheme) .value) (.str [])) (.cat (.str (py ":")) (.cat (.fmt (.attr (.name .filter_value) .value) (.str [])) (.cat (.str (py ".")) (.cat (.fmt (.attr (.name .self) ._cage_dodaac) (.str [])) (.cat (.str (py ".")) (.fmt (.attr (.name .self) ._serial) (.str [])))))))))]⟩

/-- `USDOD.binary`.  /repo/epcpy/epc_schemes/usdod.py:97-117 -/
def USDOD.binary : FunDef :=
  ⟨.usdod, (some .USDOD), [⟨.self, none⟩, ⟨.filter_value, none⟩, ⟨.binary_coding_scheme, (some (.attr (.name .BinaryCodingScheme) .USDOD_96))⟩], none, none,
    [.assign (.var .header) (.attr (.item (.attr (.name .USDOD) .BinaryHeader) (.attr (.name .binary_coding_scheme) .name)) .value),
     .assign (.var .filter_binary) (.call (.name .str_to_binary) [(.attr (.name .filter_value) .value), (.int 4)] []),
     .assign (.var .cage_code_binary) (.call (.name .encode_cage_code) [(.fmt (.attr (.name .self) ._cage_dodaac) (.str (py ">6")))] []),
     .assign (.var .serial_binary) (.call (.name .str_to_binary) [(.attr (.name .self) ._serial), (.int 36)] []),
     .ret (.bin .add (.bin .add (.bin .add (.name .header) (.name .filter_binary)) (.name .cage_code_binary)) (.name .serial_binary))]⟩

/-- `USDOD.from_binary`.  /repo/epcpy/epc_schemes/usdod.py:120-144 -/
def USDOD.from_binary : FunDef :=
  ⟨.usdod, (some .USDOD), [⟨.cls, none⟩, ⟨.binary_string, none⟩], none, none,
    [.unpack [(.var .binary_coding_scheme), (.var .truncated_binary)] none (.call (.name .parse_header_and_truncate_binary) [(.name .binary_string), (.call (.attr (.name .cls) .header_to_schemes) [] [])] []),
     .assign (.var .filter_binary) (.slice (.name .truncated_binary) (.int 8) (.int 12) .none),
     .assign (.var .cage_code_binary) (.slice (.name .truncated_binary) (.int 12) (.int 60) .none),
     .assign (.var .serial_binary) (.slice (.name .truncated_binary) (.int 60) .none .none),
     .assign (.var .filter_string) (.call (.name .binary_to_int) [(.name .filter_binary)] []),
     .assign (.var .cage_code_string) (.call (.name .decode_cage_code) [(.name .cage_code_binary)] []),
     .assign (.var .serial_string) (.call (.name .binary_to_int) [(.name .serial_binary)] []),
     .ret (.call (.attr (.name .cls) .from_tag_uri) [(.cat (.fmt (.attr (.name .cls) .TAG_URI_PREFIX) (.str [])) (.cat (.fmt (.attr (.name .binary_coding_scheme) .value) (.str [])) (.cat (.str (py ":")) (.cat (.fmt (.name .filter_string) (.str [])) (.cat (.str (py ".")) (.cat (.fmt (.name .cage_code_string) (.str [])) (.cat (.str (py ".")) (.fmt (.name .serial_string) (.str [])))))))))] [])]⟩

end Epc.Src
