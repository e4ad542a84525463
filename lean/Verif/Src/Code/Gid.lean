/-
The source of /repo/epcpy/epc_schemes/gid.py.
Generated by tools/gen_src.py from the syntax trees of /repo/epcpy.
-/
import Verif.Src.Syntax

namespace Epc.Src

/-- `GID_URI_REGEX`.  /repo/epcpy/epc_schemes/gid.py:15-15 -/
def gid.GID_URI_REGEX : Expr :=
  (.call (.attr (.name .re) .compile) [(.name .GID_URI)] [])

/-- `GID.__init__`.  /repo/epcpy/epc_schemes/gid.py:44-63 -/
def GID.__init__ : FunDef :=
  ⟨.gid, (some .GID), [⟨.self, none⟩, ⟨.epc_uri, none⟩], none, none,
    [.superInit [(.name .epc_uri)],
     .ite (.not (.call (.attr (.name .GID_URI_REGEX) .fullmatch) [(.name .epc_uri)] [])) [.raise (.call (.name .ConvertException) [] [(.message, (.cat (.str (py "Invalid GID URI ")) (.fmt (.name .epc_uri) (.str []))))])] [],
     .unpack [(.attr .self ._manager), (.attr .self ._object), (.attr .self ._serial)] none (.call (.attr (.item (.call (.attr (.name .epc_uri) .split) [(.str (py ":"))] []) (.int 4)) .split) [(.str (py "."))] []),
     .ite (.cmp .ge (.call (.name .int) [(.attr (.name .self) ._manager)] []) (.call (.name .pow) [(.int 2), (.int 28)] [])) [.raise (.call (.name .ConvertException) [] [(.message, (.cat (.str (py "Manager out of range: (max: ")) (.cat (.fmt (.call (.name .pow) [(.int 2), (.int 28)] []) (.str [])) (.str (py ")")))))])] [],
     .ite (.cmp .ge (.call (.name .int) [(.attr (.name .self) ._object)] []) (.call (.name .pow) [(.int 2), (.int 24)] [])) [.raise (.call (.name .ConvertException) [] [(.message, (.cat (.str (py "Object out of range: (max: ")) (.cat (.fmt (.call (.name .pow) [(.int 2), (.int 24)] []) (.str [])) (.str (py ")")))))])] [],
     .ite (.or (.cmp .ge (.call (.name .int) [(.attr (.name .self) ._serial)] []) (.call (.name .pow) [(.int 2), (.int 36)] [])) (.and (.cmp .gt (.call (.name .len) [(.attr (.name .self) ._serial)] []) (.int 1)) (.cmp .eq (.item (.attr (.name .self) ._serial) (.int 0)) (.str (py "0"))))) [.raise (.call (.name .ConvertException) [] [(.message, (.cat (.str (py "Serial out of range: (max: ")) (.cat (.fmt (.call (.name .pow) [(.int 2), (.int 36)] []) (.str [])) (.str (py ")")))))])] [],
     .assign (.attr .self .epc_uri) (.name .epc_uri)]⟩

/-- `GID.tag_uri`.  /repo/epcpy/epc_schemes/gid.py:65-78 -/
def GID.tag_uri : FunDef :=
  ⟨.gid, (some .GID), [⟨.self, none⟩, ⟨.binary_coding_scheme, (some (.attr (.name .BinaryCodingScheme) .GID_96))⟩], none, none,
    [.ret (.cat (.fmt (.attr (.name .self) .TAG_URI_PREFIX) (.str [])) (.cat (.fmt (.attr (.name .binary_coding_scheme) .value) (.str [])) (.cat (.str (py ":")) (.cat (.fmt (.attr (.name .self) ._manager) (.str [])) (.cat (.str (py ".")) (.cat (.fmt (.attr (.name .self) ._object) (.str [])) (.cat (.str (py ".")) (.fmt (.attr (.name .self) ._serial) (.str [])))))))))]⟩

/-- `GID.binary`.  /repo/epcpy/epc_schemes/gid.py:80-99 -/
def GID.binary : FunDef :=
  ⟨.gid, (some .GID), [⟨.self, none⟩, ⟨.binary_coding_scheme, (some (.attr (.name .BinaryCodingScheme) .GID_96))⟩], none, none,
    [.assign (.var .header) (.attr (.item (.attr (.name .GID) .BinaryHeader) (.attr (.name .binary_coding_scheme) .name)) .value),
     .assign (.var .manager_binary) (.call (.name .str_to_binary) [(.attr (.name .self) ._manager), (.int 28)] []),
     .assign (.var .object_binary) (.call (.name .str_to_binary) [(.attr (.name .self) ._object), (.int 24)] []),
     .assign (.var .serial_binary) (.call (.name .str_to_binary) [(.attr (.name .self) ._serial), (.int 36)] []),
     .assign (.var ._binary) (.bin .add (.bin .add (.bin .add (.name .header) (.name .manager_binary)) (.name .object_binary)) (.name .serial_binary)),
     .ret (.name ._binary)]⟩

/-- `GID.from_tag_uri`.  /repo/epcpy/epc_schemes/gid.py:102-115 -/
def GID.from_tag_uri : FunDef :=
  ⟨.gid, (some .GID), [⟨.cls, none⟩, ⟨.epc_tag_uri, none⟩, ⟨.includes_filter, (some (.bool false))⟩], none, none,
    [.ret (.call (.attr (.call (.name .super) [(.name .GID), (.name .cls)] []) .from_tag_uri) [(.name .epc_tag_uri)] [(.includes_filter, (.name .includes_filter))])]⟩

/-- `GID.from_binary`.  /repo/epcpy/epc_schemes/gid.py:118-143 -/
def GID.from_binary : FunDef :=
  ⟨.gid, (some .GID), [⟨.cls, none⟩, ⟨.binary_string, none⟩], none, none,
    [.unpack [(.var .binary_coding_scheme), (.var .truncated_binary)] none (.call (.name .parse_header_and_truncate_binary) [(.name .binary_string), (.call (.attr (.name .cls) .header_to_schemes) [] [])] []),
     .assign (.var .manager_binary) (.slice (.name .truncated_binary) (.int 8) (.int 36) .none),
     .assign (.var .object_binary) (.slice (.name .truncated_binary) (.int 36) (.int 60) .none),
     .assign (.var .serial_binary) (.slice (.name .truncated_binary) (.int 60) .none .none),
     .assign (.var .manager_string) (.call (.name .binary_to_int) [(.name .manager_binary)] []),
     .assign (.var .object_string) (.call (.name .binary_to_int) [(.name .object_binary)] []),
     .assign (.var .serial_string) (.call (.name .binary_to_int) [(.name .serial_binary)] []),
     .ret (.call (.attr (.name .cls) .from_tag_uri) [(.cat (.fmt (.attr (.name .cls) .TAG_URI_PREFIX) (.str [])) (.cat (.fmt (.attr (.name .binary_coding_scheme) .value) (.str [])) (.cat (.str (py ":")) (.cat (.fmt (.name .manager_string) (.str [])) (.cat (.str (py ".")) (.cat (.fmt (.name .object_string) (.str [])) (.cat (.str (py ".")) (.fmt (.name .serial_string) (.str [])))))))))] [(.includes_filter, (.bool false))])]⟩

end Epc.Src
