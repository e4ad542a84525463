/-
The source of /repo/epcpy/epc_schemes/base_scheme.py.
Generated by tools/gen_src.py from the syntax trees of /repo/epcpy.
-/
import Verif.Src.Syntax

namespace Epc.Src

/-- `EPCScheme.__init__`.  /repo/epcpy/epc_schemes/base_scheme.py:22-24 -/
def EPCScheme.__init__ : FunDef :=
  ⟨.base_scheme, (some .EPCScheme), [⟨.self, none⟩, ⟨.epc_uri, none⟩], none, none,
    [.superInit [],
     .assign (.attr .self .epc_uri) (.name .epc_uri)]⟩

/-- `EPCScheme.__eq__`.  /repo/epcpy/epc_schemes/base_scheme.py:26-38 -/
def EPCScheme.__eq__ : FunDef :=
  ⟨.base_scheme, (some .EPCScheme), [⟨.self, none⟩, ⟨.other, none⟩], none, none,
    [.ite (.not (.call (.name .isinstance) [(.name .other), (.name .EPCScheme)] [])) [.ret (.bool false)] [],
     .ret (.cmp .eq (.attr (.name .self) .epc_uri) (.attr (.name .other) .epc_uri))]⟩

/-- `EPCScheme.from_epc_uri`.  /repo/epcpy/epc_schemes/base_scheme.py:41-50 -/
def EPCScheme.from_epc_uri : FunDef :=
  ⟨.base_scheme, (some .EPCScheme), [⟨.cls, none⟩, ⟨.epc_uri, none⟩], none, none,
    [.ret (.call (.name .cls) [(.name .epc_uri)] [])]⟩

/-- `TagEncodable.__init__`.  /repo/epcpy/epc_schemes/base_scheme.py:76-82 -/
def TagEncodable.__init__ : FunDef :=
  ⟨.base_scheme, (some .TagEncodable), [⟨.self, none⟩, ⟨.epc_uri, none⟩], none, none,
    [.superInit [(.name .epc_uri)],
     .assign (.attr .self ._base64) .none,
     .assign (.attr .self ._binary) .none,
     .assign (.attr .self ._hex) .none,
     .assign (.attr .self ._tag_uri) .none]⟩

/-- `TagEncodable.tag_uri`.  /repo/epcpy/epc_schemes/base_scheme.py:84-93 -/
def TagEncodable.tag_uri : FunDef :=
  ⟨.base_scheme, (some .TagEncodable), [⟨.self, none⟩], (some .args), (some .kwargs),
    [.raise (.name .NotImplementedError)]⟩

/-- `TagEncodable.binary`.  /repo/epcpy/epc_schemes/base_scheme.py:95-104 -/
def TagEncodable.binary : FunDef :=
  ⟨.base_scheme, (some .TagEncodable), [⟨.self, none⟩], (some .args), (some .kwargs),
    [.raise (.name .NotImplementedError)]⟩

/-- `TagEncodable.hex`.  /repo/epcpy/epc_schemes/base_scheme.py:106-117 -/
def TagEncodable.hex : FunDef :=
  ⟨.base_scheme, (some .TagEncodable), [⟨.self, none⟩], (some .args), (some .kwargs),
    [.assign (.var .binary) (.callKw (.attr (.name .self) .binary) (.name .kwargs)),
     .assign (.var .padding) (.bin .mod (.bin .sub (.int 16) (.bin .mod (.call (.name .len) [(.name .binary)] []) (.int 16))) (.int 16)),
     .assign (.var .padded_binary) (.fmt (.name .binary) (.cat (.str (py "<0")) (.fmt (.bin .add (.call (.name .len) [(.name .binary)] []) (.name .padding)) (.str [])))),
     .ret (.fmt (.call (.name .int) [(.name .padded_binary), (.int 2)] []) (.str (py "X")))]⟩

/-- `TagEncodable.base64`.  /repo/epcpy/epc_schemes/base_scheme.py:119-127 -/
def TagEncodable.base64 : FunDef :=
  ⟨.base_scheme, (some .TagEncodable), [⟨.self, none⟩], (some .args), (some .kwargs),
    [.assign (.var .hex_string) (.callKw (.attr (.name .self) .hex) (.name .kwargs)),
     .ret (.call (.name .hex_to_base64) [(.name .hex_string)] [])]⟩

/-- `TagEncodable.from_binary`.  /repo/epcpy/epc_schemes/base_scheme.py:130-141 -/
def TagEncodable.from_binary : FunDef :=
  ⟨.base_scheme, (some .TagEncodable), [⟨.cls, none⟩, ⟨.tag_binary_string, none⟩], none, none,
    [.raise (.name .NotImplementedError)]⟩

/-- `TagEncodable.from_hex`.  /repo/epcpy/epc_schemes/base_scheme.py:144-153 -/
def TagEncodable.from_hex : FunDef :=
  ⟨.base_scheme, (some .TagEncodable), [⟨.cls, none⟩, ⟨.tag_hex_string, none⟩], none, none,
    [.ret (.call (.attr (.name .cls) .from_binary) [(.call (.name .hex_to_binary) [(.name .tag_hex_string)] [])] [])]⟩

/-- `TagEncodable.from_base64`.  /repo/epcpy/epc_schemes/base_scheme.py:156-167 -/
def TagEncodable.from_base64 : FunDef :=
  ⟨.base_scheme, (some .TagEncodable), [⟨.cls, none⟩, ⟨.tag_base64_string, none⟩], none, none,
    [.ret (.call (.attr (.name .cls) .from_hex) [(.call (.name .base64_to_hex) [(.name .tag_base64_string)] [])] [])]⟩

/-- `TagEncodable.from_tag_uri`.  /repo/epcpy/epc_schemes/base_scheme.py:170-196 -/
def TagEncodable.from_tag_uri : FunDef :=
  ⟨.base_scheme, (some .TagEncodable), [⟨.cls, none⟩, ⟨.epc_tag_uri, none⟩, ⟨.includes_filter, (some (.bool true))⟩], none, none,
    [.ite (.not (.call (.attr (.attr (.name .TagEncodable) .TAG_URI_REGEX) .«match») [(.name .epc_tag_uri)] [])) [.raise (.call (.name .ConvertException) [] [(.message, (.cat (.str (py "Invalid EPC tag URI ")) (.fmt (.name .epc_tag_uri) (.str []))))])] [],
     .assign (.var .epc_scheme) (.item (.call (.attr (.name .epc_tag_uri) .split) [(.str (py ":"))] []) (.int 3)),
     .ite (.name .includes_filter) [.assign (.var .value) (.call (.attr (.str (py ".")) .join) [(.slice (.call (.attr (.call (.attr (.str (py ":")) .join) [(.slice (.call (.attr (.name .epc_tag_uri) .split) [(.str (py ":"))] []) (.int 3) .none .none)] []) .split) [(.str (py "."))] []) (.int 1) .none .none)] [])] [.assign (.var .value) (.item (.call (.attr (.name .epc_tag_uri) .split) [(.str (py ":"))] []) (.int 4))],
     .ret (.call (.name .cls) [(.cat (.str (py "urn:epc:id:")) (.cat (.fmt (.item (.call (.attr (.name .epc_scheme) .split) [(.str (py "-"))] []) (.int 0)) (.str [])) (.cat (.str (py ":")) (.fmt (.name .value) (.str [])))))] [])]⟩

/-- The element of a comprehension of `TagEncodable.header_to_schemes`. -/
def TagEncodable.header_to_schemes.elt1 : Expr :=
  (.list [(.attr (.name .binary_header) .value), (.item (.attr (.name .cls) .BinaryCodingScheme) (.attr (.name .binary_header) .name))])

/-- `TagEncodable.header_to_schemes`.  /repo/epcpy/epc_schemes/base_scheme.py:199-208 -/
def TagEncodable.header_to_schemes : FunDef :=
  ⟨.base_scheme, (some .TagEncodable), [⟨.cls, none⟩], none, none,
    [.ret (.mkDict (.map TagEncodable.header_to_schemes.elt1 .binary_header (.attr (.name .cls) .BinaryHeader)))]⟩

/-- `GS1Element.__init__`.  /repo/epcpy/epc_schemes/base_scheme.py:214-215 -/
def GS1Element.__init__ : FunDef :=
  ⟨.base_scheme, (some .GS1Element), [⟨.self, none⟩, ⟨.epc_uri, none⟩], none, none,
    [.superInit [(.name .epc_uri)]]⟩

/-- `GS1Element.gs1_element_string`.  /repo/epcpy/epc_schemes/base_scheme.py:217-226 -/
def GS1Element.gs1_element_string : FunDef :=
  ⟨.base_scheme, (some .GS1Element), [⟨.self, none⟩], (some .args), (some .kwargs),
    [.raise (.name .NotImplementedError)]⟩

/-- `GS1Element.from_gs1_element_string`.  /repo/epcpy/epc_schemes/base_scheme.py:229-244 -/
def GS1Element.from_gs1_element_string : FunDef :=
  ⟨.base_scheme, (some .GS1Element), [⟨.cls, none⟩, ⟨.gs1_element_string, none⟩, ⟨.company_prefix_length, none⟩], none, none,
    [.raise (.name .NotImplementedError)]⟩

/-- `GS1Keyed.__init__`.  /repo/epcpy/epc_schemes/base_scheme.py:248-249 -/
def GS1Keyed.__init__ : FunDef :=
  ⟨.base_scheme, (some .GS1Keyed), [⟨.self, none⟩, ⟨.epc_uri, none⟩], none, none,
    [.superInit [(.name .epc_uri)]]⟩

/-- `GS1Keyed.gs1_key`.  /repo/epcpy/epc_schemes/base_scheme.py:251-260 -/
def GS1Keyed.gs1_key : FunDef :=
  ⟨.base_scheme, (some .GS1Keyed), [⟨.self, none⟩], (some .args), (some .kwargs),
    [.raise (.name .NotImplementedError)]⟩

end Epc.Src
