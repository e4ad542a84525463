/-
The source of /repo/epcpy/epc_schemes/gsin.py.
Generated by tools/gen_src.py from the syntax trees of /repo/epcpy.
-/
import Verif.Src.Syntax

namespace Epc.Src

/-- `GSIN_URI_REGEX`.  /repo/epcpy/epc_schemes/gsin.py:9-9 -/
def gsin.GSIN_URI_REGEX : Expr :=
  (.call (.attr (.name .re) .compile) [(.name .GSIN_URI)] [])

/-- The element of a comprehension of `gsin.calculate_checksum`. -/
def gsin.calculate_checksum.elt1 : Expr :=
  (.call (.name .int) [(.name .d)] [])

/-- `gsin.calculate_checksum`.  /repo/epcpy/epc_schemes/gsin.py:12-29 -/
def gsin.calculate_checksum : FunDef :=
  ⟨.gsin, none, [⟨.digits, none⟩], none, none,
    [.assign (.var .digit_list) (.map gsin.calculate_checksum.elt1 .d (.name .digits)),
     .unpack [(.var .odd), (.var .even)] none (.list [(.slice (.name .digit_list) (.int 1) .none (.int 2)), (.slice (.name .digit_list) (.int 0) .none (.int 2))]),
     .assign (.var .val1) (.call (.name .sum) [(.name .odd)] []),
     .assign (.var .val2) (.call (.name .sum) [(.name .even)] []),
     .assign (.var .checksum) (.bin .mod (.bin .sub (.int 10) (.bin .mod (.bin .add (.bin .mul (.int 3) (.name .val1)) (.name .val2)) (.int 10))) (.int 10)),
     .ret (.name .checksum)]⟩

/-- `GSIN.__init__`.  /repo/epcpy/epc_schemes/gsin.py:51-69 -/
def GSIN.__init__ : FunDef :=
  ⟨.gsin, (some .GSIN), [⟨.self, none⟩, ⟨.epc_uri, none⟩], none, none,
    [.superInit [(.name .epc_uri)],
     .ite (.not (.call (.attr (.name .GSIN_URI_REGEX) .fullmatch) [(.name .epc_uri)] [])) [.raise (.call (.name .ConvertException) [] [(.message, (.cat (.str (py "Invalid GSIN URI ")) (.fmt (.name .epc_uri) (.str []))))])] [],
     .unpack [(.attr .self ._company_prefix), (.attr .self ._shipper_ref)] none (.call (.attr (.item (.call (.attr (.name .epc_uri) .split) [(.str (py ":"))] []) (.int 4)) .split) [(.str (py "."))] []),
     .ite (.or (.cmp .ne (.call (.name .len) [(.cat (.fmt (.attr (.name .self) ._company_prefix) (.str [])) (.fmt (.attr (.name .self) ._shipper_ref) (.str [])))] []) (.int 16)) (.not (.cmp2 .le .le (.int 6) (.call (.name .len) [(.attr (.name .self) ._company_prefix)] []) (.int 12)))) [.raise (.call (.name .ConvertException) [] [(.message, (.cat (.str (py "Invalid component length ")) (.fmt (.call (.name .len) [(.call (.attr (.item (.call (.attr (.name .epc_uri) .split) [(.str (py ":"))] []) (.int 4)) .replace) [(.str (py ".")), (.str (py ""))] [])] []) (.str []))))])] [],
     .assign (.attr .self .epc_uri) (.name .epc_uri),
     .assign (.var .check_digit) (.call (.name .calculate_checksum) [(.cat (.fmt (.attr (.name .self) ._company_prefix) (.str [])) (.fmt (.attr (.name .self) ._shipper_ref) (.str [])))] []),
     .assign (.attr .self ._gsin) (.cat (.fmt (.attr (.name .self) ._company_prefix) (.str [])) (.cat (.fmt (.attr (.name .self) ._shipper_ref) (.str [])) (.fmt (.name .check_digit) (.str []))))]⟩

/-- `GSIN.gs1_key`.  /repo/epcpy/epc_schemes/gsin.py:71-77 -/
def GSIN.gs1_key : FunDef :=
  ⟨.gsin, (some .GSIN), [⟨.self, none⟩], none, none,
    [.ret (.attr (.name .self) ._gsin)]⟩

/-- `GSIN.gs1_element_string`.  /repo/epcpy/epc_schemes/gsin.py:79-85 -/
def GSIN.gs1_element_string : FunDef :=
  ⟨.gsin, (some .GSIN), [⟨.self, none⟩], none, none,
    [.ret (.cat (.str (py "(402)")) (.fmt (.attr (.name .self) ._gsin) (.str [])))]⟩

/-- `GSIN.from_gs1_element_string`.  /repo/epcpy/epc_schemes/gsin.py:88-112 -/
def GSIN.from_gs1_element_string : FunDef :=
  ⟨.gsin, (some .GSIN), [⟨.cls, none⟩, ⟨.gs1_element_string, none⟩, ⟨.company_prefix_length, none⟩], none, none,
    [.ite (.not (.call (.attr (.attr (.name .GSIN) .gs1_element_string_regex) .fullmatch) [(.name .gs1_element_string)] [])) [.raise (.call (.name .ConvertException) [] [(.message, (.cat (.str (py "Invalid GSIN GS1 element string ")) (.fmt (.name .gs1_element_string) (.str []))))])] [],
     .assign (.var .digits) (.slice (.name .gs1_element_string) (.int 5) (.neg (.int 1)) .none),
     .ret (.call (.name .cls) [(.cat (.str (py "urn:epc:id:gsin:")) (.cat (.fmt (.slice (.name .digits) .none (.name .company_prefix_length) .none) (.str [])) (.cat (.str (py ".")) (.fmt (.slice (.name .digits) (.name .company_prefix_length) .none .none) (.str [])))))] [])]⟩

end Epc.Src
