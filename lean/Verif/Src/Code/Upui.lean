/-
The source of /repo/epcpy/epc_schemes/upui.py.
Generated by tools/gen_src.py from the syntax trees of /repo/epcpy.
-/
import Verif.Src.Syntax

namespace Epc.Src

/-- `UPUI_URI_REGEX`.  /repo/epcpy/epc_schemes/upui.py:15-15 -/
def upui.UPUI_URI_REGEX : Expr :=
  (.call (.attr (.name .re) .compile) [(.name .UPUI_URI)] [])

/-- `UPUI.__init__`.  /repo/epcpy/epc_schemes/upui.py:36-58 -/
def UPUI.__init__ : FunDef :=
  ⟨.upui, (some .UPUI), [⟨.self, none⟩, ⟨.epc_uri, none⟩], none, none,
    [.superInit [(.name .epc_uri)],
     .ite (.not (.call (.attr (.name .UPUI_URI_REGEX) .fullmatch) [(.name .epc_uri)] [])) [.raise (.call (.name .ConvertException) [] [(.message, (.cat (.str (py "Invalid UPUI URI ")) (.fmt (.name .epc_uri) (.str []))))])] [],
     .unpack [(.attr .self ._company_pref), (.attr .self ._item_ref)] (some (.var .tpx_components)) (.call (.attr (.call (.attr (.str (py ":")) .join) [(.slice (.call (.attr (.name .epc_uri) .split) [(.str (py ":"))] []) (.int 4) .none .none)] []) .split) [(.str (py "."))] []),
     .assign (.var .tpx) (.call (.attr (.str (py ".")) .join) [(.name .tpx_components)] []),
     .expr (.call (.name .verify_gs3a3_component) [(.name .tpx)] []),
     .assign (.attr .self ._tpx) (.call (.name .replace_uri_escapes) [(.name .tpx)] []),
     .ite (.not (.cmp2 .le .le (.int 1) (.call (.name .len) [(.attr (.name .self) ._tpx)] []) (.int 28))) [.raise (.call (.name .ConvertException) [] [(.message, (.str (py "Incorrect TPX size")))])] [],
     .ite (.cmp .ne (.call (.name .len) [(.cat (.fmt (.attr (.name .self) ._company_pref) (.str [])) (.fmt (.attr (.name .self) ._item_ref) (.str [])))] []) (.int 13)) [.raise (.call (.name .ConvertException) [] [(.message, (.str (py "Wrong company prefix + item ref size (!=13)")))])] [],
     .assign (.attr .self .epc_uri) (.name .epc_uri)]⟩

/-- `UPUI.gs1_element_string`.  /repo/epcpy/epc_schemes/upui.py:60-69 -/
def UPUI.gs1_element_string : FunDef :=
  ⟨.upui, (some .UPUI), [⟨.self, none⟩], none, none,
    [.assign (.var .check_digit) (.call (.name .calculate_checksum) [(.cat (.fmt (.item (.attr (.name .self) ._item_ref) (.int 0)) (.str [])) (.cat (.fmt (.attr (.name .self) ._company_pref) (.str [])) (.fmt (.slice (.attr (.name .self) ._item_ref) (.int 1) .none .none) (.str []))))] []),
     .ret (.cat (.str (py "(01)")) (.cat (.fmt (.item (.attr (.name .self) ._item_ref) (.int 0)) (.str [])) (.cat (.fmt (.attr (.name .self) ._company_pref) (.str [])) (.cat (.fmt (.slice (.attr (.name .self) ._item_ref) (.int 1) .none .none) (.str [])) (.cat (.fmt (.name .check_digit) (.str [])) (.cat (.str (py "(235)")) (.fmt (.attr (.name .self) ._tpx) (.str []))))))))]⟩

/-- `UPUI.from_gs1_element_string`.  /repo/epcpy/epc_schemes/upui.py:72-98 -/
def UPUI.from_gs1_element_string : FunDef :=
  ⟨.upui, (some .UPUI), [⟨.cls, none⟩, ⟨.gs1_element_string, none⟩, ⟨.company_prefix_length, none⟩], none, none,
    [.ite (.not (.call (.attr (.attr (.name .UPUI) .gs1_element_string_regex) .fullmatch) [(.name .gs1_element_string)] [])) [.raise (.call (.name .ConvertException) [] [(.message, (.cat (.str (py "Invalid UPUI GS1 element string ")) (.fmt (.name .gs1_element_string) (.str []))))])] [],
     .assign (.var .digits) (.slice (.name .gs1_element_string) (.int 4) (.int 18) .none),
     .assign (.var .chars) (.slice (.name .gs1_element_string) (.int 23) .none .none),
     .assign (.var .chars) (.call (.name .revert_uri_escapes) [(.name .chars)] []),
     .ret (.call (.name .cls) [(.cat (.str (py "urn:epc:id:upui:")) (.cat (.fmt (.slice (.name .digits) (.int 1) (.bin .add (.int 1) (.name .company_prefix_length)) .none) (.str [])) (.cat (.str (py ".")) (.cat (.fmt (.item (.name .digits) (.int 0)) (.str [])) (.cat (.fmt (.slice (.name .digits) (.bin .add (.int 1) (.name .company_prefix_length)) (.neg (.int 1)) .none) (.str [])) (.cat (.str (py ".")) (.fmt (.name .chars) (.str []))))))))] [])]⟩

end Epc.Src
