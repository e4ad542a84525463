/-
The source of /repo/epcpy/epc_schemes/ginc.py.
Generated by tools/gen_src.py from the syntax trees of /repo/epcpy.
-/
import Verif.Src.Syntax

namespace Epc.Src

/-- `GINC_URI_REGEX`.  /repo/epcpy/epc_schemes/ginc.py:14-14 -/
def ginc.GINC_URI_REGEX : Expr :=
  (.call (.attr (.name .re) .compile) [(.name .GINC_URI)] [])

/-- `GINC.__init__`.  /repo/epcpy/epc_schemes/ginc.py:36-62 -/
def GINC.__init__ : FunDef :=
  ⟨.ginc, (some .GINC), [⟨.self, none⟩, ⟨.epc_uri, none⟩], none, none,
    [.superInit [(.name .epc_uri)],
     .ite (.not (.call (.attr (.name .GINC_URI_REGEX) .fullmatch) [(.name .epc_uri)] [])) [.raise (.call (.name .ConvertException) [] [(.message, (.cat (.str (py "Invalid GINC URI ")) (.fmt (.name .epc_uri) (.str []))))])] [],
     .unpack [(.var .company_prefix)] (some (.var .consignment_reference_components)) (.call (.attr (.call (.attr (.str (py ":")) .join) [(.slice (.call (.attr (.name .epc_uri) .split) [(.str (py ":"))] []) (.int 4) .none .none)] []) .split) [(.str (py "."))] []),
     .assign (.var .consignment_reference) (.call (.attr (.str (py ".")) .join) [(.name .consignment_reference_components)] []),
     .expr (.call (.name .verify_gs3a3_component) [(.name .consignment_reference)] []),
     .assign (.var .consignment_reference) (.call (.name .replace_uri_escapes) [(.name .consignment_reference)] []),
     .ite (.not (.cmp2 .le .le (.int 6) (.call (.name .len) [(.name .company_prefix)] []) (.int 12))) [.raise (.call (.name .ConvertException) [] [(.message, (.cat (.str (py "Invalid company prefix length ")) (.fmt (.call (.name .len) [(.name .company_prefix)] []) (.str []))))])] [],
     .ite (.cmp .eq (.call (.name .len) [(.name .consignment_reference)] []) (.int 0)) [.raise (.call (.name .ConvertException) [] [(.message, (.str (py "Consignment reference too small")))])] [],
     .ite (.cmp .gt (.call (.name .len) [(.cat (.fmt (.name .company_prefix) (.str [])) (.fmt (.name .consignment_reference) (.str [])))] []) (.int 30)) [.raise (.call (.name .ConvertException) [] [(.message, (.str (py "Complete component length too large (>30)")))])] [],
     .assign (.attr .self .epc_uri) (.name .epc_uri),
     .assign (.attr .self ._ginc) (.cat (.fmt (.name .company_prefix) (.str [])) (.fmt (.name .consignment_reference) (.str [])))]⟩

/-- `GINC.gs1_key`.  /repo/epcpy/epc_schemes/ginc.py:64-70 -/
def GINC.gs1_key : FunDef :=
  ⟨.ginc, (some .GINC), [⟨.self, none⟩], none, none,
    [.ret (.attr (.name .self) ._ginc)]⟩

/-- `GINC.gs1_element_string`.  /repo/epcpy/epc_schemes/ginc.py:72-78 -/
def GINC.gs1_element_string : FunDef :=
  ⟨.ginc, (some .GINC), [⟨.self, none⟩], none, none,
    [.ret (.cat (.str (py "(401)")) (.fmt (.attr (.name .self) ._ginc) (.str [])))]⟩

/-- `GINC.from_gs1_element_string`.  /repo/epcpy/epc_schemes/ginc.py:81-105 -/
def GINC.from_gs1_element_string : FunDef :=
  ⟨.ginc, (some .GINC), [⟨.cls, none⟩, ⟨.gs1_element_string, none⟩, ⟨.company_prefix_length, none⟩], none, none,
    [.ite (.not (.call (.attr (.attr (.name .GINC) .gs1_element_string_regex) .fullmatch) [(.name .gs1_element_string)] [])) [.raise (.call (.name .ConvertException) [] [(.message, (.cat (.str (py "Invalid GINC GS1 element string ")) (.fmt (.name .gs1_element_string) (.str []))))])] [],
     .assign (.var .digits) (.slice (.name .gs1_element_string) (.int 5) (.bin .add (.int 5) (.name .company_prefix_length)) .none),
     .assign (.var .chars) (.slice (.name .gs1_element_string) (.bin .add (.int 5) (.name .company_prefix_length)) .none .none),
     .assign (.var .chars) (.call (.name .revert_uri_escapes) [(.name .chars)] []),
     .ret (.call (.name .cls) [(.cat (.str (py "urn:epc:id:ginc:")) (.cat (.fmt (.name .digits) (.str [])) (.cat (.str (py ".")) (.fmt (.name .chars) (.str [])))))] [])]⟩

end Epc.Src
