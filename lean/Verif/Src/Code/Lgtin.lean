/-
The source of /repo/epcpy/epc_schemes/lgtin.py.
Generated by tools/gen_src.py from the syntax trees of /repo/epcpy.
-/
import Verif.Src.Syntax

namespace Epc.Src

/-- `LGTIN_CLASS_REGEX`.  /repo/epcpy/epc_schemes/lgtin.py:16-16 -/
def lgtin.LGTIN_CLASS_REGEX : Expr :=
  (.call (.attr (.name .re) .compile) [(.name .LGTIN_CLASS)] [])

/-- `LGTIN.__init__`.  /repo/epcpy/epc_schemes/lgtin.py:45-80 -/
def LGTIN.__init__ : FunDef :=
  ⟨.lgtin, (some .LGTIN), [⟨.self, none⟩, ⟨.epc_class, none⟩], none, none,
    [.superInit [(.name .epc_class)],
     .ite (.not (.call (.attr (.name .LGTIN_CLASS_REGEX) .fullmatch) [(.name .epc_class)] [])) [.raise (.call (.name .ConvertException) [] [(.message, (.cat (.str (py "Invalid LGTIN CLASS ")) (.fmt (.name .epc_class) (.str []))))])] [],
     .unpack [(.attr .self ._company_pref), (.attr .self ._item_ref)] (some (.var .lot)) (.call (.attr (.call (.attr (.str (py ":")) .join) [(.slice (.call (.attr (.name .epc_class) .split) [(.str (py ":"))] []) (.int 4) .none .none)] []) .split) [(.str (py "."))] []),
     .assign (.attr .self ._lot) (.call (.attr (.str (py ".")) .join) [(.name .lot)] []),
     .expr (.call (.name .verify_gs3a3_component) [(.attr (.name .self) ._lot)] []),
     .assign (.attr .self ._lot) (.call (.name .replace_uri_escapes) [(.attr (.name .self) ._lot)] []),
     .ite (.not (.cmp2 .le .le (.int 6) (.call (.name .len) [(.attr (.name .self) ._company_pref)] []) (.int 12))) [.raise (.call (.name .ConvertException) [] [(.message, (.cat (.str (py "Invalid company prefix length ")) (.fmt (.call (.name .len) [(.attr (.name .self) ._company_pref)] []) (.str []))))])] [],
     .ite (.cmp .ne (.call (.name .len) [(.cat (.fmt (.attr (.name .self) ._company_pref) (.str [])) (.fmt (.attr (.name .self) ._item_ref) (.str [])))] []) (.int 13)) [.raise (.call (.name .ConvertException) [] [(.message, (.str (py "Complete component length of invalid length (!=13)")))])] [],
     .ite (.not (.cmp2 .le .le (.int 1) (.call (.name .len) [(.attr (.name .self) ._lot)] []) (.int 20))) [.raise (.call (.name .ConvertException) [] [(.message, (.str (py "Invalid lot length")))])] [],
     .assign (.attr .self .epc_uri) (.name .epc_class),
     .assign (.var .check_digit) (.call (.name .calculate_checksum) [(.cat (.fmt (.item (.attr (.name .self) ._item_ref) (.int 0)) (.str [])) (.cat (.fmt (.attr (.name .self) ._company_pref) (.str [])) (.fmt (.slice (.attr (.name .self) ._item_ref) (.int 1) .none .none) (.str []))))] []),
     .assign (.attr .self ._gtin) (.call (.attr (.cat (.fmt (.item (.attr (.name .self) ._item_ref) (.int 0)) (.str [])) (.cat (.fmt (.attr (.name .self) ._company_pref) (.str [])) (.cat (.fmt (.slice (.attr (.name .self) ._item_ref) (.int 1) .none .none) (.str [])) (.fmt (.name .check_digit) (.str []))))) .zfill) [(.int 14)] [])]⟩

/-- `LGTIN.gs1_key`.  /repo/epcpy/epc_schemes/lgtin.py:82-92 -/
def LGTIN.gs1_key : FunDef :=
  ⟨.lgtin, (some .LGTIN), [⟨.self, none⟩, ⟨.gtin_type, (some (.attr (.name .GTIN_TYPE) .GTIN14))⟩], none, none,
    [.ret (.call (.attr (.name .self) .gtin) [] [(.gtin_type, (.name .gtin_type))])]⟩

/-- `LGTIN.gtin`.  /repo/epcpy/epc_schemes/lgtin.py:94-111 -/
def LGTIN.gtin : FunDef :=
  ⟨.lgtin, (some .LGTIN), [⟨.self, none⟩, ⟨.gtin_type, (some (.attr (.name .GTIN_TYPE) .GTIN14))⟩], none, none,
    [.ite (.cmp .ne (.name .gtin_type) (.attr (.name .GTIN_TYPE) .GTIN14)) [.ite (.not (.call (.attr (.attr (.name .self) ._gtin) .startswith) [(.bin .mul (.bin .sub (.int 14) (.name .gtin_type)) (.str (py "0")))] [])) [.raise (.call (.name .ConvertException) [] [(.message, (.cat (.str (py "Invalid GTIN")) (.fmt (.name .gtin_type) (.str []))))])] []] [],
     .ret (.slice (.attr (.name .self) ._gtin) (.bin .sub (.int 14) (.name .gtin_type)) (.int 14) .none)]⟩

/-- `LGTIN.gs1_element_string`.  /repo/epcpy/epc_schemes/lgtin.py:113-121 -/
def LGTIN.gs1_element_string : FunDef :=
  ⟨.lgtin, (some .LGTIN), [⟨.self, none⟩], none, none,
    [.assign (.var .gtin) (.attr (.name .self) ._gtin),
     .ret (.cat (.str (py "(01)")) (.cat (.fmt (.name .gtin) (.str [])) (.cat (.str (py "(10)")) (.fmt (.attr (.name .self) ._lot) (.str [])))))]⟩

/-- `LGTIN.from_gs1_element_string`.  /repo/epcpy/epc_schemes/lgtin.py:124-149 -/
def LGTIN.from_gs1_element_string : FunDef :=
  ⟨.lgtin, (some .LGTIN), [⟨.cls, none⟩, ⟨.gs1_element_string, none⟩, ⟨.company_prefix_length, none⟩], none, none,
    [.ite (.not (.call (.attr (.attr (.name .LGTIN) .gs1_element_string_regex) .fullmatch) [(.name .gs1_element_string)] [])) [.raise (.call (.name .ConvertException) [] [(.message, (.cat (.str (py "Invalid LGTIN GS1 element string ")) (.fmt (.name .gs1_element_string) (.str []))))])] [],
     .unpack [(.var .us), (.var .digits), (.var .chars)] none (.call (.attr (.name .re) .split) [(.str (py "\\(.{2}\\)")), (.name .gs1_element_string)] []),
     .assign (.var .chars) (.call (.name .revert_uri_escapes) [(.name .chars)] []),
     .ret (.call (.name .cls) [(.cat (.str (py "urn:epc:class:lgtin:")) (.cat (.fmt (.slice (.name .digits) (.int 1) (.bin .add (.name .company_prefix_length) (.int 1)) .none) (.str [])) (.cat (.str (py ".")) (.cat (.fmt (.item (.name .digits) (.int 0)) (.str [])) (.cat (.fmt (.slice (.name .digits) (.bin .add (.int 1) (.name .company_prefix_length)) (.neg (.int 1)) .none) (.str [])) (.cat (.str (py ".")) (.fmt (.name .chars) (.str []))))))))] [])]⟩

end Epc.Src
