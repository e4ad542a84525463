/-
The source of /repo/epcpy/epc_schemes/pgln.py.
Generated by tools/gen_src.py from the syntax trees of /repo/epcpy.
-/
import Verif.Src.Syntax

namespace Epc.Src

/-- `PGLN_URI_REGEX`.  /repo/epcpy/epc_schemes/pgln.py:9-9 -/
def pgln.PGLN_URI_REGEX : Expr :=
  (.call (.attr (.name .re) .compile) [(.name .PGLN_URI)] [])

/-- `PGLN.__init__`.  /repo/epcpy/epc_schemes/pgln.py:31-48 -/
def PGLN.__init__ : FunDef :=
  ⟨.pgln, (some .PGLN), [⟨.self, none⟩, ⟨.epc_uri, none⟩], none, none,
    [.superInit [(.name .epc_uri)],
     .ite (.not (.call (.attr (.name .PGLN_URI_REGEX) .fullmatch) [(.name .epc_uri)] [])) [.raise (.call (.name .ConvertException) [] [(.message, (.cat (.str (py "Invalid PGLN URI ")) (.fmt (.name .epc_uri) (.str []))))])] [],
     .unpack [(.attr .self ._company_pref), (.attr .self ._party_ref)] none (.call (.attr (.item (.call (.attr (.name .epc_uri) .split) [(.str (py ":"))] []) (.int 4)) .split) [(.str (py "."))] []),
     .ite (.or (.cmp .ne (.call (.name .len) [(.cat (.fmt (.attr (.name .self) ._company_pref) (.str [])) (.fmt (.attr (.name .self) ._party_ref) (.str [])))] []) (.int 12)) (.not (.cmp2 .le .le (.int 6) (.call (.name .len) [(.attr (.name .self) ._company_pref)] []) (.int 12)))) [.raise (.call (.name .ConvertException) [] [(.message, (.str (py "Invalid EPC_URI")))])] [],
     .assign (.attr .self .epc_uri) (.name .epc_uri),
     .assign (.var .check_digit) (.call (.name .calculate_checksum) [(.cat (.fmt (.attr (.name .self) ._company_pref) (.str [])) (.fmt (.attr (.name .self) ._party_ref) (.str [])))] []),
     .assign (.attr .self ._pgln) (.cat (.fmt (.attr (.name .self) ._company_pref) (.str [])) (.cat (.fmt (.attr (.name .self) ._party_ref) (.str [])) (.fmt (.name .check_digit) (.str []))))]⟩

/-- `PGLN.gs1_key`.  /repo/epcpy/epc_schemes/pgln.py:50-56 -/
def PGLN.gs1_key : FunDef :=
  ⟨.pgln, (some .PGLN), [⟨.self, none⟩], none, none,
    [.ret (.attr (.name .self) ._pgln)]⟩

/-- `PGLN.gs1_element_string`.  /repo/epcpy/epc_schemes/pgln.py:58-64 -/
def PGLN.gs1_element_string : FunDef :=
  ⟨.pgln, (some .PGLN), [⟨.self, none⟩], none, none,
    [.ret (.cat (.str (py "(417)")) (.fmt (.attr (.name .self) ._pgln) (.str [])))]⟩

/-- `PGLN.from_gs1_element_string`.  /repo/epcpy/epc_schemes/pgln.py:67-91 -/
def PGLN.from_gs1_element_string : FunDef :=
  ⟨.pgln, (some .PGLN), [⟨.cls, none⟩, ⟨.gs1_element_string, none⟩, ⟨.company_prefix_length, none⟩], none, none,
    [.ite (.not (.call (.attr (.attr (.name .PGLN) .gs1_element_string_regex) .fullmatch) [(.name .gs1_element_string)] [])) [.raise (.call (.name .ConvertException) [] [(.message, (.cat (.str (py "Invalid PGLN GS1 element string ")) (.fmt (.name .gs1_element_string) (.str []))))])] [],
     .assign (.var .digits) (.slice (.name .gs1_element_string) (.int 5) .none .none),
     .ret (.call (.name .cls) [(.cat (.str (py "urn:epc:id:pgln:")) (.cat (.fmt (.slice (.name .digits) .none (.name .company_prefix_length) .none) (.str [])) (.cat (.str (py ".")) (.fmt (.slice (.name .digits) (.name .company_prefix_length) (.neg (.int 1)) .none) (.str [])))))] [])]⟩

end Epc.Src
