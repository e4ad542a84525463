/-
The source of /repo/epcpy/epc_schemes/bic.py.
Generated by tools/gen_src.py from the syntax trees of /repo/epcpy.
-/
import Verif.Src.Syntax

namespace Epc.Src

/-- `BIC_URI_REGEX`.  /repo/epcpy/epc_schemes/bic.py:7-7 -/
def bic.BIC_URI_REGEX : Expr :=
  (.call (.attr (.name .re) .compile) [(.name .BIC_URI)] [])

/-- `BIC.__init__`.  /repo/epcpy/epc_schemes/bic.py:22-36 -/
def BIC.__init__ : FunDef :=
  ⟨.bic, (some .BIC), [⟨.self, none⟩, ⟨.epc_uri, none⟩], none, none,
    [.superInit [(.name .epc_uri)],
     .ite (.not (.call (.attr (.name .BIC_URI_REGEX) .fullmatch) [(.name .epc_uri)] [])) [.raise (.call (.name .ConvertException) [] [(.message, (.cat (.str (py "Invalid BIC URI ")) (.fmt (.name .epc_uri) (.str []))))])] [],
     .assign (.attr .self .epc_uri) (.name .epc_uri),
     .assign (.var .container_code) (.item (.call (.attr (.name .epc_uri) .split) [(.str (py ":"))] []) (.int 4)),
     .assign (.attr .self ._container_code) (.name .container_code),
     .assign (.attr .self ._owner_code) (.slice (.name .container_code) (.int 0) (.int 3) .none),
     .assign (.attr .self ._equipment_category_identifier) (.item (.name .container_code) (.int 3)),
     .assign (.attr .self ._serial) (.slice (.name .container_code) (.int 4) (.int 10) .none),
     .assign (.attr .self ._check_digit) (.item (.name .container_code) (.int 10))]⟩

end Epc.Src
