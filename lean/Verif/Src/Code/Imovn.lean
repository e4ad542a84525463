/-
The source of /repo/epcpy/epc_schemes/imovn.py.
Generated by tools/gen_src.py from the syntax trees of /repo/epcpy.
-/
import Verif.Src.Syntax

namespace Epc.Src

/-- `IMOVN_URI_REGEX`.  /repo/epcpy/epc_schemes/imovn.py:7-7 -/
def imovn.IMOVN_URI_REGEX : Expr :=
  (.call (.attr (.name .re) .compile) [(.name .IMOVN_URI)] [])

/-- `IMOVN.__init__`.  /repo/epcpy/epc_schemes/imovn.py:22-30 -/
def IMOVN.__init__ : FunDef :=
  ⟨.imovn, (some .IMOVN), [⟨.self, none⟩, ⟨.epc_uri, none⟩], none, none,
    [.superInit [(.name .epc_uri)],
     .ite (.not (.call (.attr (.name .IMOVN_URI_REGEX) .fullmatch) [(.name .epc_uri)] [])) [.raise (.call (.name .ConvertException) [] [(.message, (.cat (.str (py "Invalid IMOVN URI ")) (.fmt (.name .epc_uri) (.str []))))])] [],
     .assign (.attr .self .epc_uri) (.name .epc_uri),
     .assign (.attr .self ._vessel_number) (.item (.call (.attr (.name .epc_uri) .split) [(.str (py ":"))] []) (.int 4))]⟩

end Epc.Src
