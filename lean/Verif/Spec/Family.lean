/-
The families of classes and their methods, for claims about programs executed from the source (`Spec/Source`).
-/
import Verif.Spec.Source
import Verif.Spec.Class

namespace Epc.Src
open Spec

/-- `isinstance(o, d)` -/
def instanceOf (o : Val) (d : Cl) : M Val := applyVal (level 24) (.builtin .isinstance) [o, .cls d] []

/-- `issubclass(c, d)` -/
def subclassOf (c d : Cl) : M Val := applyVal (level 24) (.builtin .issubclass) [.cls c, .cls d] []

/-- The classes of /repo/epcpy/epc_schemes/base_scheme.py. -/
def baseClasses : List Cl := [.EPCScheme, .TagEncodable, .GS1Element, .GS1Keyed]

/-- The scheme classes that are not written to tags. -/
def notTags : List Cls := [.bic, .ginc, .gsin, .imovn, .lgtin, .pgln, .upui]

/-- The scheme classes without element strings. -/
def notElements : List Cls := [.adi, .bic, .gid, .imovn, .usdod]

/-- The scheme classes without a GS1 key. -/
def notKeyed : List Cls := .cpi :: .itip :: .upui :: notElements

/-- The methods of the family of a base class. -/
def familyMethods : Cl → List Nm
  | .TagEncodable => [.tag_uri, .binary, .hex, .base64, .from_binary, .from_hex, .from_base64, .from_tag_uri]
  | .GS1Element => [.gs1_element_string, .from_gs1_element_string]
  | .GS1Keyed => [.gs1_key]
  | .EPCScheme => [.from_epc_uri, .__eq__]
  | _ => []

end Epc.Src
