/-
The parameters of the public calls, for claims about the ways of passing arguments (`Passes`, `Spec/Call`).
Everything is executed from the source (`Spec/Source`).
-/
import Verif.Spec.Call
import Verif.Spec.Program

namespace Epc.Src
open Spec Grammar

/-- `c(*args, **kw)` -/
def make (c : Cl) (args : List Val) (kw : List (Nm × Val)) : M Val := applyVal (level 24) (.cls c) args kw

/-- The call `f` has the parameters `ps` (name and default value): however the arguments are passed, the outcome is that of passing
the value of every parameter by position, and TypeError if the arguments do not give every parameter one value.  The names of keyword
arguments are different. -/
def Takes (ps : List (Nm × Option Val)) (f : List Val → List (Nm × Val) → M Val) : Prop :=
  ∀ pos kw, (kw.map (·.1)).Nodup →
    (∀ vs, Passes ps pos kw vs → f pos kw = f vs []) ∧
    ((¬ ∃ vs, Passes ps pos kw vs) → f pos kw = .error (.err .type))

/-- As `Takes`, for a call that ignores its positional arguments: the outcome is that of passing every parameter by name. -/
def TakesByName (ps : List (Nm × Option Val)) (f : List Val → List (Nm × Val) → M Val) : Prop :=
  ∀ pos kw, (kw.map (·.1)).Nodup →
    (∀ vs, Passes ps [] kw vs → f pos kw = f [] ((ps.map (·.1)).zip vs)) ∧
    ((¬ ∃ vs, Passes ps [] kw vs) → f pos kw = .error (.err .type))

/-- The coding scheme of a class that has one only. -/
def theCoding (c : Cls) : Option Val := (codings (clOf c)).head?

/-- `e.ALL_OTHERS` -/
def allOthers (e : Cl) : Option Val := (read (.cls e) .ALL_OTHERS).toOption

/-- The parameters of `tag_uri`. -/
def tagUriSig : Cls → List (Nm × Option Val)
  | .gid => [(.binary_coding_scheme, theCoding .gid)]
  | .gsrn => [(.binary_coding_scheme, theCoding .gsrn), (.filter_value, allOthers .GSRNFilterValue)]
  | .gsrnp => [(.binary_coding_scheme, theCoding .gsrnp), (.filter_value, allOthers .GSRNPFilterValue)]
  | .sscc => [(.filter_value, .none), (.binary_coding_scheme, theCoding .sscc)]
  | .sgcn => [(.filter_value, .none), (.binary_coding_scheme, theCoding .sgcn)]
  | .usdod => [(.filter_value, .none), (.binary_coding_scheme, theCoding .usdod)]
  | .adi => [(.filter_value, .none), (.binary_coding_scheme, theCoding .adi)]
  | _ => [(.binary_coding_scheme, .none), (.filter_value, .none)]

/-- The parameters of `binary`: those of `tag_uri`, in the other order for ITIP. -/
def binarySig : Cls → List (Nm × Option Val)
  | .itip => [(.filter_value, .none), (.binary_coding_scheme, .none)]
  | c => tagUriSig c

/-- The parameters of `gs1_key`. -/
def keySig : Cls → List (Nm × Option Val)
  | .sgtin | .lgtin => [(.gtin_type, some (.int 14))]
  | _ => []

/-- The parameters of `from_tag_uri`. -/
def fromTagSig (c : Cls) : List (Nm × Option Val) := [(.epc_tag_uri, .none), (.includes_filter, some (.bool (c ≠ .gid)))]

/-- The parameters of the functions of /repo/epcpy/utils/parsers.py that have no `**kwargs`. -/
def functionSigs : List (Nm × List (Nm × Option Val)) :=
  [(.binary_to_tag_encodable, [(.binary_string, .none)]), (.hex_to_tag_encodable, [(.hex_string, .none)]),
    (.base64_to_tag_encodable, [(.base64_string, .none)]), (.tag_uri_to_tag_encodable, [(.epc_tag_uri, .none)]),
    (.epc_pure_identity_to_scheme, [(.epc_pure_identity_uri, .none)]), (.epc_pure_identity_to_tag_encodable, [(.epc_pure_identity_uri, .none)]),
    (.epc_pure_identity_to_gs1_keyed, [(.epc_pure_identity_uri, .none)]), (.epc_pure_identity_to_gs1_element, [(.epc_pure_identity_uri, .none)]),
    (.epc_pure_identity_to_gs1_element_string, [(.epc_pure_identity_uri, .none)]),
    (.gs1_element_string_to_gs1_element, [(.gs1_element_string, .none), (.company_prefix_length, .none)])]

end Epc.Src
