/-
The class statements of `Verif/Model/Classes.lean` are those of the source.
-/
import Verif.Src.Interp
import Verif.Model.Classes
import Verif.Lemmas.Class
import Verif.Refine.Schemes

namespace Epc.Src

/-- The names that class statements bind. -/
def classNames : List (Nm × Str) :=
  [(.__init__, py "__init__"), (.__eq__, py "__eq__"), (.from_epc_uri, py "from_epc_uri"), (.BinaryCodingScheme, py "BinaryCodingScheme"),
    (.BinaryHeader, py "BinaryHeader"), (.TAG_URI_REGEX, py "TAG_URI_REGEX"), (.TAG_URI_PREFIX, py "TAG_URI_PREFIX"), (.tag_uri, py "tag_uri"),
    (.binary, py "binary"), (.hex, py "hex"), (.base64, py "base64"), (.from_binary, py "from_binary"), (.from_hex, py "from_hex"),
    (.from_base64, py "from_base64"), (.from_tag_uri, py "from_tag_uri"), (.header_to_schemes, py "header_to_schemes"),
    (.gs1_element_string, py "gs1_element_string"), (.from_gs1_element_string, py "from_gs1_element_string"), (.gs1_key, py "gs1_key"),
    (.gs1_element_string_regex, py "gs1_element_string_regex"), (.gtin, py "gtin"), (.from_gtin_plus_serial, py "from_gtin_plus_serial")]

/-- The base classes, the names bound in the class statement, and the method resolution order are those of the source. -/
theorem classes_agree (C : PyCls) (c : Cl) (h : clPy C = some c) :
    C.stmt.bases.filterMap clPy = clsBases c ∧
    C.stmt.names = (clsDict c).map (fun p => (get p.1 classNames).getD []) ∧
    C.mro.filterMap clPy = clsMro c := by
  revert c
  revert C
  apply PyCls.forall
  · intro c h; cases h
  · intro c h; cases h; decide +kernel
  · intro c h; cases h; decide +kernel
  · intro c h; cases h; decide +kernel
  · intro c h; cases h; decide +kernel
  · have key : ∀ c ∈ Cls.all, (PyCls.scheme c).stmt.bases.filterMap clPy = clsBases (clOf c) ∧
        (PyCls.scheme c).stmt.names = (clsDict (clOf c)).map (fun p => (get p.1 classNames).getD []) ∧
        (PyCls.scheme c).mro.filterMap clPy = clsMro (clOf c) := by decide +kernel
    intro c hc d h
    cases h
    exact key c hc

end Epc.Src
