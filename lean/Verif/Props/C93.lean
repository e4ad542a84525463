/-
C93: the functions of /repo/epcpy/utils/parsers.py, executed from the source.
Generated by tools/gen_source_props.py.
-/
import Verif.Lemmas.Source
set_option linter.unusedVariables false

namespace Epc.Src

/-- `epc_pure_identity_to_scheme(s)` -/
theorem C93_epc_pure_identity_to_scheme (s : Str) : function .epc_pure_identity_to_scheme [.str s] [] = outcome objScheme (epcPureIdentityToScheme s) := by
  rw [← lift_outcome]; exact function_eq rfl (fun _ => rfl) (sem_scheme 12 s)

/-- `epc_pure_identity_to_gs1_element(s)` -/
theorem C93_epc_pure_identity_to_gs1_element (s : Str) : function .epc_pure_identity_to_gs1_element [.str s] [] = outcome objScheme (epcPureIdentityToGs1Element s) := by
  rw [← lift_outcome]; exact function_eq rfl (fun _ => rfl) (sem_gs1_element 11 s)

/-- `epc_pure_identity_to_gs1_keyed(s)` -/
theorem C93_epc_pure_identity_to_gs1_keyed (s : Str) : function .epc_pure_identity_to_gs1_keyed [.str s] [] = outcome objScheme (epcPureIdentityToGs1Keyed s) := by
  rw [← lift_outcome]; exact function_eq rfl (fun _ => rfl) (sem_gs1_keyed 11 s)

/-- `epc_pure_identity_to_tag_encodable(s)` -/
theorem C93_epc_pure_identity_to_tag_encodable (s : Str) : function .epc_pure_identity_to_tag_encodable [.str s] [] = outcome objScheme (epcPureIdentityToTagEncodable s) := by
  rw [← lift_outcome]; exact function_eq rfl (fun _ => rfl) (sem_tag_encodable 11 s)

/-- `tag_uri_to_tag_encodable(s)` -/
theorem C93_tag_uri_to_tag_encodable (s : Str) : function .tag_uri_to_tag_encodable [.str s] [] = outcome objScheme (tagUriToTagEncodable s) := by
  rw [← lift_outcome]; exact function_eq rfl (fun _ => rfl) (sem_tag_uri_to 11 s)

/-- `binary_to_tag_encodable(s)` -/
theorem C93_binary_to_tag_encodable (s : Str) : function .binary_to_tag_encodable [.str s] [] = outcome objScheme (binaryToTagEncodable s) := by
  rw [← lift_outcome]; exact function_eq rfl (fun _ => rfl) (sem_binary_to 9 s)

/-- `hex_to_tag_encodable(s)` -/
theorem C93_hex_to_tag_encodable (s : Str) : function .hex_to_tag_encodable [.str s] [] = outcome objScheme (hexToTagEncodable s) := by
  rw [← lift_outcome]; exact function_eq rfl (fun _ => rfl) (sem_hex_to 8 s)

/-- `base64_to_tag_encodable(s)` -/
theorem C93_base64_to_tag_encodable (s : Str) : function .base64_to_tag_encodable [.str s] [] = outcome objScheme (base64ToTagEncodable s) := by
  rw [← lift_outcome]; exact function_eq rfl (fun _ => rfl) (sem_base64_to 7 s)

/-- `epc_pure_identity_to_gs1_element_string(s)` -/
theorem C93_epc_pure_identity_to_gs1_element_string (s : Str) :
    function .epc_pure_identity_to_gs1_element_string [.str s] [] = outcome .str (epcPureIdentityToGs1ElementString s) := by
  rw [← lift_outcome]; exact function_eq rfl (fun _ => rfl) (sem_gs1_element_string 10 s)

/-- `epc_pure_identity_to_gs1_key(s)` and `epc_pure_identity_to_gs1_key(s, gtin_type=t)` -/
theorem C93_epc_pure_identity_to_gs1_key (s : Str) (t : Option GtinType) :
    function .epc_pure_identity_to_gs1_key [.str s] (keyKw t) = outcome .str (epcPureIdentityToGs1Key s t) := by
  rw [← lift_outcome]; exact function_eq rfl (fun _ => rfl) (sem_gs1_key 10 s t)

/-- `gs1_element_string_to_gs1_element(s, k)` -/
theorem C93_gs1_element_string_to_gs1_element (s : Str) (k : Int) :
    function .gs1_element_string_to_gs1_element [.str s, .int k] [] = outcome objScheme (gs1ElementStringToGs1Element s k) := by
  rw [← lift_outcome]; exact function_eq rfl (fun _ => rfl) (sem_element_string_to 11 s k)

/-- `get_gs1_key(s)`, `get_gs1_key(s, k)` and the same with `gtin_type=t` -/
theorem C93_get_gs1_key (s : Str) (k : Option Int) (t : Option GtinType) :
    function .get_gs1_key (.str s :: lenArg k) (keyKw t) = outcome .str (getGs1Key s k t) := by
  rw [← lift_outcome]; exact function_eq rfl (fun _ => rfl) (sem_get_gs1_key 6 s k t)

/-- A program of two calls. -/
example : returnsStr (function .hex_to_tag_encodable [.str (py "3034257BF7194E4000001A85")] [] >>= (fun x => invoke x .gs1_key [] []))
    (py "80614141123458") := by decide +kernel
example : returnsStr (function .get_gs1_key [.str (py "urn:epc:id:sgtin:0614141.812345.6789")] []) (py "80614141123458") := by decide +kernel

end Epc.Src
