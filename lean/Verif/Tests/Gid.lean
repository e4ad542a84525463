/-
Tests (not proofs): the vectors of /repo/tests/epc_schemes/test_gid.py evaluated in the model.  Generated by tools/gen_tests.py.
-/
import Verif.Model.Gid

namespace Epc.Tests

-- test_valid_gid_1
example : (GID.new (py "urn:epc:id:gid:95100000.12345.400")).map (·.epcUri) = .ok (py "urn:epc:id:gid:95100000.12345.400") := by decide +kernel

-- test_valid_gid_2
example : (GID.new (py "urn:epc:id:gid:95100000.12345.0")).map (·.epcUri) = .ok (py "urn:epc:id:gid:95100000.12345.0") := by decide +kernel

-- test_valid_gid_3
example : (GID.new (py "urn:epc:id:gid:0.0.0")).map (·.epcUri) = .ok (py "urn:epc:id:gid:0.0.0") := by decide +kernel

-- test_valid_gid_4
example : (GID.new (py "urn:epc:id:gid:268435455.16777215.68719476735")).map (·.epcUri) = .ok (py "urn:epc:id:gid:268435455.16777215.68719476735") := by decide +kernel

-- test_invalid_gid_identifier
example : GID.new (py "urn:epc:id:gi:0614141.123456.0") = .error .convert := by decide +kernel

-- test_invalid_gid_serial_starting_with_zero
example : GID.new (py "urn:epc:id:gid:95100000.12345.01") = .error .convert := by decide +kernel

-- test_invalid_gid_no_object
example : GID.new (py "urn:epc:id:gid:95100000..10") = .error .convert := by decide +kernel

-- test_invalid_gid_no_manager
example : GID.new (py "urn:epc:id:gid:.0.0") = .error .convert := by decide +kernel

-- test_invalid_gid_manager_starting_with_zero
example : GID.new (py "urn:epc:id:gid:01.0.0") = .error .convert := by decide +kernel

-- test_invalid_gid_object_starting_with_zero
example : GID.new (py "urn:epc:id:gid:0.01.0") = .error .convert := by decide +kernel

-- test_invalid_gid_serial_too_high
example : GID.new (py "urn:epc:id:gid:268435455.16777215.68719476736") = .error .convert := by decide +kernel

-- test_invalid_gid_manager_too_high
example : GID.new (py "urn:epc:id:gid:268435456.16777215.68719476735") = .error .convert := by decide +kernel

-- test_invalid_gid_object_too_high
example : GID.new (py "urn:epc:id:gid:268435455.16777216.68719476735") = .error .convert := by decide +kernel

-- test_valid_gid_tag_encodable_1 (tag URI)
example : (GID.new (py "urn:epc:id:gid:95100000.12345.400")).bind (fun x => x.tagUri .gid96) = .ok (py "urn:epc:tag:gid-96:95100000.12345.400") := by decide +kernel

-- test_valid_gid_tag_encodable_1 (from tag URI)
example : (GID.fromTagUri (py "urn:epc:tag:gid-96:95100000.12345.400")).map (·.epcUri) = .ok (py "urn:epc:id:gid:95100000.12345.400") := by decide +kernel

-- test_valid_gid_tag_encodable_1 (hex)
example : (GID.new (py "urn:epc:id:gid:95100000.12345.400")).bind (fun x => x.hex .gid96) = .ok (py "355AB1C60003039000000190") := by decide +kernel

-- test_valid_gid_tag_encodable_1 (from hex)
example : (GID.fromHex (py "355AB1C60003039000000190")).map (·.epcUri) = .ok (py "urn:epc:id:gid:95100000.12345.400") := by decide +kernel

-- test_valid_gid_tag_encodable_1 (from base64)
example : ((hexToBase64 (py "355AB1C60003039000000190")).bind GID.fromBase64).map (·.epcUri) = .ok (py "urn:epc:id:gid:95100000.12345.400") := by decide +kernel

-- test_valid_gid_tag_encodable_2 (tag URI)
example : (GID.new (py "urn:epc:id:gid:95100000.12345.0")).bind (fun x => x.tagUri .gid96) = .ok (py "urn:epc:tag:gid-96:95100000.12345.0") := by decide +kernel

-- test_valid_gid_tag_encodable_2 (from tag URI)
example : (GID.fromTagUri (py "urn:epc:tag:gid-96:95100000.12345.0")).map (·.epcUri) = .ok (py "urn:epc:id:gid:95100000.12345.0") := by decide +kernel

-- test_valid_gid_tag_encodable_2 (hex)
example : (GID.new (py "urn:epc:id:gid:95100000.12345.0")).bind (fun x => x.hex .gid96) = .ok (py "355AB1C60003039000000000") := by decide +kernel

-- test_valid_gid_tag_encodable_2 (from hex)
example : (GID.fromHex (py "355AB1C60003039000000000")).map (·.epcUri) = .ok (py "urn:epc:id:gid:95100000.12345.0") := by decide +kernel

-- test_valid_gid_tag_encodable_2 (from base64)
example : ((hexToBase64 (py "355AB1C60003039000000000")).bind GID.fromBase64).map (·.epcUri) = .ok (py "urn:epc:id:gid:95100000.12345.0") := by decide +kernel

-- test_valid_gid_tag_encodable_3 (tag URI)
example : (GID.new (py "urn:epc:id:gid:0.0.0")).bind (fun x => x.tagUri .gid96) = .ok (py "urn:epc:tag:gid-96:0.0.0") := by decide +kernel

-- test_valid_gid_tag_encodable_3 (from tag URI)
example : (GID.fromTagUri (py "urn:epc:tag:gid-96:0.0.0")).map (·.epcUri) = .ok (py "urn:epc:id:gid:0.0.0") := by decide +kernel

-- test_valid_gid_tag_encodable_3 (hex)
example : (GID.new (py "urn:epc:id:gid:0.0.0")).bind (fun x => x.hex .gid96) = .ok (py "350000000000000000000000") := by decide +kernel

-- test_valid_gid_tag_encodable_3 (from hex)
example : (GID.fromHex (py "350000000000000000000000")).map (·.epcUri) = .ok (py "urn:epc:id:gid:0.0.0") := by decide +kernel

-- test_valid_gid_tag_encodable_3 (from base64)
example : ((hexToBase64 (py "350000000000000000000000")).bind GID.fromBase64).map (·.epcUri) = .ok (py "urn:epc:id:gid:0.0.0") := by decide +kernel

-- test_valid_gid_tag_encodable_4 (tag URI)
example : (GID.new (py "urn:epc:id:gid:268435455.16777215.68719476735")).bind (fun x => x.tagUri .gid96) = .ok (py "urn:epc:tag:gid-96:268435455.16777215.68719476735") := by decide +kernel

-- test_valid_gid_tag_encodable_4 (from tag URI)
example : (GID.fromTagUri (py "urn:epc:tag:gid-96:268435455.16777215.68719476735")).map (·.epcUri) = .ok (py "urn:epc:id:gid:268435455.16777215.68719476735") := by decide +kernel

-- test_valid_gid_tag_encodable_4 (hex)
example : (GID.new (py "urn:epc:id:gid:268435455.16777215.68719476735")).bind (fun x => x.hex .gid96) = .ok (py "35FFFFFFFFFFFFFFFFFFFFFF") := by decide +kernel

-- test_valid_gid_tag_encodable_4 (from hex)
example : (GID.fromHex (py "35FFFFFFFFFFFFFFFFFFFFFF")).map (·.epcUri) = .ok (py "urn:epc:id:gid:268435455.16777215.68719476735") := by decide +kernel

-- test_valid_gid_tag_encodable_4 (from base64)
example : ((hexToBase64 (py "35FFFFFFFFFFFFFFFFFFFFFF")).bind GID.fromBase64).map (·.epcUri) = .ok (py "urn:epc:id:gid:268435455.16777215.68719476735") := by decide +kernel

end Epc.Tests
