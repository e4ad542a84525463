/-
Tests (not proofs): the vectors of /repo/tests/epc_schemes/test_usdod.py evaluated in the model.  Generated by tools/gen_tests.py.
-/
import Verif.Model.Usdod

namespace Epc.Tests

-- test_valid_usdod_1
example : (USDOD.new (py "urn:epc:id:usdod:2S194.12345678901")).map (·.epcUri) = .ok (py "urn:epc:id:usdod:2S194.12345678901") := by decide +kernel

-- test_valid_usdod_2
example : (USDOD.new (py "urn:epc:id:usdod:2S194.0")).map (·.epcUri) = .ok (py "urn:epc:id:usdod:2S194.0") := by decide +kernel

-- test_valid_usdod_3
example : (USDOD.new (py "urn:epc:id:usdod:2S1941.0")).map (·.epcUri) = .ok (py "urn:epc:id:usdod:2S1941.0") := by decide +kernel

-- test_valid_usdod_4
example : (USDOD.new (py "urn:epc:id:usdod:2S194.68719476735")).map (·.epcUri) = .ok (py "urn:epc:id:usdod:2S194.68719476735") := by decide +kernel

-- test_invalid_usdod_identifier
example : USDOD.new (py "urn:epc:id:dod:2S194.12345678901") = .error .convert := by decide +kernel

-- test_invalid_usdod_serial_too_long
example : USDOD.new (py "urn:epc:id:usdod:2S194.123456789012") = .error .convert := by decide +kernel

-- test_invalid_usdod_serial_too_high
example : USDOD.new (py "urn:epc:id:usdod:2S194.68719476736") = .error .convert := by decide +kernel

-- test_invalid_usdod_cage_code_length_1
example : USDOD.new (py "urn:epc:id:usdod:2S19.68719476735") = .error .convert := by decide +kernel

-- test_invalid_usdod_cage_code_length_2
example : USDOD.new (py "urn:epc:id:usdod:2S19411.68719476735") = .error .convert := by decide +kernel

-- test_invalid_usdod_cage_code_chars
example : USDOD.new (py "urn:epc:id:usdod:2S1I1.68719476735") = .error .convert := by decide +kernel

-- test_valid_usdod_tag_encodable_1 (tag URI)
example : (USDOD.new (py "urn:epc:id:usdod:2S194.12345678901")).bind (fun x => x.tagUri .usdod96 0) = .ok (py "urn:epc:tag:usdod-96:0.2S194.12345678901") := by decide +kernel

-- test_valid_usdod_tag_encodable_1 (from tag URI)
example : (USDOD.fromTagUri (py "urn:epc:tag:usdod-96:0.2S194.12345678901")).map (·.epcUri) = .ok (py "urn:epc:id:usdod:2S194.12345678901") := by decide +kernel

-- test_valid_usdod_tag_encodable_1 (hex)
example : (USDOD.new (py "urn:epc:id:usdod:2S194.12345678901")).bind (fun x => x.hex .usdod96 0) = .ok (py "2F02032533139342DFDC1C35") := by decide +kernel

-- test_valid_usdod_tag_encodable_1 (from hex)
example : (USDOD.fromHex (py "2F02032533139342DFDC1C35")).map (·.epcUri) = .ok (py "urn:epc:id:usdod:2S194.12345678901") := by decide +kernel

-- test_valid_usdod_tag_encodable_1 (from base64)
example : ((hexToBase64 (py "2F02032533139342DFDC1C35")).bind USDOD.fromBase64).map (·.epcUri) = .ok (py "urn:epc:id:usdod:2S194.12345678901") := by decide +kernel

-- test_valid_usdod_tag_encodable_2 (tag URI)
example : (USDOD.new (py "urn:epc:id:usdod:2S194.0")).bind (fun x => x.tagUri .usdod96 1) = .ok (py "urn:epc:tag:usdod-96:1.2S194.0") := by decide +kernel

-- test_valid_usdod_tag_encodable_2 (from tag URI)
example : (USDOD.fromTagUri (py "urn:epc:tag:usdod-96:1.2S194.0")).map (·.epcUri) = .ok (py "urn:epc:id:usdod:2S194.0") := by decide +kernel

-- test_valid_usdod_tag_encodable_2 (hex)
example : (USDOD.new (py "urn:epc:id:usdod:2S194.0")).bind (fun x => x.hex .usdod96 1) = .ok (py "2F1203253313934000000000") := by decide +kernel

-- test_valid_usdod_tag_encodable_2 (from hex)
example : (USDOD.fromHex (py "2F1203253313934000000000")).map (·.epcUri) = .ok (py "urn:epc:id:usdod:2S194.0") := by decide +kernel

-- test_valid_usdod_tag_encodable_2 (from base64)
example : ((hexToBase64 (py "2F1203253313934000000000")).bind USDOD.fromBase64).map (·.epcUri) = .ok (py "urn:epc:id:usdod:2S194.0") := by decide +kernel

-- test_valid_usdod_tag_encodable_3 (tag URI)
example : (USDOD.new (py "urn:epc:id:usdod:2S1941.0")).bind (fun x => x.tagUri .usdod96 2) = .ok (py "urn:epc:tag:usdod-96:2.2S1941.0") := by decide +kernel

-- test_valid_usdod_tag_encodable_3 (from tag URI)
example : (USDOD.fromTagUri (py "urn:epc:tag:usdod-96:2.2S1941.0")).map (·.epcUri) = .ok (py "urn:epc:id:usdod:2S1941.0") := by decide +kernel

-- test_valid_usdod_tag_encodable_3 (hex)
example : (USDOD.new (py "urn:epc:id:usdod:2S1941.0")).bind (fun x => x.hex .usdod96 2) = .ok (py "2F2325331393431000000000") := by decide +kernel

-- test_valid_usdod_tag_encodable_3 (from hex)
example : (USDOD.fromHex (py "2F2325331393431000000000")).map (·.epcUri) = .ok (py "urn:epc:id:usdod:2S1941.0") := by decide +kernel

-- test_valid_usdod_tag_encodable_3 (from base64)
example : ((hexToBase64 (py "2F2325331393431000000000")).bind USDOD.fromBase64).map (·.epcUri) = .ok (py "urn:epc:id:usdod:2S1941.0") := by decide +kernel

-- test_valid_usdod_tag_encodable_4 (tag URI)
example : (USDOD.new (py "urn:epc:id:usdod:2S194.68719476735")).bind (fun x => x.tagUri .usdod96 15) = .ok (py "urn:epc:tag:usdod-96:15.2S194.68719476735") := by decide +kernel

-- test_valid_usdod_tag_encodable_4 (from tag URI)
example : (USDOD.fromTagUri (py "urn:epc:tag:usdod-96:15.2S194.68719476735")).map (·.epcUri) = .ok (py "urn:epc:id:usdod:2S194.68719476735") := by decide +kernel

-- test_valid_usdod_tag_encodable_4 (hex)
example : (USDOD.new (py "urn:epc:id:usdod:2S194.68719476735")).bind (fun x => x.hex .usdod96 15) = .ok (py "2FF203253313934FFFFFFFFF") := by decide +kernel

-- test_valid_usdod_tag_encodable_4 (from hex)
example : (USDOD.fromHex (py "2FF203253313934FFFFFFFFF")).map (·.epcUri) = .ok (py "urn:epc:id:usdod:2S194.68719476735") := by decide +kernel

-- test_valid_usdod_tag_encodable_4 (from base64)
example : ((hexToBase64 (py "2FF203253313934FFFFFFFFF")).bind USDOD.fromBase64).map (·.epcUri) = .ok (py "urn:epc:id:usdod:2S194.68719476735") := by decide +kernel

end Epc.Tests
