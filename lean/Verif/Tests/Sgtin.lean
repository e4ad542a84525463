/-
Tests (not proofs): the vectors of /repo/tests/epc_schemes/test_sgtin.py evaluated in the model.  Generated by tools/gen_tests.py.
-/
import Verif.Model.Sgtin

namespace Epc.Tests

-- test_valid_sgtin_1
example : (SGTIN.new (py "urn:epc:id:sgtin:50712192365.88..%25:.13%26")).map (·.epcUri) = .ok (py "urn:epc:id:sgtin:50712192365.88..%25:.13%26") := by decide +kernel

-- test_valid_sgtin_2
example : (SGTIN.new (py "urn:epc:id:sgtin:00000000000.00.0")).map (·.epcUri) = .ok (py "urn:epc:id:sgtin:00000000000.00.0") := by decide +kernel

-- test_valid_sgtin_3
example : (SGTIN.new (py "urn:epc:id:sgtin:507121923656.1..%25:.13%26")).map (·.epcUri) = .ok (py "urn:epc:id:sgtin:507121923656.1..%25:.13%26") := by decide +kernel

-- test_valid_sgtin_4
example : (SGTIN.new (py "urn:epc:id:sgtin:507124.1123456..%25:.13%26")).map (·.epcUri) = .ok (py "urn:epc:id:sgtin:507124.1123456..%25:.13%26") := by decide +kernel

-- test_invalid_sgtin_hex_serial
example : SGTIN.new (py "urn:epc:id:sgtin:50712192365.88..%23:.13%26") = .error .convert := by decide +kernel

-- test_invalid_sgtin_identifier
example : SGTIN.new (py "urn:epc:id:sg:50712192365.88..%25:.13%26") = .error .convert := by decide +kernel

-- test_invalid_sgtin_company_prefix_1
example : SGTIN.new (py "urn:epc:id:sgtin:50712.11123456..%25:.13%26") = .error .convert := by decide +kernel

-- test_invalid_sgtin_company_prefix_2
example : SGTIN.new (py "urn:epc:id:sgtin:5071241234567.0..%25:.13%26") = .error .convert := by decide +kernel

-- test_invalid_sgtin_too_many_digits
example : SGTIN.new (py "urn:epc:id:sgtin:000000000000.00.0") = .error .convert := by decide +kernel

-- test_invalid_sgtin_missing_semicolon
example : SGTIN.new (py "urn:epcid:sgtin:00000000000.00.0") = .error .convert := by decide +kernel

-- test_invalid_sgtin_serial_too_large
example : SGTIN.new (py "urn:epc:id:sgtin:00000000000.00.123456789012345678901") = .error .convert := by decide +kernel

-- test_valid_sgtin_gs1_key_1 (key)
example : (SGTIN.new (py "urn:epc:id:sgtin:50712192365.88..%25:.13%26")).bind (fun x => x.gs1Key .gtin14) = .ok (py "85071219236581") := by decide +kernel

-- test_valid_sgtin_gs1_key_1 (element string)
example : (SGTIN.new (py "urn:epc:id:sgtin:50712192365.88..%25:.13%26")).bind (fun x => x.gs1ElementString) = .ok (py "(01)85071219236581(21).%:.13&") := by decide +kernel

-- test_valid_sgtin_gs1_key_1 (from element string)
example : (SGTIN.fromGs1ElementString (py "(01)85071219236581(21).%:.13&") 11).map (·.epcUri) = .ok (py "urn:epc:id:sgtin:50712192365.88..%25:.13%26") := by decide +kernel

-- test_valid_sgtin_gs1_key_2 (key)
example : (SGTIN.new (py "urn:epc:id:sgtin:00000000000.00.0")).bind (fun x => x.gs1Key .gtin14) = .ok (py "00000000000000") := by decide +kernel

-- test_valid_sgtin_gs1_key_2 (element string)
example : (SGTIN.new (py "urn:epc:id:sgtin:00000000000.00.0")).bind (fun x => x.gs1ElementString) = .ok (py "(01)00000000000000(21)0") := by decide +kernel

-- test_valid_sgtin_gs1_key_2 (from element string)
example : (SGTIN.fromGs1ElementString (py "(01)00000000000000(21)0") 11).map (·.epcUri) = .ok (py "urn:epc:id:sgtin:00000000000.00.0") := by decide +kernel

-- test_valid_sgtin_gs1_key_3 (key)
example : (SGTIN.new (py "urn:epc:id:sgtin:5019265.123588..%25:.13%26")).bind (fun x => x.gs1Key .gtin14) = .ok (py "15019265235883") := by decide +kernel

-- test_valid_sgtin_gs1_key_3 (element string)
example : (SGTIN.new (py "urn:epc:id:sgtin:5019265.123588..%25:.13%26")).bind (fun x => x.gs1ElementString) = .ok (py "(01)15019265235883(21).%:.13&") := by decide +kernel

-- test_valid_sgtin_gs1_key_3 (from element string)
example : (SGTIN.fromGs1ElementString (py "(01)15019265235883(21).%:.13&") 7).map (·.epcUri) = .ok (py "urn:epc:id:sgtin:5019265.123588..%25:.13%26") := by decide +kernel

-- test_valid_sgtin_gs1_key_4 (key)
example : (SGTIN.new (py "urn:epc:id:sgtin:00000950.01093.Serial")).bind (fun x => x.gs1Key .gtin13) = .ok (py "0000095010939") := by decide +kernel

-- test_valid_sgtin_gs1_key_4 (element string)
example : (SGTIN.new (py "urn:epc:id:sgtin:00000950.01093.Serial")).bind (fun x => x.gs1ElementString) = .ok (py "(01)00000095010939(21)Serial") := by decide +kernel

-- test_valid_sgtin_gs1_key_4 (from element string)
example : (SGTIN.fromGs1ElementString (py "(01)00000095010939(21)Serial") 8).map (·.epcUri) = .ok (py "urn:epc:id:sgtin:00000950.01093.Serial") := by decide +kernel

-- test_valid_sgtin_gs1_key_5 (key)
example : (SGTIN.new (py "urn:epc:id:sgtin:00000950.01093.Serial")).bind (fun x => x.gs1Key .gtin12) = .ok (py "000095010939") := by decide +kernel

-- test_valid_sgtin_gs1_key_5 (element string)
example : (SGTIN.new (py "urn:epc:id:sgtin:00000950.01093.Serial")).bind (fun x => x.gs1ElementString) = .ok (py "(01)00000095010939(21)Serial") := by decide +kernel

-- test_valid_sgtin_gs1_key_5 (from element string)
example : (SGTIN.fromGs1ElementString (py "(01)00000095010939(21)Serial") 8).map (·.epcUri) = .ok (py "urn:epc:id:sgtin:00000950.01093.Serial") := by decide +kernel

-- test_valid_sgtin_gs1_key_6 (key)
example : (SGTIN.new (py "urn:epc:id:sgtin:00000950.01093.Serial")).bind (fun x => x.gs1Key .gtin8) = .ok (py "95010939") := by decide +kernel

-- test_valid_sgtin_gs1_key_6 (element string)
example : (SGTIN.new (py "urn:epc:id:sgtin:00000950.01093.Serial")).bind (fun x => x.gs1ElementString) = .ok (py "(01)00000095010939(21)Serial") := by decide +kernel

-- test_valid_sgtin_gs1_key_6 (from element string)
example : (SGTIN.fromGs1ElementString (py "(01)00000095010939(21)Serial") 8).map (·.epcUri) = .ok (py "urn:epc:id:sgtin:00000950.01093.Serial") := by decide +kernel

-- test_invalid_sgtin_gs1_key_too_little_zeros_gtin13
example : (SGTIN.new (py "urn:epc:id:sgtin:5019265.123588..%25:.13%26")).bind (fun x => x.gs1Key .gtin13) = .error .convert := by decide +kernel

-- test_invalid_sgtin_gs1_key_too_little_zeros_gtin12
example : (SGTIN.new (py "urn:epc:id:sgtin:1519265.023588..%25:.13%26")).bind (fun x => x.gs1Key .gtin12) = .error .convert := by decide +kernel

-- test_invalid_sgtin_gs1_key_too_little_zeros_gtin8
example : (SGTIN.new (py "urn:epc:id:sgtin:0000565.023588..%25:.13%26")).bind (fun x => x.gs1Key .gtin8) = .error .convert := by decide +kernel

-- test_valid_sgtin_tag_encodable_1 (tag URI)
example : (SGTIN.new (py "urn:epc:id:sgtin:50712192365.88..%25:.13%26")).bind (fun x => x.tagUri .sgtin198 1) = .ok (py "urn:epc:tag:sgtin-198:1.50712192365.88..%25:.13%26") := by decide +kernel

-- test_valid_sgtin_tag_encodable_1 (from tag URI)
example : (SGTIN.fromTagUri (py "urn:epc:tag:sgtin-198:1.50712192365.88..%25:.13%26")).map (·.epcUri) = .ok (py "urn:epc:id:sgtin:50712192365.88..%25:.13%26") := by decide +kernel

-- test_valid_sgtin_tag_encodable_1 (hex)
example : (SGTIN.new (py "urn:epc:id:sgtin:50712192365.88..%25:.13%26")).bind (fun x => x.hex .sgtin198 1) = .ok (py "362579D5D4ADB6172574B98B34C0000000000000000000000000") := by decide +kernel

-- test_valid_sgtin_tag_encodable_1 (from hex)
example : (SGTIN.fromHex (py "362579D5D4ADB6172574B98B34C0000000000000000000000000")).map (·.epcUri) = .ok (py "urn:epc:id:sgtin:50712192365.88..%25:.13%26") := by decide +kernel

-- test_valid_sgtin_tag_encodable_1 (from base64)
example : ((hexToBase64 (py "362579D5D4ADB6172574B98B34C0000000000000000000000000")).bind SGTIN.fromBase64).map (·.epcUri) = .ok (py "urn:epc:id:sgtin:50712192365.88..%25:.13%26") := by decide +kernel

-- test_valid_sgtin_tag_encodable_2 (tag URI)
example : (SGTIN.new (py "urn:epc:id:sgtin:50712192365.88..%25:.13%26")).bind (fun x => x.tagUri .sgtin198 5) = .ok (py "urn:epc:tag:sgtin-198:5.50712192365.88..%25:.13%26") := by decide +kernel

-- test_valid_sgtin_tag_encodable_2 (from tag URI)
example : (SGTIN.fromTagUri (py "urn:epc:tag:sgtin-198:5.50712192365.88..%25:.13%26")).map (·.epcUri) = .ok (py "urn:epc:id:sgtin:50712192365.88..%25:.13%26") := by decide +kernel

-- test_valid_sgtin_tag_encodable_2 (hex)
example : (SGTIN.new (py "urn:epc:id:sgtin:50712192365.88..%25:.13%26")).bind (fun x => x.hex .sgtin198 5) = .ok (py "36A579D5D4ADB6172574B98B34C0000000000000000000000000") := by decide +kernel

-- test_valid_sgtin_tag_encodable_2 (from hex)
example : (SGTIN.fromHex (py "36A579D5D4ADB6172574B98B34C0000000000000000000000000")).map (·.epcUri) = .ok (py "urn:epc:id:sgtin:50712192365.88..%25:.13%26") := by decide +kernel

-- test_valid_sgtin_tag_encodable_2 (from base64)
example : ((hexToBase64 (py "36A579D5D4ADB6172574B98B34C0000000000000000000000000")).bind SGTIN.fromBase64).map (·.epcUri) = .ok (py "urn:epc:id:sgtin:50712192365.88..%25:.13%26") := by decide +kernel

-- test_valid_sgtin_tag_encodable_3 (tag URI)
example : (SGTIN.new (py "urn:epc:id:sgtin:50712192365.88.0")).bind (fun x => x.tagUri .sgtin96 6) = .ok (py "urn:epc:tag:sgtin-96:6.50712192365.88.0") := by decide +kernel

-- test_valid_sgtin_tag_encodable_3 (from tag URI)
example : (SGTIN.fromTagUri (py "urn:epc:tag:sgtin-96:6.50712192365.88.0")).map (·.epcUri) = .ok (py "urn:epc:id:sgtin:50712192365.88.0") := by decide +kernel

-- test_valid_sgtin_tag_encodable_3 (hex)
example : (SGTIN.new (py "urn:epc:id:sgtin:50712192365.88.0")).bind (fun x => x.hex .sgtin96 6) = .ok (py "30C579D5D4ADB60000000000") := by decide +kernel

-- test_valid_sgtin_tag_encodable_3 (from hex)
example : (SGTIN.fromHex (py "30C579D5D4ADB60000000000")).map (·.epcUri) = .ok (py "urn:epc:id:sgtin:50712192365.88.0") := by decide +kernel

-- test_valid_sgtin_tag_encodable_3 (from base64)
example : ((hexToBase64 (py "30C579D5D4ADB60000000000")).bind SGTIN.fromBase64).map (·.epcUri) = .ok (py "urn:epc:id:sgtin:50712192365.88.0") := by decide +kernel

-- test_valid_sgtin_tag_encodable_4 (tag URI)
example : (SGTIN.new (py "urn:epc:id:sgtin:50712192365.88.0")).bind (fun x => x.tagUri .sgtin198 6) = .ok (py "urn:epc:tag:sgtin-198:6.50712192365.88.0") := by decide +kernel

-- test_valid_sgtin_tag_encodable_4 (from tag URI)
example : (SGTIN.fromTagUri (py "urn:epc:tag:sgtin-198:6.50712192365.88.0")).map (·.epcUri) = .ok (py "urn:epc:id:sgtin:50712192365.88.0") := by decide +kernel

-- test_valid_sgtin_tag_encodable_4 (hex)
example : (SGTIN.new (py "urn:epc:id:sgtin:50712192365.88.0")).bind (fun x => x.hex .sgtin198 6) = .ok (py "36C579D5D4ADB618000000000000000000000000000000000000") := by decide +kernel

-- test_valid_sgtin_tag_encodable_4 (from hex)
example : (SGTIN.fromHex (py "36C579D5D4ADB618000000000000000000000000000000000000")).map (·.epcUri) = .ok (py "urn:epc:id:sgtin:50712192365.88.0") := by decide +kernel

-- test_valid_sgtin_tag_encodable_4 (from base64)
example : ((hexToBase64 (py "36C579D5D4ADB618000000000000000000000000000000000000")).bind SGTIN.fromBase64).map (·.epcUri) = .ok (py "urn:epc:id:sgtin:50712192365.88.0") := by decide +kernel

-- test_invalid_sgtin_tag_encodable_invalid_serial_for_coding_scheme_1
example : (SGTIN.new (py "urn:epc:id:sgtin:50712192365.88..%25:.13%26")).bind (fun x => x.tagUri .sgtin96 1) = .error .convert := by decide +kernel

-- test_invalid_sgtin_tag_encodable_invalid_serial_for_coding_scheme_2
example : (SGTIN.new (py "urn:epc:id:sgtin:50712192365.88.0123")).bind (fun x => x.tagUri .sgtin96 1) = .error .convert := by decide +kernel

-- test_invalid_sgtin_tag_encodable_invalid_serial_for_coding_scheme_3
example : (SGTIN.new (py "urn:epc:id:sgtin:50712192365.88.1123456789012")).bind (fun x => x.tagUri .sgtin96 1) = .error .convert := by decide +kernel

end Epc.Tests
