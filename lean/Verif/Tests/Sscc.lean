/-
Tests (not proofs): the vectors of /repo/tests/epc_schemes/test_sscc.py evaluated in the model.  Generated by tools/gen_tests.py.
-/
import Verif.Model.Sscc

namespace Epc.Tests

-- test_valid_sscc_1
example : (SSCC.new (py "urn:epc:id:sscc:0614141.1234567890")).map (·.epcUri) = .ok (py "urn:epc:id:sscc:0614141.1234567890") := by decide +kernel

-- test_valid_sscc_2
example : (SSCC.new (py "urn:epc:id:sscc:061414.12345678901")).map (·.epcUri) = .ok (py "urn:epc:id:sscc:061414.12345678901") := by decide +kernel

-- test_valid_sscc_3
example : (SSCC.new (py "urn:epc:id:sscc:061414123456.12345")).map (·.epcUri) = .ok (py "urn:epc:id:sscc:061414123456.12345") := by decide +kernel

-- test_valid_sscc_4
example : (SSCC.new (py "urn:epc:id:sscc:061414123456.00000")).map (·.epcUri) = .ok (py "urn:epc:id:sscc:061414123456.00000") := by decide +kernel

-- test_invalid_sscc_identifier
example : SSCC.new (py "urn:epc:id:ssc:0614141.1234567890") = .error .convert := by decide +kernel

-- test_invalid_sscc_company_prefix_1
example : SSCC.new (py "urn:epc:id:sscc:06141.112345678901") = .error .convert := by decide +kernel

-- test_invalid_sscc_company_prefix_2
example : SSCC.new (py "urn:epc:id:sscc:0614141234567.2345") = .error .convert := by decide +kernel

-- test_valid_sscc_gs1_key_1 (key)
example : (SSCC.new (py "urn:epc:id:sscc:0614141.1234567890")).bind (fun x => .ok x.gs1Key) = .ok (py "106141412345678908") := by decide +kernel

-- test_valid_sscc_gs1_key_1 (element string)
example : (SSCC.new (py "urn:epc:id:sscc:0614141.1234567890")).bind (fun x => x.gs1ElementString) = .ok (py "(00)106141412345678908") := by decide +kernel

-- test_valid_sscc_gs1_key_1 (from element string)
example : (SSCC.fromGs1ElementString (py "(00)106141412345678908") 7).map (·.epcUri) = .ok (py "urn:epc:id:sscc:0614141.1234567890") := by decide +kernel

-- test_valid_sscc_gs1_key_2 (key)
example : (SSCC.new (py "urn:epc:id:sscc:061414.12345678901")).bind (fun x => .ok x.gs1Key) = .ok (py "106141423456789018") := by decide +kernel

-- test_valid_sscc_gs1_key_2 (element string)
example : (SSCC.new (py "urn:epc:id:sscc:061414.12345678901")).bind (fun x => x.gs1ElementString) = .ok (py "(00)106141423456789018") := by decide +kernel

-- test_valid_sscc_gs1_key_2 (from element string)
example : (SSCC.fromGs1ElementString (py "(00)106141423456789018") 6).map (·.epcUri) = .ok (py "urn:epc:id:sscc:061414.12345678901") := by decide +kernel

-- test_valid_sscc_gs1_key_3 (key)
example : (SSCC.new (py "urn:epc:id:sscc:061414123456.12345")).bind (fun x => .ok x.gs1Key) = .ok (py "106141412345623458") := by decide +kernel

-- test_valid_sscc_gs1_key_3 (element string)
example : (SSCC.new (py "urn:epc:id:sscc:061414123456.12345")).bind (fun x => x.gs1ElementString) = .ok (py "(00)106141412345623458") := by decide +kernel

-- test_valid_sscc_gs1_key_3 (from element string)
example : (SSCC.fromGs1ElementString (py "(00)106141412345623458") 12).map (·.epcUri) = .ok (py "urn:epc:id:sscc:061414123456.12345") := by decide +kernel

-- test_valid_sscc_gs1_key_4 (key)
example : (SSCC.new (py "urn:epc:id:sscc:061414123456.00000")).bind (fun x => .ok x.gs1Key) = .ok (py "006141412345600001") := by decide +kernel

-- test_valid_sscc_gs1_key_4 (element string)
example : (SSCC.new (py "urn:epc:id:sscc:061414123456.00000")).bind (fun x => x.gs1ElementString) = .ok (py "(00)006141412345600001") := by decide +kernel

-- test_valid_sscc_gs1_key_4 (from element string)
example : (SSCC.fromGs1ElementString (py "(00)006141412345600001") 12).map (·.epcUri) = .ok (py "urn:epc:id:sscc:061414123456.00000") := by decide +kernel

-- test_valid_sscc_tag_encodable_1 (tag URI)
example : (SSCC.new (py "urn:epc:id:sscc:0614141.1234567890")).bind (fun x => x.tagUri .sscc96 2) = .ok (py "urn:epc:tag:sscc-96:2.0614141.1234567890") := by decide +kernel

-- test_valid_sscc_tag_encodable_1 (from tag URI)
example : (SSCC.fromTagUri (py "urn:epc:tag:sscc-96:2.0614141.1234567890")).map (·.epcUri) = .ok (py "urn:epc:id:sscc:0614141.1234567890") := by decide +kernel

-- test_valid_sscc_tag_encodable_1 (hex)
example : (SSCC.new (py "urn:epc:id:sscc:0614141.1234567890")).bind (fun x => x.hex .sscc96 2) = .ok (py "3154257BF4499602D2000000") := by decide +kernel

-- test_valid_sscc_tag_encodable_1 (from hex)
example : (SSCC.fromHex (py "3154257BF4499602D2000000")).map (·.epcUri) = .ok (py "urn:epc:id:sscc:0614141.1234567890") := by decide +kernel

-- test_valid_sscc_tag_encodable_1 (from base64)
example : ((hexToBase64 (py "3154257BF4499602D2000000")).bind SSCC.fromBase64).map (·.epcUri) = .ok (py "urn:epc:id:sscc:0614141.1234567890") := by decide +kernel

-- test_valid_sscc_tag_encodable_2 (tag URI)
example : (SSCC.new (py "urn:epc:id:sscc:061414.12345678901")).bind (fun x => x.tagUri .sscc96 2) = .ok (py "urn:epc:tag:sscc-96:2.061414.12345678901") := by decide +kernel

-- test_valid_sscc_tag_encodable_2 (from tag URI)
example : (SSCC.fromTagUri (py "urn:epc:tag:sscc-96:2.061414.12345678901")).map (·.epcUri) = .ok (py "urn:epc:id:sscc:061414.12345678901") := by decide +kernel

-- test_valid_sscc_tag_encodable_2 (hex)
example : (SSCC.new (py "urn:epc:id:sscc:061414.12345678901")).bind (fun x => x.hex .sscc96 2) = .ok (py "31583BF982DFDC1C35000000") := by decide +kernel

-- test_valid_sscc_tag_encodable_2 (from hex)
example : (SSCC.fromHex (py "31583BF982DFDC1C35000000")).map (·.epcUri) = .ok (py "urn:epc:id:sscc:061414.12345678901") := by decide +kernel

-- test_valid_sscc_tag_encodable_2 (from base64)
example : ((hexToBase64 (py "31583BF982DFDC1C35000000")).bind SSCC.fromBase64).map (·.epcUri) = .ok (py "urn:epc:id:sscc:061414.12345678901") := by decide +kernel

-- test_valid_sscc_tag_encodable_3 (tag URI)
example : (SSCC.new (py "urn:epc:id:sscc:061414123456.12345")).bind (fun x => x.tagUri .sscc96 0) = .ok (py "urn:epc:tag:sscc-96:0.061414123456.12345") := by decide +kernel

-- test_valid_sscc_tag_encodable_3 (from tag URI)
example : (SSCC.fromTagUri (py "urn:epc:tag:sscc-96:0.061414123456.12345")).map (·.epcUri) = .ok (py "urn:epc:id:sscc:061414123456.12345") := by decide +kernel

-- test_valid_sscc_tag_encodable_3 (hex)
example : (SSCC.new (py "urn:epc:id:sscc:061414123456.12345")).bind (fun x => x.hex .sscc96 0) = .ok (py "31003932449F003039000000") := by decide +kernel

-- test_valid_sscc_tag_encodable_3 (from hex)
example : (SSCC.fromHex (py "31003932449F003039000000")).map (·.epcUri) = .ok (py "urn:epc:id:sscc:061414123456.12345") := by decide +kernel

-- test_valid_sscc_tag_encodable_3 (from base64)
example : ((hexToBase64 (py "31003932449F003039000000")).bind SSCC.fromBase64).map (·.epcUri) = .ok (py "urn:epc:id:sscc:061414123456.12345") := by decide +kernel

-- test_valid_sscc_tag_encodable_4 (tag URI)
example : (SSCC.new (py "urn:epc:id:sscc:061414123456.00000")).bind (fun x => x.tagUri .sscc96 5) = .ok (py "urn:epc:tag:sscc-96:5.061414123456.00000") := by decide +kernel

-- test_valid_sscc_tag_encodable_4 (from tag URI)
example : (SSCC.fromTagUri (py "urn:epc:tag:sscc-96:5.061414123456.00000")).map (·.epcUri) = .ok (py "urn:epc:id:sscc:061414123456.00000") := by decide +kernel

-- test_valid_sscc_tag_encodable_4 (hex)
example : (SSCC.new (py "urn:epc:id:sscc:061414123456.00000")).bind (fun x => x.hex .sscc96 5) = .ok (py "31A03932449F000000000000") := by decide +kernel

-- test_valid_sscc_tag_encodable_4 (from hex)
example : (SSCC.fromHex (py "31A03932449F000000000000")).map (·.epcUri) = .ok (py "urn:epc:id:sscc:061414123456.00000") := by decide +kernel

-- test_valid_sscc_tag_encodable_4 (from base64)
example : ((hexToBase64 (py "31A03932449F000000000000")).bind SSCC.fromBase64).map (·.epcUri) = .ok (py "urn:epc:id:sscc:061414123456.00000") := by decide +kernel

end Epc.Tests
