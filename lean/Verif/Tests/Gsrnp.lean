/-
Tests (not proofs): the vectors of /repo/tests/epc_schemes/test_gsrnp.py evaluated in the model.  Generated by tools/gen_tests.py.
-/
import Verif.Model.Gsrnp

namespace Epc.Tests

-- test_valid_gsrnp_1
example : (GSRNP.new (py "urn:epc:id:gsrnp:0614141.1234567890")).map (·.epcUri) = .ok (py "urn:epc:id:gsrnp:0614141.1234567890") := by decide +kernel

-- test_valid_gsrnp_2
example : (GSRNP.new (py "urn:epc:id:gsrnp:012345678901.01234")).map (·.epcUri) = .ok (py "urn:epc:id:gsrnp:012345678901.01234") := by decide +kernel

-- test_valid_gsrnp_3
example : (GSRNP.new (py "urn:epc:id:gsrnp:000000.00000000000")).map (·.epcUri) = .ok (py "urn:epc:id:gsrnp:000000.00000000000") := by decide +kernel

-- test_valid_gsrnp_4
example : (GSRNP.new (py "urn:epc:id:gsrnp:000000000000.00000")).map (·.epcUri) = .ok (py "urn:epc:id:gsrnp:000000000000.00000") := by decide +kernel

-- test_valid_gsrnp_5
example : (GSRNP.new (py "urn:epc:id:gsrnp:999999999999.99999")).map (·.epcUri) = .ok (py "urn:epc:id:gsrnp:999999999999.99999") := by decide +kernel

-- test_valid_gsrnp_6
example : (GSRNP.new (py "urn:epc:id:gsrnp:999999.99999999999")).map (·.epcUri) = .ok (py "urn:epc:id:gsrnp:999999.99999999999") := by decide +kernel

-- test_invalid_gsrnp_identifier
example : GSRNP.new (py "urn:epc:id:gsrnpp:0614141.1234567890") = .error .convert := by decide +kernel

-- test_invalid_gsrnp_invalid_company_pref_1
example : GSRNP.new (py "urn:epc:id:gsrnp:00000.000000000000") = .error .convert := by decide +kernel

-- test_invalid_gsrnp_invalid_company_pref_2
example : GSRNP.new (py "urn:epc:id:gsrnp:0000000000000.0000") = .error .convert := by decide +kernel

-- test_invalid_gsrnp_invalid_char_1
example : GSRNP.new (py "urn:epc:id:gsrnp:99A999.99999999999") = .error .convert := by decide +kernel

-- test_invalid_gsrnp_invalid_char_2
example : GSRNP.new (py "urn:epc:id:gsrnp:999999.9999999A999") = .error .convert := by decide +kernel

-- test_invalid_gsrnp_too_short
example : GSRNP.new (py "urn:epc:id:gsrnp:999999.9") = .error .convert := by decide +kernel

-- test_invalid_gsrnp_too_long
example : GSRNP.new (py "urn:epc:id:gsrnp:999999.999999999999") = .error .convert := by decide +kernel

-- test_valid_gsrnp_gs1_key_1 (key)
example : (GSRNP.new (py "urn:epc:id:gsrnp:0614141.1234567890")).bind (fun x => .ok x.gs1Key) = .ok (py "061414112345678902") := by decide +kernel

-- test_valid_gsrnp_gs1_key_1 (element string)
example : (GSRNP.new (py "urn:epc:id:gsrnp:0614141.1234567890")).bind (fun x => x.gs1ElementString) = .ok (py "(8017)061414112345678902") := by decide +kernel

-- test_valid_gsrnp_gs1_key_1 (from element string)
example : (GSRNP.fromGs1ElementString (py "(8017)061414112345678902") 7).map (·.epcUri) = .ok (py "urn:epc:id:gsrnp:0614141.1234567890") := by decide +kernel

-- test_valid_gsrnp_gs1_key_2 (key)
example : (GSRNP.new (py "urn:epc:id:gsrnp:012345678901.01234")).bind (fun x => .ok x.gs1Key) = .ok (py "012345678901012342") := by decide +kernel

-- test_valid_gsrnp_gs1_key_2 (element string)
example : (GSRNP.new (py "urn:epc:id:gsrnp:012345678901.01234")).bind (fun x => x.gs1ElementString) = .ok (py "(8017)012345678901012342") := by decide +kernel

-- test_valid_gsrnp_gs1_key_2 (from element string)
example : (GSRNP.fromGs1ElementString (py "(8017)012345678901012342") 12).map (·.epcUri) = .ok (py "urn:epc:id:gsrnp:012345678901.01234") := by decide +kernel

-- test_valid_gsrnp_gs1_key_3 (key)
example : (GSRNP.new (py "urn:epc:id:gsrnp:000000.00000000000")).bind (fun x => .ok x.gs1Key) = .ok (py "000000000000000000") := by decide +kernel

-- test_valid_gsrnp_gs1_key_3 (element string)
example : (GSRNP.new (py "urn:epc:id:gsrnp:000000.00000000000")).bind (fun x => x.gs1ElementString) = .ok (py "(8017)000000000000000000") := by decide +kernel

-- test_valid_gsrnp_gs1_key_3 (from element string)
example : (GSRNP.fromGs1ElementString (py "(8017)000000000000000000") 6).map (·.epcUri) = .ok (py "urn:epc:id:gsrnp:000000.00000000000") := by decide +kernel

-- test_valid_gsrnp_gs1_key_4 (key)
example : (GSRNP.new (py "urn:epc:id:gsrnp:000000000000.00000")).bind (fun x => .ok x.gs1Key) = .ok (py "000000000000000000") := by decide +kernel

-- test_valid_gsrnp_gs1_key_4 (element string)
example : (GSRNP.new (py "urn:epc:id:gsrnp:000000000000.00000")).bind (fun x => x.gs1ElementString) = .ok (py "(8017)000000000000000000") := by decide +kernel

-- test_valid_gsrnp_gs1_key_4 (from element string)
example : (GSRNP.fromGs1ElementString (py "(8017)000000000000000000") 12).map (·.epcUri) = .ok (py "urn:epc:id:gsrnp:000000000000.00000") := by decide +kernel

-- test_valid_gsrnp_gs1_key_5 (key)
example : (GSRNP.new (py "urn:epc:id:gsrnp:999999999999.99999")).bind (fun x => .ok x.gs1Key) = .ok (py "999999999999999995") := by decide +kernel

-- test_valid_gsrnp_gs1_key_5 (element string)
example : (GSRNP.new (py "urn:epc:id:gsrnp:999999999999.99999")).bind (fun x => x.gs1ElementString) = .ok (py "(8017)999999999999999995") := by decide +kernel

-- test_valid_gsrnp_gs1_key_5 (from element string)
example : (GSRNP.fromGs1ElementString (py "(8017)999999999999999995") 12).map (·.epcUri) = .ok (py "urn:epc:id:gsrnp:999999999999.99999") := by decide +kernel

-- test_valid_gsrnp_gs1_key_6 (key)
example : (GSRNP.new (py "urn:epc:id:gsrnp:999999.99999999999")).bind (fun x => .ok x.gs1Key) = .ok (py "999999999999999995") := by decide +kernel

-- test_valid_gsrnp_gs1_key_6 (element string)
example : (GSRNP.new (py "urn:epc:id:gsrnp:999999.99999999999")).bind (fun x => x.gs1ElementString) = .ok (py "(8017)999999999999999995") := by decide +kernel

-- test_valid_gsrnp_gs1_key_6 (from element string)
example : (GSRNP.fromGs1ElementString (py "(8017)999999999999999995") 6).map (·.epcUri) = .ok (py "urn:epc:id:gsrnp:999999.99999999999") := by decide +kernel

-- test_valid_gsrnp_tag_encodable_1 (tag URI)
example : (GSRNP.new (py "urn:epc:id:gsrnp:0614141.1234567890")).bind (fun x => x.tagUri .gsrnp96 0) = .ok (py "urn:epc:tag:gsrnp-96:0.0614141.1234567890") := by decide +kernel

-- test_valid_gsrnp_tag_encodable_1 (from tag URI)
example : (GSRNP.fromTagUri (py "urn:epc:tag:gsrnp-96:0.0614141.1234567890")).map (·.epcUri) = .ok (py "urn:epc:id:gsrnp:0614141.1234567890") := by decide +kernel

-- test_valid_gsrnp_tag_encodable_1 (hex)
example : (GSRNP.new (py "urn:epc:id:gsrnp:0614141.1234567890")).bind (fun x => x.hex .gsrnp96 0) = .ok (py "2E14257BF4499602D2000000") := by decide +kernel

-- test_valid_gsrnp_tag_encodable_1 (from hex)
example : (GSRNP.fromHex (py "2E14257BF4499602D2000000")).map (·.epcUri) = .ok (py "urn:epc:id:gsrnp:0614141.1234567890") := by decide +kernel

-- test_valid_gsrnp_tag_encodable_1 (from base64)
example : ((hexToBase64 (py "2E14257BF4499602D2000000")).bind GSRNP.fromBase64).map (·.epcUri) = .ok (py "urn:epc:id:gsrnp:0614141.1234567890") := by decide +kernel

-- test_valid_gsrnp_tag_encodable_2 (tag URI)
example : (GSRNP.new (py "urn:epc:id:gsrnp:012345678901.01234")).bind (fun x => x.tagUri .gsrnp96 0) = .ok (py "urn:epc:tag:gsrnp-96:0.012345678901.01234") := by decide +kernel

-- test_valid_gsrnp_tag_encodable_2 (from tag URI)
example : (GSRNP.fromTagUri (py "urn:epc:tag:gsrnp-96:0.012345678901.01234")).map (·.epcUri) = .ok (py "urn:epc:id:gsrnp:012345678901.01234") := by decide +kernel

-- test_valid_gsrnp_tag_encodable_2 (hex)
example : (GSRNP.new (py "urn:epc:id:gsrnp:012345678901.01234")).bind (fun x => x.hex .gsrnp96 0) = .ok (py "2E000B7F7070D404D2000000") := by decide +kernel

-- test_valid_gsrnp_tag_encodable_2 (from hex)
example : (GSRNP.fromHex (py "2E000B7F7070D404D2000000")).map (·.epcUri) = .ok (py "urn:epc:id:gsrnp:012345678901.01234") := by decide +kernel

-- test_valid_gsrnp_tag_encodable_2 (from base64)
example : ((hexToBase64 (py "2E000B7F7070D404D2000000")).bind GSRNP.fromBase64).map (·.epcUri) = .ok (py "urn:epc:id:gsrnp:012345678901.01234") := by decide +kernel

-- test_valid_gsrnp_tag_encodable_3 (tag URI)
example : (GSRNP.new (py "urn:epc:id:gsrnp:000000.00000000000")).bind (fun x => x.tagUri .gsrnp96 0) = .ok (py "urn:epc:tag:gsrnp-96:0.000000.00000000000") := by decide +kernel

-- test_valid_gsrnp_tag_encodable_3 (from tag URI)
example : (GSRNP.fromTagUri (py "urn:epc:tag:gsrnp-96:0.000000.00000000000")).map (·.epcUri) = .ok (py "urn:epc:id:gsrnp:000000.00000000000") := by decide +kernel

-- test_valid_gsrnp_tag_encodable_3 (hex)
example : (GSRNP.new (py "urn:epc:id:gsrnp:000000.00000000000")).bind (fun x => x.hex .gsrnp96 0) = .ok (py "2E1800000000000000000000") := by decide +kernel

-- test_valid_gsrnp_tag_encodable_3 (from hex)
example : (GSRNP.fromHex (py "2E1800000000000000000000")).map (·.epcUri) = .ok (py "urn:epc:id:gsrnp:000000.00000000000") := by decide +kernel

-- test_valid_gsrnp_tag_encodable_3 (from base64)
example : ((hexToBase64 (py "2E1800000000000000000000")).bind GSRNP.fromBase64).map (·.epcUri) = .ok (py "urn:epc:id:gsrnp:000000.00000000000") := by decide +kernel

-- test_valid_gsrnp_tag_encodable_4 (tag URI)
example : (GSRNP.new (py "urn:epc:id:gsrnp:000000000000.00000")).bind (fun x => x.tagUri .gsrnp96 5) = .ok (py "urn:epc:tag:gsrnp-96:5.000000000000.00000") := by decide +kernel

-- test_valid_gsrnp_tag_encodable_4 (from tag URI)
example : (GSRNP.fromTagUri (py "urn:epc:tag:gsrnp-96:5.000000000000.00000")).map (·.epcUri) = .ok (py "urn:epc:id:gsrnp:000000000000.00000") := by decide +kernel

-- test_valid_gsrnp_tag_encodable_4 (hex)
example : (GSRNP.new (py "urn:epc:id:gsrnp:000000000000.00000")).bind (fun x => x.hex .gsrnp96 5) = .ok (py "2EA000000000000000000000") := by decide +kernel

-- test_valid_gsrnp_tag_encodable_4 (from hex)
example : (GSRNP.fromHex (py "2EA000000000000000000000")).map (·.epcUri) = .ok (py "urn:epc:id:gsrnp:000000000000.00000") := by decide +kernel

-- test_valid_gsrnp_tag_encodable_4 (from base64)
example : ((hexToBase64 (py "2EA000000000000000000000")).bind GSRNP.fromBase64).map (·.epcUri) = .ok (py "urn:epc:id:gsrnp:000000000000.00000") := by decide +kernel

-- test_valid_gsrnp_tag_encodable_5 (tag URI)
example : (GSRNP.new (py "urn:epc:id:gsrnp:999999999999.99999")).bind (fun x => x.tagUri .gsrnp96 5) = .ok (py "urn:epc:tag:gsrnp-96:5.999999999999.99999") := by decide +kernel

-- test_valid_gsrnp_tag_encodable_5 (from tag URI)
example : (GSRNP.fromTagUri (py "urn:epc:tag:gsrnp-96:5.999999999999.99999")).map (·.epcUri) = .ok (py "urn:epc:id:gsrnp:999999999999.99999") := by decide +kernel

-- test_valid_gsrnp_tag_encodable_5 (hex)
example : (GSRNP.new (py "urn:epc:id:gsrnp:999999999999.99999")).bind (fun x => x.hex .gsrnp96 5) = .ok (py "2EA3A352943FFD869F000000") := by decide +kernel

-- test_valid_gsrnp_tag_encodable_5 (from hex)
example : (GSRNP.fromHex (py "2EA3A352943FFD869F000000")).map (·.epcUri) = .ok (py "urn:epc:id:gsrnp:999999999999.99999") := by decide +kernel

-- test_valid_gsrnp_tag_encodable_5 (from base64)
example : ((hexToBase64 (py "2EA3A352943FFD869F000000")).bind GSRNP.fromBase64).map (·.epcUri) = .ok (py "urn:epc:id:gsrnp:999999999999.99999") := by decide +kernel

-- test_valid_gsrnp_tag_encodable_6 (tag URI)
example : (GSRNP.new (py "urn:epc:id:gsrnp:999999.99999999999")).bind (fun x => x.tagUri .gsrnp96 0) = .ok (py "urn:epc:tag:gsrnp-96:0.999999.99999999999") := by decide +kernel

-- test_valid_gsrnp_tag_encodable_6 (from tag URI)
example : (GSRNP.fromTagUri (py "urn:epc:tag:gsrnp-96:0.999999.99999999999")).map (·.epcUri) = .ok (py "urn:epc:id:gsrnp:999999.99999999999") := by decide +kernel

-- test_valid_gsrnp_tag_encodable_6 (hex)
example : (GSRNP.new (py "urn:epc:id:gsrnp:999999.99999999999")).bind (fun x => x.hex .gsrnp96 0) = .ok (py "2E1BD08FD74876E7FF000000") := by decide +kernel

-- test_valid_gsrnp_tag_encodable_6 (from hex)
example : (GSRNP.fromHex (py "2E1BD08FD74876E7FF000000")).map (·.epcUri) = .ok (py "urn:epc:id:gsrnp:999999.99999999999") := by decide +kernel

-- test_valid_gsrnp_tag_encodable_6 (from base64)
example : ((hexToBase64 (py "2E1BD08FD74876E7FF000000")).bind GSRNP.fromBase64).map (·.epcUri) = .ok (py "urn:epc:id:gsrnp:999999.99999999999") := by decide +kernel

end Epc.Tests
