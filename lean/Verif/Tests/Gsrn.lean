/-
Tests (not proofs): the vectors of /repo/tests/epc_schemes/test_gsrn.py evaluated in the model.  Generated by tools/gen_tests.py.
-/
import Verif.Model.Gsrn

namespace Epc.Tests

-- test_valid_gsrn_1
example : (GSRN.new (py "urn:epc:id:gsrn:0614141.1234567890")).map (·.epcUri) = .ok (py "urn:epc:id:gsrn:0614141.1234567890") := by decide +kernel

-- test_valid_gsrn_2
example : (GSRN.new (py "urn:epc:id:gsrn:012345678901.01234")).map (·.epcUri) = .ok (py "urn:epc:id:gsrn:012345678901.01234") := by decide +kernel

-- test_valid_gsrn_3
example : (GSRN.new (py "urn:epc:id:gsrn:000000.00000000000")).map (·.epcUri) = .ok (py "urn:epc:id:gsrn:000000.00000000000") := by decide +kernel

-- test_valid_gsrn_4
example : (GSRN.new (py "urn:epc:id:gsrn:000000000000.00000")).map (·.epcUri) = .ok (py "urn:epc:id:gsrn:000000000000.00000") := by decide +kernel

-- test_valid_gsrn_5
example : (GSRN.new (py "urn:epc:id:gsrn:999999999999.99999")).map (·.epcUri) = .ok (py "urn:epc:id:gsrn:999999999999.99999") := by decide +kernel

-- test_valid_gsrn_6
example : (GSRN.new (py "urn:epc:id:gsrn:999999.99999999999")).map (·.epcUri) = .ok (py "urn:epc:id:gsrn:999999.99999999999") := by decide +kernel

-- test_invalid_gsrn_identifier
example : GSRN.new (py "urn:epc:id:gsrnp:0614141.1234567890") = .error .convert := by decide +kernel

-- test_invalid_gsrn_invalid_company_pref_1
example : GSRN.new (py "urn:epc:id:gsrn:00000.000000000000") = .error .convert := by decide +kernel

-- test_invalid_gsrn_invalid_company_pref_2
example : GSRN.new (py "urn:epc:id:gsrn:0000000000000.0000") = .error .convert := by decide +kernel

-- test_invalid_gsrn_invalid_char_1
example : GSRN.new (py "urn:epc:id:gsrn:99A999.99999999999") = .error .convert := by decide +kernel

-- test_invalid_gsrn_invalid_char_2
example : GSRN.new (py "urn:epc:id:gsrn:999999.9999999A999") = .error .convert := by decide +kernel

-- test_invalid_gsrn_too_short
example : GSRN.new (py "urn:epc:id:gsrn:999999.9") = .error .convert := by decide +kernel

-- test_invalid_gsrn_too_long
example : GSRN.new (py "urn:epc:id:gsrn:999999.999999999999") = .error .convert := by decide +kernel

-- test_valid_gsrn_gs1_key_1 (key)
example : (GSRN.new (py "urn:epc:id:gsrn:0614141.1234567890")).bind (fun x => .ok x.gs1Key) = .ok (py "061414112345678902") := by decide +kernel

-- test_valid_gsrn_gs1_key_1 (element string)
example : (GSRN.new (py "urn:epc:id:gsrn:0614141.1234567890")).bind (fun x => x.gs1ElementString) = .ok (py "(8018)061414112345678902") := by decide +kernel

-- test_valid_gsrn_gs1_key_1 (from element string)
example : (GSRN.fromGs1ElementString (py "(8018)061414112345678902") 7).map (·.epcUri) = .ok (py "urn:epc:id:gsrn:0614141.1234567890") := by decide +kernel

-- test_valid_gsrn_gs1_key_2 (key)
example : (GSRN.new (py "urn:epc:id:gsrn:012345678901.01234")).bind (fun x => .ok x.gs1Key) = .ok (py "012345678901012342") := by decide +kernel

-- test_valid_gsrn_gs1_key_2 (element string)
example : (GSRN.new (py "urn:epc:id:gsrn:012345678901.01234")).bind (fun x => x.gs1ElementString) = .ok (py "(8018)012345678901012342") := by decide +kernel

-- test_valid_gsrn_gs1_key_2 (from element string)
example : (GSRN.fromGs1ElementString (py "(8018)012345678901012342") 12).map (·.epcUri) = .ok (py "urn:epc:id:gsrn:012345678901.01234") := by decide +kernel

-- test_valid_gsrn_gs1_key_3 (key)
example : (GSRN.new (py "urn:epc:id:gsrn:000000.00000000000")).bind (fun x => .ok x.gs1Key) = .ok (py "000000000000000000") := by decide +kernel

-- test_valid_gsrn_gs1_key_3 (element string)
example : (GSRN.new (py "urn:epc:id:gsrn:000000.00000000000")).bind (fun x => x.gs1ElementString) = .ok (py "(8018)000000000000000000") := by decide +kernel

-- test_valid_gsrn_gs1_key_3 (from element string)
example : (GSRN.fromGs1ElementString (py "(8018)000000000000000000") 6).map (·.epcUri) = .ok (py "urn:epc:id:gsrn:000000.00000000000") := by decide +kernel

-- test_valid_gsrn_gs1_key_4 (key)
example : (GSRN.new (py "urn:epc:id:gsrn:000000000000.00000")).bind (fun x => .ok x.gs1Key) = .ok (py "000000000000000000") := by decide +kernel

-- test_valid_gsrn_gs1_key_4 (element string)
example : (GSRN.new (py "urn:epc:id:gsrn:000000000000.00000")).bind (fun x => x.gs1ElementString) = .ok (py "(8018)000000000000000000") := by decide +kernel

-- test_valid_gsrn_gs1_key_4 (from element string)
example : (GSRN.fromGs1ElementString (py "(8018)000000000000000000") 12).map (·.epcUri) = .ok (py "urn:epc:id:gsrn:000000000000.00000") := by decide +kernel

-- test_valid_gsrn_gs1_key_5 (key)
example : (GSRN.new (py "urn:epc:id:gsrn:999999999999.99999")).bind (fun x => .ok x.gs1Key) = .ok (py "999999999999999995") := by decide +kernel

-- test_valid_gsrn_gs1_key_5 (element string)
example : (GSRN.new (py "urn:epc:id:gsrn:999999999999.99999")).bind (fun x => x.gs1ElementString) = .ok (py "(8018)999999999999999995") := by decide +kernel

-- test_valid_gsrn_gs1_key_5 (from element string)
example : (GSRN.fromGs1ElementString (py "(8018)999999999999999995") 12).map (·.epcUri) = .ok (py "urn:epc:id:gsrn:999999999999.99999") := by decide +kernel

-- test_valid_gsrn_gs1_key_6 (key)
example : (GSRN.new (py "urn:epc:id:gsrn:999999.99999999999")).bind (fun x => .ok x.gs1Key) = .ok (py "999999999999999995") := by decide +kernel

-- test_valid_gsrn_gs1_key_6 (element string)
example : (GSRN.new (py "urn:epc:id:gsrn:999999.99999999999")).bind (fun x => x.gs1ElementString) = .ok (py "(8018)999999999999999995") := by decide +kernel

-- test_valid_gsrn_gs1_key_6 (from element string)
example : (GSRN.fromGs1ElementString (py "(8018)999999999999999995") 6).map (·.epcUri) = .ok (py "urn:epc:id:gsrn:999999.99999999999") := by decide +kernel

-- test_valid_gsrn_tag_encodable_1 (tag URI)
example : (GSRN.new (py "urn:epc:id:gsrn:0614141.1234567890")).bind (fun x => x.tagUri .gsrn96 0) = .ok (py "urn:epc:tag:gsrn-96:0.0614141.1234567890") := by decide +kernel

-- test_valid_gsrn_tag_encodable_1 (from tag URI)
example : (GSRN.fromTagUri (py "urn:epc:tag:gsrn-96:0.0614141.1234567890")).map (·.epcUri) = .ok (py "urn:epc:id:gsrn:0614141.1234567890") := by decide +kernel

-- test_valid_gsrn_tag_encodable_1 (hex)
example : (GSRN.new (py "urn:epc:id:gsrn:0614141.1234567890")).bind (fun x => x.hex .gsrn96 0) = .ok (py "2D14257BF4499602D2000000") := by decide +kernel

-- test_valid_gsrn_tag_encodable_1 (from hex)
example : (GSRN.fromHex (py "2D14257BF4499602D2000000")).map (·.epcUri) = .ok (py "urn:epc:id:gsrn:0614141.1234567890") := by decide +kernel

-- test_valid_gsrn_tag_encodable_1 (from base64)
example : ((hexToBase64 (py "2D14257BF4499602D2000000")).bind GSRN.fromBase64).map (·.epcUri) = .ok (py "urn:epc:id:gsrn:0614141.1234567890") := by decide +kernel

-- test_valid_gsrn_tag_encodable_2 (tag URI)
example : (GSRN.new (py "urn:epc:id:gsrn:012345678901.01234")).bind (fun x => x.tagUri .gsrn96 0) = .ok (py "urn:epc:tag:gsrn-96:0.012345678901.01234") := by decide +kernel

-- test_valid_gsrn_tag_encodable_2 (from tag URI)
example : (GSRN.fromTagUri (py "urn:epc:tag:gsrn-96:0.012345678901.01234")).map (·.epcUri) = .ok (py "urn:epc:id:gsrn:012345678901.01234") := by decide +kernel

-- test_valid_gsrn_tag_encodable_2 (hex)
example : (GSRN.new (py "urn:epc:id:gsrn:012345678901.01234")).bind (fun x => x.hex .gsrn96 0) = .ok (py "2D000B7F7070D404D2000000") := by decide +kernel

-- test_valid_gsrn_tag_encodable_2 (from hex)
example : (GSRN.fromHex (py "2D000B7F7070D404D2000000")).map (·.epcUri) = .ok (py "urn:epc:id:gsrn:012345678901.01234") := by decide +kernel

-- test_valid_gsrn_tag_encodable_2 (from base64)
example : ((hexToBase64 (py "2D000B7F7070D404D2000000")).bind GSRN.fromBase64).map (·.epcUri) = .ok (py "urn:epc:id:gsrn:012345678901.01234") := by decide +kernel

-- test_valid_gsrn_tag_encodable_3 (tag URI)
example : (GSRN.new (py "urn:epc:id:gsrn:000000.00000000000")).bind (fun x => x.tagUri .gsrn96 0) = .ok (py "urn:epc:tag:gsrn-96:0.000000.00000000000") := by decide +kernel

-- test_valid_gsrn_tag_encodable_3 (from tag URI)
example : (GSRN.fromTagUri (py "urn:epc:tag:gsrn-96:0.000000.00000000000")).map (·.epcUri) = .ok (py "urn:epc:id:gsrn:000000.00000000000") := by decide +kernel

-- test_valid_gsrn_tag_encodable_3 (hex)
example : (GSRN.new (py "urn:epc:id:gsrn:000000.00000000000")).bind (fun x => x.hex .gsrn96 0) = .ok (py "2D1800000000000000000000") := by decide +kernel

-- test_valid_gsrn_tag_encodable_3 (from hex)
example : (GSRN.fromHex (py "2D1800000000000000000000")).map (·.epcUri) = .ok (py "urn:epc:id:gsrn:000000.00000000000") := by decide +kernel

-- test_valid_gsrn_tag_encodable_3 (from base64)
example : ((hexToBase64 (py "2D1800000000000000000000")).bind GSRN.fromBase64).map (·.epcUri) = .ok (py "urn:epc:id:gsrn:000000.00000000000") := by decide +kernel

-- test_valid_gsrn_tag_encodable_4 (tag URI)
example : (GSRN.new (py "urn:epc:id:gsrn:000000000000.00000")).bind (fun x => x.tagUri .gsrn96 5) = .ok (py "urn:epc:tag:gsrn-96:5.000000000000.00000") := by decide +kernel

-- test_valid_gsrn_tag_encodable_4 (from tag URI)
example : (GSRN.fromTagUri (py "urn:epc:tag:gsrn-96:5.000000000000.00000")).map (·.epcUri) = .ok (py "urn:epc:id:gsrn:000000000000.00000") := by decide +kernel

-- test_valid_gsrn_tag_encodable_4 (hex)
example : (GSRN.new (py "urn:epc:id:gsrn:000000000000.00000")).bind (fun x => x.hex .gsrn96 5) = .ok (py "2DA000000000000000000000") := by decide +kernel

-- test_valid_gsrn_tag_encodable_4 (from hex)
example : (GSRN.fromHex (py "2DA000000000000000000000")).map (·.epcUri) = .ok (py "urn:epc:id:gsrn:000000000000.00000") := by decide +kernel

-- test_valid_gsrn_tag_encodable_4 (from base64)
example : ((hexToBase64 (py "2DA000000000000000000000")).bind GSRN.fromBase64).map (·.epcUri) = .ok (py "urn:epc:id:gsrn:000000000000.00000") := by decide +kernel

-- test_valid_gsrn_tag_encodable_5 (tag URI)
example : (GSRN.new (py "urn:epc:id:gsrn:999999999999.99999")).bind (fun x => x.tagUri .gsrn96 5) = .ok (py "urn:epc:tag:gsrn-96:5.999999999999.99999") := by decide +kernel

-- test_valid_gsrn_tag_encodable_5 (from tag URI)
example : (GSRN.fromTagUri (py "urn:epc:tag:gsrn-96:5.999999999999.99999")).map (·.epcUri) = .ok (py "urn:epc:id:gsrn:999999999999.99999") := by decide +kernel

-- test_valid_gsrn_tag_encodable_5 (hex)
example : (GSRN.new (py "urn:epc:id:gsrn:999999999999.99999")).bind (fun x => x.hex .gsrn96 5) = .ok (py "2DA3A352943FFD869F000000") := by decide +kernel

-- test_valid_gsrn_tag_encodable_5 (from hex)
example : (GSRN.fromHex (py "2DA3A352943FFD869F000000")).map (·.epcUri) = .ok (py "urn:epc:id:gsrn:999999999999.99999") := by decide +kernel

-- test_valid_gsrn_tag_encodable_5 (from base64)
example : ((hexToBase64 (py "2DA3A352943FFD869F000000")).bind GSRN.fromBase64).map (·.epcUri) = .ok (py "urn:epc:id:gsrn:999999999999.99999") := by decide +kernel

-- test_valid_gsrn_tag_encodable_6 (tag URI)
example : (GSRN.new (py "urn:epc:id:gsrn:999999.99999999999")).bind (fun x => x.tagUri .gsrn96 0) = .ok (py "urn:epc:tag:gsrn-96:0.999999.99999999999") := by decide +kernel

-- test_valid_gsrn_tag_encodable_6 (from tag URI)
example : (GSRN.fromTagUri (py "urn:epc:tag:gsrn-96:0.999999.99999999999")).map (·.epcUri) = .ok (py "urn:epc:id:gsrn:999999.99999999999") := by decide +kernel

-- test_valid_gsrn_tag_encodable_6 (hex)
example : (GSRN.new (py "urn:epc:id:gsrn:999999.99999999999")).bind (fun x => x.hex .gsrn96 0) = .ok (py "2D1BD08FD74876E7FF000000") := by decide +kernel

-- test_valid_gsrn_tag_encodable_6 (from hex)
example : (GSRN.fromHex (py "2D1BD08FD74876E7FF000000")).map (·.epcUri) = .ok (py "urn:epc:id:gsrn:999999.99999999999") := by decide +kernel

-- test_valid_gsrn_tag_encodable_6 (from base64)
example : ((hexToBase64 (py "2D1BD08FD74876E7FF000000")).bind GSRN.fromBase64).map (·.epcUri) = .ok (py "urn:epc:id:gsrn:999999.99999999999") := by decide +kernel

end Epc.Tests
