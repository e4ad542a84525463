/-
Tests (not proofs): the vectors of /repo/tests/epc_schemes/test_grai.py evaluated in the model.  Generated by tools/gen_tests.py.
-/
import Verif.Model.Grai

namespace Epc.Tests

-- test_valid_grai_1
example : (GRAI.new (py "urn:epc:id:grai:0614141.12345.400")).map (·.epcUri) = .ok (py "urn:epc:id:grai:0614141.12345.400") := by decide +kernel

-- test_valid_grai_2
example : (GRAI.new (py "urn:epc:id:grai:0614141.12345.4000000000000000")).map (·.epcUri) = .ok (py "urn:epc:id:grai:0614141.12345.4000000000000000") := by decide +kernel

-- test_valid_grai_3
example : (GRAI.new (py "urn:epc:id:grai:061414113245..0")).map (·.epcUri) = .ok (py "urn:epc:id:grai:061414113245..0") := by decide +kernel

-- test_valid_grai_4
example : (GRAI.new (py "urn:epc:id:grai:061414113245..01")).map (·.epcUri) = .ok (py "urn:epc:id:grai:061414113245..01") := by decide +kernel

-- test_valid_grai_5
example : (GRAI.new (py "urn:epc:id:grai:0614141.12345.ABCD1234%2F")).map (·.epcUri) = .ok (py "urn:epc:id:grai:0614141.12345.ABCD1234%2F") := by decide +kernel

-- test_valid_grai_6
example : (GRAI.new (py "urn:epc:id:grai:061414113245..274877906944")).map (·.epcUri) = .ok (py "urn:epc:id:grai:061414113245..274877906944") := by decide +kernel

-- test_valid_grai_7
example : (GRAI.new (py "urn:epc:id:grai:0614141.12345.ABCDEFGHIJKLMNOP")).map (·.epcUri) = .ok (py "urn:epc:id:grai:0614141.12345.ABCDEFGHIJKLMNOP") := by decide +kernel

-- test_invalid_grai_identifier
example : GRAI.new (py "urn:epc:id:gai:0614141.12345.400") = .error .convert := by decide +kernel

-- test_invalid_grai_too_long_serial_1
example : GRAI.new (py "urn:epc:id:grai:0614141.12345.40000000000000000") = .error .convert := by decide +kernel

-- test_invalid_grai_invalid_company_pref_1
example : GRAI.new (py "urn:epc:id:grai:0614141132456..0") = .error .convert := by decide +kernel

-- test_invalid_grai_invalid_company_pref_2
example : GRAI.new (py "urn:epc:id:grai:06141.6789012.01") = .error .convert := by decide +kernel

-- test_invalid_grai_invalid_char
example : GRAI.new (py "urn:epc:id:grai:0614141.12345.ABCD1234%23") = .error .convert := by decide +kernel

-- test_invalid_grai_invalid_serial_1
example : GRAI.new (py "urn:epc:id:grai:061414113245..") = .error .convert := by decide +kernel

-- test_invalid_grai_invalid_serial_2
example : GRAI.new (py "urn:epc:id:grai:0614141.12345.ABCDEFGHIJKLMNOPQ") = .error .convert := by decide +kernel

-- test_valid_grai_gs1_key_1 (key)
example : (GRAI.new (py "urn:epc:id:grai:0614141.12345.400")).bind (fun x => .ok x.gs1Key) = .ok (py "0614141123452400") := by decide +kernel

-- test_valid_grai_gs1_key_1 (element string)
example : (GRAI.new (py "urn:epc:id:grai:0614141.12345.400")).bind (fun x => x.gs1ElementString) = .ok (py "(8003)00614141123452400") := by decide +kernel

-- test_valid_grai_gs1_key_1 (from element string)
example : (GRAI.fromGs1ElementString (py "(8003)00614141123452400") 7).map (·.epcUri) = .ok (py "urn:epc:id:grai:0614141.12345.400") := by decide +kernel

-- test_valid_grai_gs1_key_2 (key)
example : (GRAI.new (py "urn:epc:id:grai:0614141.12345.4000000000000000")).bind (fun x => .ok x.gs1Key) = .ok (py "06141411234524000000000000000") := by decide +kernel

-- test_valid_grai_gs1_key_2 (element string)
example : (GRAI.new (py "urn:epc:id:grai:0614141.12345.4000000000000000")).bind (fun x => x.gs1ElementString) = .ok (py "(8003)006141411234524000000000000000") := by decide +kernel

-- test_valid_grai_gs1_key_2 (from element string)
example : (GRAI.fromGs1ElementString (py "(8003)006141411234524000000000000000") 7).map (·.epcUri) = .ok (py "urn:epc:id:grai:0614141.12345.4000000000000000") := by decide +kernel

-- test_valid_grai_gs1_key_3 (key)
example : (GRAI.new (py "urn:epc:id:grai:061414113245..0")).bind (fun x => .ok x.gs1Key) = .ok (py "06141411324540") := by decide +kernel

-- test_valid_grai_gs1_key_3 (element string)
example : (GRAI.new (py "urn:epc:id:grai:061414113245..0")).bind (fun x => x.gs1ElementString) = .ok (py "(8003)006141411324540") := by decide +kernel

-- test_valid_grai_gs1_key_3 (from element string)
example : (GRAI.fromGs1ElementString (py "(8003)006141411324540") 12).map (·.epcUri) = .ok (py "urn:epc:id:grai:061414113245..0") := by decide +kernel

-- test_valid_grai_gs1_key_4 (key)
example : (GRAI.new (py "urn:epc:id:grai:061414113245..01")).bind (fun x => .ok x.gs1Key) = .ok (py "061414113245401") := by decide +kernel

-- test_valid_grai_gs1_key_4 (element string)
example : (GRAI.new (py "urn:epc:id:grai:061414113245..01")).bind (fun x => x.gs1ElementString) = .ok (py "(8003)0061414113245401") := by decide +kernel

-- test_valid_grai_gs1_key_4 (from element string)
example : (GRAI.fromGs1ElementString (py "(8003)0061414113245401") 12).map (·.epcUri) = .ok (py "urn:epc:id:grai:061414113245..01") := by decide +kernel

-- test_valid_grai_gs1_key_5 (key)
example : (GRAI.new (py "urn:epc:id:grai:0614141.12345.ABCD1234%2F")).bind (fun x => .ok x.gs1Key) = .ok (py "0614141123452ABCD1234/") := by decide +kernel

-- test_valid_grai_gs1_key_5 (element string)
example : (GRAI.new (py "urn:epc:id:grai:0614141.12345.ABCD1234%2F")).bind (fun x => x.gs1ElementString) = .ok (py "(8003)00614141123452ABCD1234/") := by decide +kernel

-- test_valid_grai_gs1_key_5 (from element string)
example : (GRAI.fromGs1ElementString (py "(8003)00614141123452ABCD1234/") 7).map (·.epcUri) = .ok (py "urn:epc:id:grai:0614141.12345.ABCD1234%2F") := by decide +kernel

-- test_valid_grai_gs1_key_6 (key)
example : (GRAI.new (py "urn:epc:id:grai:061414113245..274877906944")).bind (fun x => .ok x.gs1Key) = .ok (py "0614141132454274877906944") := by decide +kernel

-- test_valid_grai_gs1_key_6 (element string)
example : (GRAI.new (py "urn:epc:id:grai:061414113245..274877906944")).bind (fun x => x.gs1ElementString) = .ok (py "(8003)00614141132454274877906944") := by decide +kernel

-- test_valid_grai_gs1_key_6 (from element string)
example : (GRAI.fromGs1ElementString (py "(8003)00614141132454274877906944") 12).map (·.epcUri) = .ok (py "urn:epc:id:grai:061414113245..274877906944") := by decide +kernel

-- test_valid_grai_gs1_key_7 (key)
example : (GRAI.new (py "urn:epc:id:grai:0614141.12345.ABCDEFGHIJKLMNOP")).bind (fun x => .ok x.gs1Key) = .ok (py "0614141123452ABCDEFGHIJKLMNOP") := by decide +kernel

-- test_valid_grai_gs1_key_7 (element string)
example : (GRAI.new (py "urn:epc:id:grai:0614141.12345.ABCDEFGHIJKLMNOP")).bind (fun x => x.gs1ElementString) = .ok (py "(8003)00614141123452ABCDEFGHIJKLMNOP") := by decide +kernel

-- test_valid_grai_gs1_key_7 (from element string)
example : (GRAI.fromGs1ElementString (py "(8003)00614141123452ABCDEFGHIJKLMNOP") 7).map (·.epcUri) = .ok (py "urn:epc:id:grai:0614141.12345.ABCDEFGHIJKLMNOP") := by decide +kernel

-- test_valid_grai_tag_encodable_1 (tag URI)
example : (GRAI.new (py "urn:epc:id:grai:0614141.12345.400")).bind (fun x => x.tagUri .grai96 5) = .ok (py "urn:epc:tag:grai-96:5.0614141.12345.400") := by decide +kernel

-- test_valid_grai_tag_encodable_1 (from tag URI)
example : (GRAI.fromTagUri (py "urn:epc:tag:grai-96:5.0614141.12345.400")).map (·.epcUri) = .ok (py "urn:epc:id:grai:0614141.12345.400") := by decide +kernel

-- test_valid_grai_tag_encodable_1 (hex)
example : (GRAI.new (py "urn:epc:id:grai:0614141.12345.400")).bind (fun x => x.hex .grai96 5) = .ok (py "33B4257BF40C0E4000000190") := by decide +kernel

-- test_valid_grai_tag_encodable_1 (from hex)
example : (GRAI.fromHex (py "33B4257BF40C0E4000000190")).map (·.epcUri) = .ok (py "urn:epc:id:grai:0614141.12345.400") := by decide +kernel

-- test_valid_grai_tag_encodable_1 (from base64)
example : ((hexToBase64 (py "33B4257BF40C0E4000000190")).bind GRAI.fromBase64).map (·.epcUri) = .ok (py "urn:epc:id:grai:0614141.12345.400") := by decide +kernel

-- test_valid_grai_tag_encodable_2 (tag URI)
example : (GRAI.new (py "urn:epc:id:grai:0614141.12345.4000000000000000")).bind (fun x => x.tagUri .grai170 0) = .ok (py "urn:epc:tag:grai-170:0.0614141.12345.4000000000000000") := by decide +kernel

-- test_valid_grai_tag_encodable_2 (from tag URI)
example : (GRAI.fromTagUri (py "urn:epc:tag:grai-170:0.0614141.12345.4000000000000000")).map (·.epcUri) = .ok (py "urn:epc:id:grai:0614141.12345.4000000000000000") := by decide +kernel

-- test_valid_grai_tag_encodable_2 (hex)
example : (GRAI.new (py "urn:epc:id:grai:0614141.12345.4000000000000000")).bind (fun x => x.hex .grai170 0) = .ok (py "3714257BF40C0E5A3060C183060C183060C183060C00") := by decide +kernel

-- test_valid_grai_tag_encodable_2 (from hex)
example : (GRAI.fromHex (py "3714257BF40C0E5A3060C183060C183060C183060C00")).map (·.epcUri) = .ok (py "urn:epc:id:grai:0614141.12345.4000000000000000") := by decide +kernel

-- test_valid_grai_tag_encodable_2 (from base64)
example : ((hexToBase64 (py "3714257BF40C0E5A3060C183060C183060C183060C00")).bind GRAI.fromBase64).map (·.epcUri) = .ok (py "urn:epc:id:grai:0614141.12345.4000000000000000") := by decide +kernel

-- test_valid_grai_tag_encodable_3 (tag URI)
example : (GRAI.new (py "urn:epc:id:grai:061414113245..0")).bind (fun x => x.tagUri .grai96 0) = .ok (py "urn:epc:tag:grai-96:0.061414113245..0") := by decide +kernel

-- test_valid_grai_tag_encodable_3 (from tag URI)
example : (GRAI.fromTagUri (py "urn:epc:tag:grai-96:0.061414113245..0")).map (·.epcUri) = .ok (py "urn:epc:id:grai:061414113245..0") := by decide +kernel

-- test_valid_grai_tag_encodable_3 (hex)
example : (GRAI.new (py "urn:epc:id:grai:061414113245..0")).bind (fun x => x.hex .grai96 0) = .ok (py "3300393243FF740000000000") := by decide +kernel

-- test_valid_grai_tag_encodable_3 (from hex)
example : (GRAI.fromHex (py "3300393243FF740000000000")).map (·.epcUri) = .ok (py "urn:epc:id:grai:061414113245..0") := by decide +kernel

-- test_valid_grai_tag_encodable_3 (from base64)
example : ((hexToBase64 (py "3300393243FF740000000000")).bind GRAI.fromBase64).map (·.epcUri) = .ok (py "urn:epc:id:grai:061414113245..0") := by decide +kernel

-- test_valid_grai_tag_encodable_4 (tag URI)
example : (GRAI.new (py "urn:epc:id:grai:061414113245..01")).bind (fun x => x.tagUri .grai170 0) = .ok (py "urn:epc:tag:grai-170:0.061414113245..01") := by decide +kernel

-- test_valid_grai_tag_encodable_4 (from tag URI)
example : (GRAI.fromTagUri (py "urn:epc:tag:grai-170:0.061414113245..01")).map (·.epcUri) = .ok (py "urn:epc:id:grai:061414113245..01") := by decide +kernel

-- test_valid_grai_tag_encodable_4 (hex)
example : (GRAI.new (py "urn:epc:id:grai:061414113245..01")).bind (fun x => x.hex .grai170 0) = .ok (py "3700393243FF74183100000000000000000000000000") := by decide +kernel

-- test_valid_grai_tag_encodable_4 (from hex)
example : (GRAI.fromHex (py "3700393243FF74183100000000000000000000000000")).map (·.epcUri) = .ok (py "urn:epc:id:grai:061414113245..01") := by decide +kernel

-- test_valid_grai_tag_encodable_4 (from base64)
example : ((hexToBase64 (py "3700393243FF74183100000000000000000000000000")).bind GRAI.fromBase64).map (·.epcUri) = .ok (py "urn:epc:id:grai:061414113245..01") := by decide +kernel

-- test_valid_grai_tag_encodable_5 (tag URI)
example : (GRAI.new (py "urn:epc:id:grai:0614141.12345.ABCD1234%2F")).bind (fun x => x.tagUri .grai170 0) = .ok (py "urn:epc:tag:grai-170:0.0614141.12345.ABCD1234%2F") := by decide +kernel

-- test_valid_grai_tag_encodable_5 (from tag URI)
example : (GRAI.fromTagUri (py "urn:epc:tag:grai-170:0.0614141.12345.ABCD1234%2F")).map (·.epcUri) = .ok (py "urn:epc:id:grai:0614141.12345.ABCD1234%2F") := by decide +kernel

-- test_valid_grai_tag_encodable_5 (hex)
example : (GRAI.new (py "urn:epc:id:grai:0614141.12345.ABCD1234%2F")).bind (fun x => x.hex .grai170 0) = .ok (py "3714257BF40C0E60C287118B266D1780000000000000") := by decide +kernel

-- test_valid_grai_tag_encodable_5 (from hex)
example : (GRAI.fromHex (py "3714257BF40C0E60C287118B266D1780000000000000")).map (·.epcUri) = .ok (py "urn:epc:id:grai:0614141.12345.ABCD1234%2F") := by decide +kernel

-- test_valid_grai_tag_encodable_5 (from base64)
example : ((hexToBase64 (py "3714257BF40C0E60C287118B266D1780000000000000")).bind GRAI.fromBase64).map (·.epcUri) = .ok (py "urn:epc:id:grai:0614141.12345.ABCD1234%2F") := by decide +kernel

-- test_valid_grai_tag_encodable_6 (tag URI)
example : (GRAI.new (py "urn:epc:id:grai:061414113245..274877906943")).bind (fun x => x.tagUri .grai96 0) = .ok (py "urn:epc:tag:grai-96:0.061414113245..274877906943") := by decide +kernel

-- test_valid_grai_tag_encodable_6 (from tag URI)
example : (GRAI.fromTagUri (py "urn:epc:tag:grai-96:0.061414113245..274877906943")).map (·.epcUri) = .ok (py "urn:epc:id:grai:061414113245..274877906943") := by decide +kernel

-- test_valid_grai_tag_encodable_6 (hex)
example : (GRAI.new (py "urn:epc:id:grai:061414113245..274877906943")).bind (fun x => x.hex .grai96 0) = .ok (py "3300393243FF743FFFFFFFFF") := by decide +kernel

-- test_valid_grai_tag_encodable_6 (from hex)
example : (GRAI.fromHex (py "3300393243FF743FFFFFFFFF")).map (·.epcUri) = .ok (py "urn:epc:id:grai:061414113245..274877906943") := by decide +kernel

-- test_valid_grai_tag_encodable_6 (from base64)
example : ((hexToBase64 (py "3300393243FF743FFFFFFFFF")).bind GRAI.fromBase64).map (·.epcUri) = .ok (py "urn:epc:id:grai:061414113245..274877906943") := by decide +kernel

-- test_valid_grai_tag_encodable_7 (tag URI)
example : (GRAI.new (py "urn:epc:id:grai:0614141.12345.ABCDEFGHIJKLMNOP")).bind (fun x => x.tagUri .grai170 0) = .ok (py "urn:epc:tag:grai-170:0.0614141.12345.ABCDEFGHIJKLMNOP") := by decide +kernel

-- test_valid_grai_tag_encodable_7 (from tag URI)
example : (GRAI.fromTagUri (py "urn:epc:tag:grai-170:0.0614141.12345.ABCDEFGHIJKLMNOP")).map (·.epcUri) = .ok (py "urn:epc:id:grai:0614141.12345.ABCDEFGHIJKLMNOP") := by decide +kernel

-- test_valid_grai_tag_encodable_7 (hex)
example : (GRAI.new (py "urn:epc:id:grai:0614141.12345.ABCDEFGHIJKLMNOP")).bind (fun x => x.hex .grai170 0) = .ok (py "3714257BF40C0E60C287122C68F224CA97326CE9F400") := by decide +kernel

-- test_valid_grai_tag_encodable_7 (from hex)
example : (GRAI.fromHex (py "3714257BF40C0E60C287122C68F224CA97326CE9F400")).map (·.epcUri) = .ok (py "urn:epc:id:grai:0614141.12345.ABCDEFGHIJKLMNOP") := by decide +kernel

-- test_valid_grai_tag_encodable_7 (from base64)
example : ((hexToBase64 (py "3714257BF40C0E60C287122C68F224CA97326CE9F400")).bind GRAI.fromBase64).map (·.epcUri) = .ok (py "urn:epc:id:grai:0614141.12345.ABCDEFGHIJKLMNOP") := by decide +kernel

-- test_invalid_grai_serial_1
example : (GRAI.new (py "urn:epc:id:grai:0614141.12345.4000000000000000")).bind (fun x => x.tagUri .grai96 0) = .error .convert := by decide +kernel

-- test_invalid_grai_serial_2
example : (GRAI.new (py "urn:epc:id:grai:061414113245..01")).bind (fun x => x.tagUri .grai96 0) = .error .convert := by decide +kernel

-- test_invalid_grai_tag_encodable_serial_3
example : (GRAI.new (py "urn:epc:id:grai:0614141.12345.ABCD1234%2F")).bind (fun x => x.tagUri .grai96 0) = .error .convert := by decide +kernel

-- test_valid_grai_tag_encodable_serial_4
example : (GRAI.new (py "urn:epc:id:grai:061414113245..274877906944")).bind (fun x => x.tagUri .grai96 0) = .error .convert := by decide +kernel

end Epc.Tests
