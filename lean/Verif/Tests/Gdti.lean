/-
Tests (not proofs): the vectors of /repo/tests/epc_schemes/test_gdti.py evaluated in the model.  Generated by tools/gen_tests.py.
-/
import Verif.Model.Gdti

namespace Epc.Tests

-- test_valid_gdti_1
example : (GDTI.new (py "urn:epc:id:gdti:0614141.12345.400")).map (·.epcUri) = .ok (py "urn:epc:id:gdti:0614141.12345.400") := by decide +kernel

-- test_valid_gdti_2
example : (GDTI.new (py "urn:epc:id:gdti:0614141.12345.40000000000000000")).map (·.epcUri) = .ok (py "urn:epc:id:gdti:0614141.12345.40000000000000000") := by decide +kernel

-- test_valid_gdti_3
example : (GDTI.new (py "urn:epc:id:gdti:061414.123451.40000000000000000")).map (·.epcUri) = .ok (py "urn:epc:id:gdti:061414.123451.40000000000000000") := by decide +kernel

-- test_valid_gdti_4
example : (GDTI.new (py "urn:epc:id:gdti:0614141.12345.0")).map (·.epcUri) = .ok (py "urn:epc:id:gdti:0614141.12345.0") := by decide +kernel

-- test_valid_gdti_5
example : (GDTI.new (py "urn:epc:id:gdti:0614141.12345.ABCD1234%2F")).map (·.epcUri) = .ok (py "urn:epc:id:gdti:0614141.12345.ABCD1234%2F") := by decide +kernel

-- test_valid_gdti_6
example : (GDTI.new (py "urn:epc:id:gdti:0614141.12345.01")).map (·.epcUri) = .ok (py "urn:epc:id:gdti:0614141.12345.01") := by decide +kernel

-- test_invalid_gdti_identifier
example : GDTI.new (py "urn:epc:id:gti:0614141.12345.40000000000000000") = .error .convert := by decide +kernel

-- test_invalid_gdti_serial_too_long
example : GDTI.new (py "urn:epc:id:gdti:0614141.12345.400000000000000000") = .error .convert := by decide +kernel

-- test_invalid_gdti_too_many_digits
example : GDTI.new (py "urn:epc:id:gdti:0614141.123456.40000000000000000") = .error .convert := by decide +kernel

-- test_invalid_gdti_illegal_serial
example : GDTI.new (py "urn:epc:id:gdti:0614141.12345.ABCD1%23234%2F") = .error .convert := by decide +kernel

-- test_invalid_gdti_invalid_company_pref
example : GDTI.new (py "urn:epc:id:gdti:06141.1123451.40000000000000000") = .error .convert := by decide +kernel

-- test_valid_gdti_gs1_key_1 (key)
example : (GDTI.new (py "urn:epc:id:gdti:0614141.12345.ABCD1234%2F")).bind (fun x => .ok x.gs1Key) = .ok (py "0614141123452ABCD1234/") := by decide +kernel

-- test_valid_gdti_gs1_key_1 (element string)
example : (GDTI.new (py "urn:epc:id:gdti:0614141.12345.ABCD1234%2F")).bind (fun x => x.gs1ElementString) = .ok (py "(253)0614141123452ABCD1234/") := by decide +kernel

-- test_valid_gdti_gs1_key_1 (from element string)
example : (GDTI.fromGs1ElementString (py "(253)0614141123452ABCD1234/") 7).map (·.epcUri) = .ok (py "urn:epc:id:gdti:0614141.12345.ABCD1234%2F") := by decide +kernel

-- test_valid_gdti_gs1_key_2 (key)
example : (GDTI.new (py "urn:epc:id:gdti:0614141.12345.40000000000000000")).bind (fun x => .ok x.gs1Key) = .ok (py "061414112345240000000000000000") := by decide +kernel

-- test_valid_gdti_gs1_key_2 (element string)
example : (GDTI.new (py "urn:epc:id:gdti:0614141.12345.40000000000000000")).bind (fun x => x.gs1ElementString) = .ok (py "(253)061414112345240000000000000000") := by decide +kernel

-- test_valid_gdti_gs1_key_2 (from element string)
example : (GDTI.fromGs1ElementString (py "(253)061414112345240000000000000000") 7).map (·.epcUri) = .ok (py "urn:epc:id:gdti:0614141.12345.40000000000000000") := by decide +kernel

-- test_valid_gdti_gs1_key_3 (key)
example : (GDTI.new (py "urn:epc:id:gdti:0614141.12345.0")).bind (fun x => .ok x.gs1Key) = .ok (py "06141411234520") := by decide +kernel

-- test_valid_gdti_gs1_key_3 (element string)
example : (GDTI.new (py "urn:epc:id:gdti:0614141.12345.0")).bind (fun x => x.gs1ElementString) = .ok (py "(253)06141411234520") := by decide +kernel

-- test_valid_gdti_gs1_key_3 (from element string)
example : (GDTI.fromGs1ElementString (py "(253)06141411234520") 7).map (·.epcUri) = .ok (py "urn:epc:id:gdti:0614141.12345.0") := by decide +kernel

-- test_valid_gdti_gs1_key_4 (key)
example : (GDTI.new (py "urn:epc:id:gdti:061414.123451.40000000000000000")).bind (fun x => .ok x.gs1Key) = .ok (py "061414123451640000000000000000") := by decide +kernel

-- test_valid_gdti_gs1_key_4 (element string)
example : (GDTI.new (py "urn:epc:id:gdti:061414.123451.40000000000000000")).bind (fun x => x.gs1ElementString) = .ok (py "(253)061414123451640000000000000000") := by decide +kernel

-- test_valid_gdti_gs1_key_4 (from element string)
example : (GDTI.fromGs1ElementString (py "(253)061414123451640000000000000000") 6).map (·.epcUri) = .ok (py "urn:epc:id:gdti:061414.123451.40000000000000000") := by decide +kernel

-- test_valid_gdti_tag_encodable_1 (tag URI)
example : (GDTI.new (py "urn:epc:id:gdti:0614141.12345.ABCD1234%2F")).bind (fun x => x.tagUri .gdti174 0) = .ok (py "urn:epc:tag:gdti-174:0.0614141.12345.ABCD1234%2F") := by decide +kernel

-- test_valid_gdti_tag_encodable_1 (from tag URI)
example : (GDTI.fromTagUri (py "urn:epc:tag:gdti-174:0.0614141.12345.ABCD1234%2F")).map (·.epcUri) = .ok (py "urn:epc:id:gdti:0614141.12345.ABCD1234%2F") := by decide +kernel

-- test_valid_gdti_tag_encodable_1 (hex)
example : (GDTI.new (py "urn:epc:id:gdti:0614141.12345.ABCD1234%2F")).bind (fun x => x.hex .gdti174 0) = .ok (py "3E14257BF460730614388C593368BC00000000000000") := by decide +kernel

-- test_valid_gdti_tag_encodable_1 (from hex)
example : (GDTI.fromHex (py "3E14257BF460730614388C593368BC00000000000000")).map (·.epcUri) = .ok (py "urn:epc:id:gdti:0614141.12345.ABCD1234%2F") := by decide +kernel

-- test_valid_gdti_tag_encodable_1 (from base64)
example : ((hexToBase64 (py "3E14257BF460730614388C593368BC00000000000000")).bind GDTI.fromBase64).map (·.epcUri) = .ok (py "urn:epc:id:gdti:0614141.12345.ABCD1234%2F") := by decide +kernel

-- test_valid_gdti_tag_encodable_2 (tag URI)
example : (GDTI.new (py "urn:epc:id:gdti:0614141.12345.2199023255551")).bind (fun x => x.tagUri .gdti96 2) = .ok (py "urn:epc:tag:gdti-96:2.0614141.12345.2199023255551") := by decide +kernel

-- test_valid_gdti_tag_encodable_2 (from tag URI)
example : (GDTI.fromTagUri (py "urn:epc:tag:gdti-96:2.0614141.12345.2199023255551")).map (·.epcUri) = .ok (py "urn:epc:id:gdti:0614141.12345.2199023255551") := by decide +kernel

-- test_valid_gdti_tag_encodable_2 (hex)
example : (GDTI.new (py "urn:epc:id:gdti:0614141.12345.2199023255551")).bind (fun x => x.hex .gdti96 2) = .ok (py "2C54257BF46073FFFFFFFFFF") := by decide +kernel

-- test_valid_gdti_tag_encodable_2 (from hex)
example : (GDTI.fromHex (py "2C54257BF46073FFFFFFFFFF")).map (·.epcUri) = .ok (py "urn:epc:id:gdti:0614141.12345.2199023255551") := by decide +kernel

-- test_valid_gdti_tag_encodable_2 (from base64)
example : ((hexToBase64 (py "2C54257BF46073FFFFFFFFFF")).bind GDTI.fromBase64).map (·.epcUri) = .ok (py "urn:epc:id:gdti:0614141.12345.2199023255551") := by decide +kernel

-- test_valid_gdti_tag_encodable_3 (tag URI)
example : (GDTI.new (py "urn:epc:id:gdti:0614141.12345.2199023255552")).bind (fun x => x.tagUri .gdti174 2) = .ok (py "urn:epc:tag:gdti-174:2.0614141.12345.2199023255552") := by decide +kernel

-- test_valid_gdti_tag_encodable_3 (from tag URI)
example : (GDTI.fromTagUri (py "urn:epc:tag:gdti-174:2.0614141.12345.2199023255552")).map (·.epcUri) = .ok (py "urn:epc:id:gdti:0614141.12345.2199023255552") := by decide +kernel

-- test_valid_gdti_tag_encodable_3 (hex)
example : (GDTI.new (py "urn:epc:id:gdti:0614141.12345.2199023255552")).bind (fun x => x.hex .gdti174 2) = .ok (py "3E54257BF46072C98B972C193364D5AB56AC80000000") := by decide +kernel

-- test_valid_gdti_tag_encodable_3 (from hex)
example : (GDTI.fromHex (py "3E54257BF46072C98B972C193364D5AB56AC80000000")).map (·.epcUri) = .ok (py "urn:epc:id:gdti:0614141.12345.2199023255552") := by decide +kernel

-- test_valid_gdti_tag_encodable_3 (from base64)
example : ((hexToBase64 (py "3E54257BF46072C98B972C193364D5AB56AC80000000")).bind GDTI.fromBase64).map (·.epcUri) = .ok (py "urn:epc:id:gdti:0614141.12345.2199023255552") := by decide +kernel

-- test_valid_gdti_tag_encodable_4 (tag URI)
example : (GDTI.new (py "urn:epc:id:gdti:0614141.12345.0")).bind (fun x => x.tagUri .gdti96 6) = .ok (py "urn:epc:tag:gdti-96:6.0614141.12345.0") := by decide +kernel

-- test_valid_gdti_tag_encodable_4 (from tag URI)
example : (GDTI.fromTagUri (py "urn:epc:tag:gdti-96:6.0614141.12345.0")).map (·.epcUri) = .ok (py "urn:epc:id:gdti:0614141.12345.0") := by decide +kernel

-- test_valid_gdti_tag_encodable_4 (hex)
example : (GDTI.new (py "urn:epc:id:gdti:0614141.12345.0")).bind (fun x => x.hex .gdti96 6) = .ok (py "2CD4257BF460720000000000") := by decide +kernel

-- test_valid_gdti_tag_encodable_4 (from hex)
example : (GDTI.fromHex (py "2CD4257BF460720000000000")).map (·.epcUri) = .ok (py "urn:epc:id:gdti:0614141.12345.0") := by decide +kernel

-- test_valid_gdti_tag_encodable_4 (from base64)
example : ((hexToBase64 (py "2CD4257BF460720000000000")).bind GDTI.fromBase64).map (·.epcUri) = .ok (py "urn:epc:id:gdti:0614141.12345.0") := by decide +kernel

-- test_invalid_gdti_tag_encodable_invalid_serial_1
example : (GDTI.new (py "urn:epc:id:gdti:0614141.12345.ABCD1234%2F")).bind (fun x => x.tagUri .gdti96 0) = .error .convert := by decide +kernel

-- test_invalid_gdti_tag_encodable_invalid_serial_2
example : (GDTI.new (py "urn:epc:id:gdti:0614141.12345.2199023255552")).bind (fun x => x.tagUri .gdti96 2) = .error .convert := by decide +kernel

-- test_invalid_gdti_tag_encodable_invalid_serial_3
example : (GDTI.new (py "urn:epc:id:gdti:0614141.12345.01")).bind (fun x => x.tagUri .gdti96 2) = .error .convert := by decide +kernel

end Epc.Tests
