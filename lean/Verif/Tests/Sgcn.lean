/-
Tests (not proofs): the vectors of /repo/tests/epc_schemes/test_sgcn.py evaluated in the model.  Generated by tools/gen_tests.py.
-/
import Verif.Model.Sgcn

namespace Epc.Tests

-- test_valid_sgcn_1
example : (SGCN.new (py "urn:epc:id:sgcn:4012345.67890.04711")).map (·.epcUri) = .ok (py "urn:epc:id:sgcn:4012345.67890.04711") := by decide +kernel

-- test_valid_sgcn_2
example : (SGCN.new (py "urn:epc:id:sgcn:4012345.67890.0")).map (·.epcUri) = .ok (py "urn:epc:id:sgcn:4012345.67890.0") := by decide +kernel

-- test_valid_sgcn_3
example : (SGCN.new (py "urn:epc:id:sgcn:4012345.67890.01")).map (·.epcUri) = .ok (py "urn:epc:id:sgcn:4012345.67890.01") := by decide +kernel

-- test_valid_sgcn_4
example : (SGCN.new (py "urn:epc:id:sgcn:401234512345..1")).map (·.epcUri) = .ok (py "urn:epc:id:sgcn:401234512345..1") := by decide +kernel

-- test_valid_sgcn_5
example : (SGCN.new (py "urn:epc:id:sgcn:401231.123465.999999999999")).map (·.epcUri) = .ok (py "urn:epc:id:sgcn:401231.123465.999999999999") := by decide +kernel

-- test_invalid_sgcn_identifier
example : SGCN.new (py "urn:epc:id:scn:4012345.67890.04711") = .error .convert := by decide +kernel

-- test_invalid_sgcn_company_prefix_1
example : SGCN.new (py "urn:epc:id:sgcn:4012345123451..1") = .error .convert := by decide +kernel

-- test_invalid_sgcn_company_prefix_2
example : SGCN.new (py "urn:epc:id:sgcn:40123.1123465.999999999999") = .error .convert := by decide +kernel

-- test_invalid_sgcn_serial_too_long
example : SGCN.new (py "urn:epc:id:sgcn:401231.123465.9999999999999") = .error .convert := by decide +kernel

-- test_invalid_sgcn_serial_too_short
example : SGCN.new (py "urn:epc:id:sgcn:401231.123465.") = .error .convert := by decide +kernel

-- test_invalid_sgcn_illegal_chars
example : SGCN.new (py "urn:epc:id:sgcn:401231.123465.999ABCD999999") = .error .convert := by decide +kernel

-- test_valid_sgcn_gs1_key_1 (key)
example : (SGCN.new (py "urn:epc:id:sgcn:4012345.67890.04711")).bind (fun x => .ok x.gs1Key) = .ok (py "401234567890104711") := by decide +kernel

-- test_valid_sgcn_gs1_key_1 (element string)
example : (SGCN.new (py "urn:epc:id:sgcn:4012345.67890.04711")).bind (fun x => x.gs1ElementString) = .ok (py "(255)401234567890104711") := by decide +kernel

-- test_valid_sgcn_gs1_key_1 (from element string)
example : (SGCN.fromGs1ElementString (py "(255)401234567890104711") 7).map (·.epcUri) = .ok (py "urn:epc:id:sgcn:4012345.67890.04711") := by decide +kernel

-- test_valid_sgcn_gs1_key_2 (key)
example : (SGCN.new (py "urn:epc:id:sgcn:4012345.67890.0")).bind (fun x => .ok x.gs1Key) = .ok (py "40123456789010") := by decide +kernel

-- test_valid_sgcn_gs1_key_2 (element string)
example : (SGCN.new (py "urn:epc:id:sgcn:4012345.67890.0")).bind (fun x => x.gs1ElementString) = .ok (py "(255)40123456789010") := by decide +kernel

-- test_valid_sgcn_gs1_key_2 (from element string)
example : (SGCN.fromGs1ElementString (py "(255)40123456789010") 7).map (·.epcUri) = .ok (py "urn:epc:id:sgcn:4012345.67890.0") := by decide +kernel

-- test_valid_sgcn_gs1_key_3 (key)
example : (SGCN.new (py "urn:epc:id:sgcn:4012345.67890.01")).bind (fun x => .ok x.gs1Key) = .ok (py "401234567890101") := by decide +kernel

-- test_valid_sgcn_gs1_key_3 (element string)
example : (SGCN.new (py "urn:epc:id:sgcn:4012345.67890.01")).bind (fun x => x.gs1ElementString) = .ok (py "(255)401234567890101") := by decide +kernel

-- test_valid_sgcn_gs1_key_3 (from element string)
example : (SGCN.fromGs1ElementString (py "(255)401234567890101") 7).map (·.epcUri) = .ok (py "urn:epc:id:sgcn:4012345.67890.01") := by decide +kernel

-- test_valid_sgcn_gs1_key_4 (key)
example : (SGCN.new (py "urn:epc:id:sgcn:401234512345..1")).bind (fun x => .ok x.gs1Key) = .ok (py "40123451234561") := by decide +kernel

-- test_valid_sgcn_gs1_key_4 (element string)
example : (SGCN.new (py "urn:epc:id:sgcn:401234512345..1")).bind (fun x => x.gs1ElementString) = .ok (py "(255)40123451234561") := by decide +kernel

-- test_valid_sgcn_gs1_key_4 (from element string)
example : (SGCN.fromGs1ElementString (py "(255)40123451234561") 12).map (·.epcUri) = .ok (py "urn:epc:id:sgcn:401234512345..1") := by decide +kernel

-- test_valid_sgcn_gs1_key_5 (key)
example : (SGCN.new (py "urn:epc:id:sgcn:401231.123465.999999999999")).bind (fun x => .ok x.gs1Key) = .ok (py "4012311234650999999999999") := by decide +kernel

-- test_valid_sgcn_gs1_key_5 (element string)
example : (SGCN.new (py "urn:epc:id:sgcn:401231.123465.999999999999")).bind (fun x => x.gs1ElementString) = .ok (py "(255)4012311234650999999999999") := by decide +kernel

-- test_valid_sgcn_gs1_key_5 (from element string)
example : (SGCN.fromGs1ElementString (py "(255)4012311234650999999999999") 6).map (·.epcUri) = .ok (py "urn:epc:id:sgcn:401231.123465.999999999999") := by decide +kernel

-- test_valid_sgcn_tag_encodable_1 (tag URI)
example : (SGCN.new (py "urn:epc:id:sgcn:4012345.67890.04711")).bind (fun x => x.tagUri .sgcn96 0) = .ok (py "urn:epc:tag:sgcn-96:0.4012345.67890.04711") := by decide +kernel

-- test_valid_sgcn_tag_encodable_1 (from tag URI)
example : (SGCN.fromTagUri (py "urn:epc:tag:sgcn-96:0.4012345.67890.04711")).map (·.epcUri) = .ok (py "urn:epc:id:sgcn:4012345.67890.04711") := by decide +kernel

-- test_valid_sgcn_tag_encodable_1 (hex)
example : (SGCN.new (py "urn:epc:id:sgcn:4012345.67890.04711")).bind (fun x => x.hex .sgcn96 0) = .ok (py "3F14F4E4E612640000019907") := by decide +kernel

-- test_valid_sgcn_tag_encodable_1 (from hex)
example : (SGCN.fromHex (py "3F14F4E4E612640000019907")).map (·.epcUri) = .ok (py "urn:epc:id:sgcn:4012345.67890.04711") := by decide +kernel

-- test_valid_sgcn_tag_encodable_1 (from base64)
example : ((hexToBase64 (py "3F14F4E4E612640000019907")).bind SGCN.fromBase64).map (·.epcUri) = .ok (py "urn:epc:id:sgcn:4012345.67890.04711") := by decide +kernel

-- test_valid_sgcn_tag_encodable_2 (tag URI)
example : (SGCN.new (py "urn:epc:id:sgcn:4012345.67890.0")).bind (fun x => x.tagUri .sgcn96 0) = .ok (py "urn:epc:tag:sgcn-96:0.4012345.67890.0") := by decide +kernel

-- test_valid_sgcn_tag_encodable_2 (from tag URI)
example : (SGCN.fromTagUri (py "urn:epc:tag:sgcn-96:0.4012345.67890.0")).map (·.epcUri) = .ok (py "urn:epc:id:sgcn:4012345.67890.0") := by decide +kernel

-- test_valid_sgcn_tag_encodable_2 (hex)
example : (SGCN.new (py "urn:epc:id:sgcn:4012345.67890.0")).bind (fun x => x.hex .sgcn96 0) = .ok (py "3F14F4E4E61264000000000A") := by decide +kernel

-- test_valid_sgcn_tag_encodable_2 (from hex)
example : (SGCN.fromHex (py "3F14F4E4E61264000000000A")).map (·.epcUri) = .ok (py "urn:epc:id:sgcn:4012345.67890.0") := by decide +kernel

-- test_valid_sgcn_tag_encodable_2 (from base64)
example : ((hexToBase64 (py "3F14F4E4E61264000000000A")).bind SGCN.fromBase64).map (·.epcUri) = .ok (py "urn:epc:id:sgcn:4012345.67890.0") := by decide +kernel

-- test_valid_sgcn_tag_encodable_3 (tag URI)
example : (SGCN.new (py "urn:epc:id:sgcn:4012345.67890.01")).bind (fun x => x.tagUri .sgcn96 0) = .ok (py "urn:epc:tag:sgcn-96:0.4012345.67890.01") := by decide +kernel

-- test_valid_sgcn_tag_encodable_3 (from tag URI)
example : (SGCN.fromTagUri (py "urn:epc:tag:sgcn-96:0.4012345.67890.01")).map (·.epcUri) = .ok (py "urn:epc:id:sgcn:4012345.67890.01") := by decide +kernel

-- test_valid_sgcn_tag_encodable_3 (hex)
example : (SGCN.new (py "urn:epc:id:sgcn:4012345.67890.01")).bind (fun x => x.hex .sgcn96 0) = .ok (py "3F14F4E4E612640000000065") := by decide +kernel

-- test_valid_sgcn_tag_encodable_3 (from hex)
example : (SGCN.fromHex (py "3F14F4E4E612640000000065")).map (·.epcUri) = .ok (py "urn:epc:id:sgcn:4012345.67890.01") := by decide +kernel

-- test_valid_sgcn_tag_encodable_3 (from base64)
example : ((hexToBase64 (py "3F14F4E4E612640000000065")).bind SGCN.fromBase64).map (·.epcUri) = .ok (py "urn:epc:id:sgcn:4012345.67890.01") := by decide +kernel

-- test_valid_sgcn_tag_encodable_4 (tag URI)
example : (SGCN.new (py "urn:epc:id:sgcn:401234512345..1")).bind (fun x => x.tagUri .sgcn96 7) = .ok (py "urn:epc:tag:sgcn-96:7.401234512345..1") := by decide +kernel

-- test_valid_sgcn_tag_encodable_4 (from tag URI)
example : (SGCN.fromTagUri (py "urn:epc:tag:sgcn-96:7.401234512345..1")).map (·.epcUri) = .ok (py "urn:epc:id:sgcn:401234512345..1") := by decide +kernel

-- test_valid_sgcn_tag_encodable_4 (hex)
example : (SGCN.new (py "urn:epc:id:sgcn:401234512345..1")).bind (fun x => x.hex .sgcn96 7) = .ok (py "3FE175ADC32764000000000B") := by decide +kernel

-- test_valid_sgcn_tag_encodable_4 (from hex)
example : (SGCN.fromHex (py "3FE175ADC32764000000000B")).map (·.epcUri) = .ok (py "urn:epc:id:sgcn:401234512345..1") := by decide +kernel

-- test_valid_sgcn_tag_encodable_4 (from base64)
example : ((hexToBase64 (py "3FE175ADC32764000000000B")).bind SGCN.fromBase64).map (·.epcUri) = .ok (py "urn:epc:id:sgcn:401234512345..1") := by decide +kernel

-- test_valid_sgcn_tag_encodable_5 (tag URI)
example : (SGCN.new (py "urn:epc:id:sgcn:401231.123465.999999999999")).bind (fun x => x.tagUri .sgcn96 7) = .ok (py "urn:epc:tag:sgcn-96:7.401231.123465.999999999999") := by decide +kernel

-- test_valid_sgcn_tag_encodable_5 (from tag URI)
example : (SGCN.fromTagUri (py "urn:epc:tag:sgcn-96:7.401231.123465.999999999999")).map (·.epcUri) = .ok (py "urn:epc:id:sgcn:401231.123465.999999999999") := by decide +kernel

-- test_valid_sgcn_tag_encodable_5 (hex)
example : (SGCN.new (py "urn:epc:id:sgcn:401231.123465.999999999999")).bind (fun x => x.hex .sgcn96 7) = .ok (py "3FF987D3C3C493D1A94A1FFF") := by decide +kernel

-- test_valid_sgcn_tag_encodable_5 (from hex)
example : (SGCN.fromHex (py "3FF987D3C3C493D1A94A1FFF")).map (·.epcUri) = .ok (py "urn:epc:id:sgcn:401231.123465.999999999999") := by decide +kernel

-- test_valid_sgcn_tag_encodable_5 (from base64)
example : ((hexToBase64 (py "3FF987D3C3C493D1A94A1FFF")).bind SGCN.fromBase64).map (·.epcUri) = .ok (py "urn:epc:id:sgcn:401231.123465.999999999999") := by decide +kernel

end Epc.Tests
