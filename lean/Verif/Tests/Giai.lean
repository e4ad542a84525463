/-
Tests (not proofs): the vectors of /repo/tests/epc_schemes/test_giai.py evaluated in the model.  Generated by tools/gen_tests.py.
-/
import Verif.Model.Giai

namespace Epc.Tests

-- test_valid_giai_1
example : (GIAI.new (py "urn:epc:id:giai:0614141.12345400")).map (·.epcUri) = .ok (py "urn:epc:id:giai:0614141.12345400") := by decide +kernel

-- test_valid_giai_2
example : (GIAI.new (py "urn:epc:id:giai:0614141.0")).map (·.epcUri) = .ok (py "urn:epc:id:giai:0614141.0") := by decide +kernel

-- test_valid_giai_3
example : (GIAI.new (py "urn:epc:id:giai:0614141.1ABc%2FD")).map (·.epcUri) = .ok (py "urn:epc:id:giai:0614141.1ABc%2FD") := by decide +kernel

-- test_valid_giai_4
example : (GIAI.new (py "urn:epc:id:giai:061411.01ABc%2FD")).map (·.epcUri) = .ok (py "urn:epc:id:giai:061411.01ABc%2FD") := by decide +kernel

-- test_valid_giai_5
example : (GIAI.new (py "urn:epc:id:giai:012345.012345678901234567890123")).map (·.epcUri) = .ok (py "urn:epc:id:giai:012345.012345678901234567890123") := by decide +kernel

-- test_valid_giai_6
example : (GIAI.new (py "urn:epc:id:giai:012345678901.012345678901234567")).map (·.epcUri) = .ok (py "urn:epc:id:giai:012345678901.012345678901234567") := by decide +kernel

-- test_invalid_giai_identifier
example : GIAI.new (py "urn:epc:id:gai:061411.01ABc%2FD") = .error .convert := by decide +kernel

-- test_invalid_giai_company_prefix_1
example : GIAI.new (py "urn:epc:id:giai:06141.1ABc%2FD") = .error .convert := by decide +kernel

-- test_invalid_giai_company_prefix_2
example : GIAI.new (py "urn:epc:id:giai:0614111111111.1ABc%2FD") = .error .convert := by decide +kernel

-- test_invalid_giai_serial_too_long_1
example : GIAI.new (py "urn:epc:id:giai:012345.0123456789012345678901234") = .error .convert := by decide +kernel

-- test_invalid_giai_serial_too_long_1
example : GIAI.new (py "urn:epc:id:giai:012345.0123456789012345678901234") = .error .convert := by decide +kernel

-- test_invalid_giai_serial_too_long_2
example : GIAI.new (py "urn:epc:id:giai:012345678901.0123456789012345678") = .error .convert := by decide +kernel

-- test_valid_giai_gs1_key_1 (key)
example : (GIAI.new (py "urn:epc:id:giai:0614141.12345400")).bind (fun x => .ok x.gs1Key) = .ok (py "061414112345400") := by decide +kernel

-- test_valid_giai_gs1_key_1 (element string)
example : (GIAI.new (py "urn:epc:id:giai:0614141.12345400")).bind (fun x => x.gs1ElementString) = .ok (py "(8004)061414112345400") := by decide +kernel

-- test_valid_giai_gs1_key_1 (from element string)
example : (GIAI.fromGs1ElementString (py "(8004)061414112345400") 7).map (·.epcUri) = .ok (py "urn:epc:id:giai:0614141.12345400") := by decide +kernel

-- test_valid_giai_gs1_key_2 (key)
example : (GIAI.new (py "urn:epc:id:giai:0614141.0")).bind (fun x => .ok x.gs1Key) = .ok (py "06141410") := by decide +kernel

-- test_valid_giai_gs1_key_2 (element string)
example : (GIAI.new (py "urn:epc:id:giai:0614141.0")).bind (fun x => x.gs1ElementString) = .ok (py "(8004)06141410") := by decide +kernel

-- test_valid_giai_gs1_key_2 (from element string)
example : (GIAI.fromGs1ElementString (py "(8004)06141410") 7).map (·.epcUri) = .ok (py "urn:epc:id:giai:0614141.0") := by decide +kernel

-- test_valid_giai_gs1_key_3 (key)
example : (GIAI.new (py "urn:epc:id:giai:0614141.1ABc%2FD")).bind (fun x => .ok x.gs1Key) = .ok (py "06141411ABc/D") := by decide +kernel

-- test_valid_giai_gs1_key_3 (element string)
example : (GIAI.new (py "urn:epc:id:giai:0614141.1ABc%2FD")).bind (fun x => x.gs1ElementString) = .ok (py "(8004)06141411ABc/D") := by decide +kernel

-- test_valid_giai_gs1_key_3 (from element string)
example : (GIAI.fromGs1ElementString (py "(8004)06141411ABc/D") 7).map (·.epcUri) = .ok (py "urn:epc:id:giai:0614141.1ABc%2FD") := by decide +kernel

-- test_valid_giai_gs1_key_4 (key)
example : (GIAI.new (py "urn:epc:id:giai:061411.01ABc%2FD")).bind (fun x => .ok x.gs1Key) = .ok (py "06141101ABc/D") := by decide +kernel

-- test_valid_giai_gs1_key_4 (element string)
example : (GIAI.new (py "urn:epc:id:giai:061411.01ABc%2FD")).bind (fun x => x.gs1ElementString) = .ok (py "(8004)06141101ABc/D") := by decide +kernel

-- test_valid_giai_gs1_key_4 (from element string)
example : (GIAI.fromGs1ElementString (py "(8004)06141101ABc/D") 6).map (·.epcUri) = .ok (py "urn:epc:id:giai:061411.01ABc%2FD") := by decide +kernel

-- test_valid_giai_gs1_key_5 (key)
example : (GIAI.new (py "urn:epc:id:giai:012345.012345678901234567890123")).bind (fun x => .ok x.gs1Key) = .ok (py "012345012345678901234567890123") := by decide +kernel

-- test_valid_giai_gs1_key_5 (element string)
example : (GIAI.new (py "urn:epc:id:giai:012345.012345678901234567890123")).bind (fun x => x.gs1ElementString) = .ok (py "(8004)012345012345678901234567890123") := by decide +kernel

-- test_valid_giai_gs1_key_5 (from element string)
example : (GIAI.fromGs1ElementString (py "(8004)012345012345678901234567890123") 6).map (·.epcUri) = .ok (py "urn:epc:id:giai:012345.012345678901234567890123") := by decide +kernel

-- test_valid_giai_gs1_key_6 (key)
example : (GIAI.new (py "urn:epc:id:giai:012345678901.012345678901234567")).bind (fun x => .ok x.gs1Key) = .ok (py "012345678901012345678901234567") := by decide +kernel

-- test_valid_giai_gs1_key_6 (element string)
example : (GIAI.new (py "urn:epc:id:giai:012345678901.012345678901234567")).bind (fun x => x.gs1ElementString) = .ok (py "(8004)012345678901012345678901234567") := by decide +kernel

-- test_valid_giai_gs1_key_6 (from element string)
example : (GIAI.fromGs1ElementString (py "(8004)012345678901012345678901234567") 12).map (·.epcUri) = .ok (py "urn:epc:id:giai:012345678901.012345678901234567") := by decide +kernel

-- test_valid_giai_tag_encodable_1 (tag URI)
example : (GIAI.new (py "urn:epc:id:giai:0614141.12345400")).bind (fun x => x.tagUri .giai202 1) = .ok (py "urn:epc:tag:giai-202:1.0614141.12345400") := by decide +kernel

-- test_valid_giai_tag_encodable_1 (from tag URI)
example : (GIAI.fromTagUri (py "urn:epc:tag:giai-202:1.0614141.12345400")).map (·.epcUri) = .ok (py "urn:epc:id:giai:0614141.12345400") := by decide +kernel

-- test_valid_giai_tag_encodable_1 (hex)
example : (GIAI.new (py "urn:epc:id:giai:0614141.12345400")).bind (fun x => x.hex .giai202 1) = .ok (py "3834257BF58B266D1AB460C00000000000000000000000000000") := by decide +kernel

-- test_valid_giai_tag_encodable_1 (from hex)
example : (GIAI.fromHex (py "3834257BF58B266D1AB460C00000000000000000000000000000")).map (·.epcUri) = .ok (py "urn:epc:id:giai:0614141.12345400") := by decide +kernel

-- test_valid_giai_tag_encodable_1 (from base64)
example : ((hexToBase64 (py "3834257BF58B266D1AB460C00000000000000000000000000000")).bind GIAI.fromBase64).map (·.epcUri) = .ok (py "urn:epc:id:giai:0614141.12345400") := by decide +kernel

-- test_valid_giai_tag_encodable_2 (tag URI)
example : (GIAI.new (py "urn:epc:id:giai:0614141.0")).bind (fun x => x.tagUri .giai96 1) = .ok (py "urn:epc:tag:giai-96:1.0614141.0") := by decide +kernel

-- test_valid_giai_tag_encodable_2 (from tag URI)
example : (GIAI.fromTagUri (py "urn:epc:tag:giai-96:1.0614141.0")).map (·.epcUri) = .ok (py "urn:epc:id:giai:0614141.0") := by decide +kernel

-- test_valid_giai_tag_encodable_2 (hex)
example : (GIAI.new (py "urn:epc:id:giai:0614141.0")).bind (fun x => x.hex .giai96 1) = .ok (py "3434257BF400000000000000") := by decide +kernel

-- test_valid_giai_tag_encodable_2 (from hex)
example : (GIAI.fromHex (py "3434257BF400000000000000")).map (·.epcUri) = .ok (py "urn:epc:id:giai:0614141.0") := by decide +kernel

-- test_valid_giai_tag_encodable_2 (from base64)
example : ((hexToBase64 (py "3434257BF400000000000000")).bind GIAI.fromBase64).map (·.epcUri) = .ok (py "urn:epc:id:giai:0614141.0") := by decide +kernel

-- test_valid_giai_tag_encodable_3 (tag URI)
example : (GIAI.new (py "urn:epc:id:giai:0614141.1ABc%2FD")).bind (fun x => x.tagUri .giai202 0) = .ok (py "urn:epc:tag:giai-202:0.0614141.1ABc%2FD") := by decide +kernel

-- test_valid_giai_tag_encodable_3 (from tag URI)
example : (GIAI.fromTagUri (py "urn:epc:tag:giai-202:0.0614141.1ABc%2FD")).map (·.epcUri) = .ok (py "urn:epc:id:giai:0614141.1ABc%2FD") := by decide +kernel

-- test_valid_giai_tag_encodable_3 (hex)
example : (GIAI.new (py "urn:epc:id:giai:0614141.1ABc%2FD")).bind (fun x => x.hex .giai202 0) = .ok (py "3814257BF58C1858D7C400000000000000000000000000000000") := by decide +kernel

-- test_valid_giai_tag_encodable_3 (from hex)
example : (GIAI.fromHex (py "3814257BF58C1858D7C400000000000000000000000000000000")).map (·.epcUri) = .ok (py "urn:epc:id:giai:0614141.1ABc%2FD") := by decide +kernel

-- test_valid_giai_tag_encodable_3 (from base64)
example : ((hexToBase64 (py "3814257BF58C1858D7C400000000000000000000000000000000")).bind GIAI.fromBase64).map (·.epcUri) = .ok (py "urn:epc:id:giai:0614141.1ABc%2FD") := by decide +kernel

-- test_valid_giai_tag_encodable_4 (tag URI)
example : (GIAI.new (py "urn:epc:id:giai:061411.01ABc%2FD")).bind (fun x => x.tagUri .giai202 4) = .ok (py "urn:epc:tag:giai-202:4.061411.01ABc%2FD") := by decide +kernel

-- test_valid_giai_tag_encodable_4 (from tag URI)
example : (GIAI.fromTagUri (py "urn:epc:tag:giai-202:4.061411.01ABc%2FD")).map (·.epcUri) = .ok (py "urn:epc:id:giai:061411.01ABc%2FD") := by decide +kernel

-- test_valid_giai_tag_encodable_4 (hex)
example : (GIAI.new (py "urn:epc:id:giai:061411.01ABc%2FD")).bind (fun x => x.hex .giai202 4) = .ok (py "38983BF8D831830B1AF880000000000000000000000000000000") := by decide +kernel

-- test_valid_giai_tag_encodable_4 (from hex)
example : (GIAI.fromHex (py "38983BF8D831830B1AF880000000000000000000000000000000")).map (·.epcUri) = .ok (py "urn:epc:id:giai:061411.01ABc%2FD") := by decide +kernel

-- test_valid_giai_tag_encodable_4 (from base64)
example : ((hexToBase64 (py "38983BF8D831830B1AF880000000000000000000000000000000")).bind GIAI.fromBase64).map (·.epcUri) = .ok (py "urn:epc:id:giai:061411.01ABc%2FD") := by decide +kernel

-- test_valid_giai_tag_encodable_5 (tag URI)
example : (GIAI.new (py "urn:epc:id:giai:012345.012345678901234567890123")).bind (fun x => x.tagUri .giai202 1) = .ok (py "urn:epc:tag:giai-202:1.012345.012345678901234567890123") := by decide +kernel

-- test_valid_giai_tag_encodable_5 (from tag URI)
example : (GIAI.fromTagUri (py "urn:epc:tag:giai-202:1.012345.012345678901234567890123")).map (·.epcUri) = .ok (py "urn:epc:id:giai:012345.012345678901234567890123") := by decide +kernel

-- test_valid_giai_tag_encodable_5 (hex)
example : (GIAI.new (py "urn:epc:id:giai:012345.012345678901234567890123")).bind (fun x => x.hex .giai202 1) = .ok (py "38380C0E583164CDA356CDDC3960C593368D5B3770E583164CC0") := by decide +kernel

-- test_valid_giai_tag_encodable_5 (from hex)
example : (GIAI.fromHex (py "38380C0E583164CDA356CDDC3960C593368D5B3770E583164CC0")).map (·.epcUri) = .ok (py "urn:epc:id:giai:012345.012345678901234567890123") := by decide +kernel

-- test_valid_giai_tag_encodable_5 (from base64)
example : ((hexToBase64 (py "38380C0E583164CDA356CDDC3960C593368D5B3770E583164CC0")).bind GIAI.fromBase64).map (·.epcUri) = .ok (py "urn:epc:id:giai:012345.012345678901234567890123") := by decide +kernel

-- test_valid_giai_tag_encodable_6 (tag URI)
example : (GIAI.new (py "urn:epc:id:giai:0614141.12345400")).bind (fun x => x.tagUri .giai96 1) = .ok (py "urn:epc:tag:giai-96:1.0614141.12345400") := by decide +kernel

-- test_valid_giai_tag_encodable_6 (from tag URI)
example : (GIAI.fromTagUri (py "urn:epc:tag:giai-96:1.0614141.12345400")).map (·.epcUri) = .ok (py "urn:epc:id:giai:0614141.12345400") := by decide +kernel

-- test_valid_giai_tag_encodable_6 (hex)
example : (GIAI.new (py "urn:epc:id:giai:0614141.12345400")).bind (fun x => x.hex .giai96 1) = .ok (py "3434257BF400000000BC6038") := by decide +kernel

-- test_valid_giai_tag_encodable_6 (from hex)
example : (GIAI.fromHex (py "3434257BF400000000BC6038")).map (·.epcUri) = .ok (py "urn:epc:id:giai:0614141.12345400") := by decide +kernel

-- test_valid_giai_tag_encodable_6 (from base64)
example : ((hexToBase64 (py "3434257BF400000000BC6038")).bind GIAI.fromBase64).map (·.epcUri) = .ok (py "urn:epc:id:giai:0614141.12345400") := by decide +kernel

-- test_valid_giai_tag_encodable_7 (tag URI)
example : (GIAI.new (py "urn:epc:id:giai:0614141.02")).bind (fun x => x.tagUri .giai202 1) = .ok (py "urn:epc:tag:giai-202:1.0614141.02") := by decide +kernel

-- test_valid_giai_tag_encodable_7 (from tag URI)
example : (GIAI.fromTagUri (py "urn:epc:tag:giai-202:1.0614141.02")).map (·.epcUri) = .ok (py "urn:epc:id:giai:0614141.02") := by decide +kernel

-- test_valid_giai_tag_encodable_7 (hex)
example : (GIAI.new (py "urn:epc:id:giai:0614141.02")).bind (fun x => x.hex .giai202 1) = .ok (py "3834257BF5832000000000000000000000000000000000000000") := by decide +kernel

-- test_valid_giai_tag_encodable_7 (from hex)
example : (GIAI.fromHex (py "3834257BF5832000000000000000000000000000000000000000")).map (·.epcUri) = .ok (py "urn:epc:id:giai:0614141.02") := by decide +kernel

-- test_valid_giai_tag_encodable_7 (from base64)
example : ((hexToBase64 (py "3834257BF5832000000000000000000000000000000000000000")).bind GIAI.fromBase64).map (·.epcUri) = .ok (py "urn:epc:id:giai:0614141.02") := by decide +kernel

-- test_invalid_giai_tag_encodable_invalid_serial_1
example : (GIAI.new (py "urn:epc:id:giai:0614141.02")).bind (fun x => x.tagUri .giai96 1) = .error .convert := by decide +kernel

-- test_invalid_giai_tag_encodable_invalid_serial_2
example : (GIAI.new (py "urn:epc:id:giai:061411.11ABc%2FD")).bind (fun x => x.tagUri .giai96 4) = .error .convert := by decide +kernel

end Epc.Tests
