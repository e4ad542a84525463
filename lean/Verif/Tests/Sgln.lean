/-
Tests (not proofs): the vectors of /repo/tests/epc_schemes/test_sgln.py evaluated in the model.  Generated by tools/gen_tests.py.
-/
import Verif.Model.Sgln

namespace Epc.Tests

-- test_valid_sgln_1
example : (SGLN.new (py "urn:epc:id:sgln:0614141.12345.400")).map (·.epcUri) = .ok (py "urn:epc:id:sgln:0614141.12345.400") := by decide +kernel

-- test_valid_sgln_2
example : (SGLN.new (py "urn:epc:id:sgln:0614141.12345.0")).map (·.epcUri) = .ok (py "urn:epc:id:sgln:0614141.12345.0") := by decide +kernel

-- test_valid_sgln_3
example : (SGLN.new (py "urn:epc:id:sgln:0614141.12345.01")).map (·.epcUri) = .ok (py "urn:epc:id:sgln:0614141.12345.01") := by decide +kernel

-- test_valid_sgln_4
example : (SGLN.new (py "urn:epc:id:sgln:061411.012345.01")).map (·.epcUri) = .ok (py "urn:epc:id:sgln:061411.012345.01") := by decide +kernel

-- test_valid_sgln_5
example : (SGLN.new (py "urn:epc:id:sgln:061411123456..01")).map (·.epcUri) = .ok (py "urn:epc:id:sgln:061411123456..01") := by decide +kernel

-- test_valid_sgln_6
example : (SGLN.new (py "urn:epc:id:sgln:061411123456..A%2F-BCDEFGHIJKLMNOPQR")).map (·.epcUri) = .ok (py "urn:epc:id:sgln:061411123456..A%2F-BCDEFGHIJKLMNOPQR") := by decide +kernel

-- test_valid_sgln_7
example : (SGLN.new (py "urn:epc:id:sgln:061411123456..2199023255552")).map (·.epcUri) = .ok (py "urn:epc:id:sgln:061411123456..2199023255552") := by decide +kernel

-- test_invalid_sgln_identifier
example : SGLN.new (py "urn:epc:id:sgn:0614141.12345.400") = .error .convert := by decide +kernel

-- test_invalid_sgln_company_prefix_1
example : SGLN.new (py "urn:epc:id:sgln:06141.1234567.400") = .error .convert := by decide +kernel

-- test_invalid_sgln_company_prefix_2
example : SGLN.new (py "urn:epc:id:sgln:0614112222222..400") = .error .convert := by decide +kernel

-- test_invalid_sgln_serial_too_long
example : SGLN.new (py "urn:epc:id:sgln:061411123456..A%2F-BCDEFGHIJKLMNOPQRS") = .error .convert := by decide +kernel

-- test_invalid_sgln_serial_too_short
example : SGLN.new (py "urn:epc:id:sgln:0614141.12345.") = .error .convert := by decide +kernel

-- test_valid_sgln_gs1_key_1 (key)
example : (SGLN.new (py "urn:epc:id:sgln:0614141.12345.400")).bind (fun x => .ok x.gs1Key) = .ok (py "0614141123452") := by decide +kernel

-- test_valid_sgln_gs1_key_1 (element string)
example : (SGLN.new (py "urn:epc:id:sgln:0614141.12345.400")).bind (fun x => x.gs1ElementString) = .ok (py "(414)0614141123452(254)400") := by decide +kernel

-- test_valid_sgln_gs1_key_1 (from element string)
example : (SGLN.fromGs1ElementString (py "(414)0614141123452(254)400") 7).map (·.epcUri) = .ok (py "urn:epc:id:sgln:0614141.12345.400") := by decide +kernel

-- test_valid_sgln_gs1_key_2 (key)
example : (SGLN.new (py "urn:epc:id:sgln:0614141.12345.0")).bind (fun x => .ok x.gs1Key) = .ok (py "0614141123452") := by decide +kernel

-- test_valid_sgln_gs1_key_2 (element string)
example : (SGLN.new (py "urn:epc:id:sgln:0614141.12345.0")).bind (fun x => x.gs1ElementString) = .ok (py "(414)0614141123452(254)0") := by decide +kernel

-- test_valid_sgln_gs1_key_2 (from element string)
example : (SGLN.fromGs1ElementString (py "(414)0614141123452(254)0") 7).map (·.epcUri) = .ok (py "urn:epc:id:sgln:0614141.12345.0") := by decide +kernel

-- test_valid_sgln_gs1_key_3 (key)
example : (SGLN.new (py "urn:epc:id:sgln:0614141.12345.01")).bind (fun x => .ok x.gs1Key) = .ok (py "0614141123452") := by decide +kernel

-- test_valid_sgln_gs1_key_3 (element string)
example : (SGLN.new (py "urn:epc:id:sgln:0614141.12345.01")).bind (fun x => x.gs1ElementString) = .ok (py "(414)0614141123452(254)01") := by decide +kernel

-- test_valid_sgln_gs1_key_3 (from element string)
example : (SGLN.fromGs1ElementString (py "(414)0614141123452(254)01") 7).map (·.epcUri) = .ok (py "urn:epc:id:sgln:0614141.12345.01") := by decide +kernel

-- test_valid_sgln_gs1_key_4 (key)
example : (SGLN.new (py "urn:epc:id:sgln:061411.012345.01")).bind (fun x => .ok x.gs1Key) = .ok (py "0614110123452") := by decide +kernel

-- test_valid_sgln_gs1_key_4 (element string)
example : (SGLN.new (py "urn:epc:id:sgln:061411.012345.01")).bind (fun x => x.gs1ElementString) = .ok (py "(414)0614110123452(254)01") := by decide +kernel

-- test_valid_sgln_gs1_key_4 (from element string)
example : (SGLN.fromGs1ElementString (py "(414)0614110123452(254)01") 6).map (·.epcUri) = .ok (py "urn:epc:id:sgln:061411.012345.01") := by decide +kernel

-- test_valid_sgln_gs1_key_5 (key)
example : (SGLN.new (py "urn:epc:id:sgln:061411123456..01")).bind (fun x => .ok x.gs1Key) = .ok (py "0614111234560") := by decide +kernel

-- test_valid_sgln_gs1_key_5 (element string)
example : (SGLN.new (py "urn:epc:id:sgln:061411123456..01")).bind (fun x => x.gs1ElementString) = .ok (py "(414)0614111234560(254)01") := by decide +kernel

-- test_valid_sgln_gs1_key_5 (from element string)
example : (SGLN.fromGs1ElementString (py "(414)0614111234560(254)01") 12).map (·.epcUri) = .ok (py "urn:epc:id:sgln:061411123456..01") := by decide +kernel

-- test_valid_sgln_gs1_key_6 (key)
example : (SGLN.new (py "urn:epc:id:sgln:061411123456..A%2F-BCDEFGHIJKLMNOPQR")).bind (fun x => .ok x.gs1Key) = .ok (py "0614111234560") := by decide +kernel

-- test_valid_sgln_gs1_key_6 (element string)
example : (SGLN.new (py "urn:epc:id:sgln:061411123456..A%2F-BCDEFGHIJKLMNOPQR")).bind (fun x => x.gs1ElementString) = .ok (py "(414)0614111234560(254)A/-BCDEFGHIJKLMNOPQR") := by decide +kernel

-- test_valid_sgln_gs1_key_6 (from element string)
example : (SGLN.fromGs1ElementString (py "(414)0614111234560(254)A/-BCDEFGHIJKLMNOPQR") 12).map (·.epcUri) = .ok (py "urn:epc:id:sgln:061411123456..A%2F-BCDEFGHIJKLMNOPQR") := by decide +kernel

-- test_valid_sgln_gs1_key_7 (key)
example : (SGLN.new (py "urn:epc:id:sgln:061411123456..2199023255552")).bind (fun x => .ok x.gs1Key) = .ok (py "0614111234560") := by decide +kernel

-- test_valid_sgln_gs1_key_7 (element string)
example : (SGLN.new (py "urn:epc:id:sgln:061411123456..2199023255552")).bind (fun x => x.gs1ElementString) = .ok (py "(414)0614111234560(254)2199023255552") := by decide +kernel

-- test_valid_sgln_gs1_key_7 (from element string)
example : (SGLN.fromGs1ElementString (py "(414)0614111234560(254)2199023255552") 12).map (·.epcUri) = .ok (py "urn:epc:id:sgln:061411123456..2199023255552") := by decide +kernel

-- test_valid_sgln_tag_encodable_1 (tag URI)
example : (SGLN.new (py "urn:epc:id:sgln:0614141.12345.400")).bind (fun x => x.tagUri .sgln96 1) = .ok (py "urn:epc:tag:sgln-96:1.0614141.12345.400") := by decide +kernel

-- test_valid_sgln_tag_encodable_1 (from tag URI)
example : (SGLN.fromTagUri (py "urn:epc:tag:sgln-96:1.0614141.12345.400")).map (·.epcUri) = .ok (py "urn:epc:id:sgln:0614141.12345.400") := by decide +kernel

-- test_valid_sgln_tag_encodable_1 (hex)
example : (SGLN.new (py "urn:epc:id:sgln:0614141.12345.400")).bind (fun x => x.hex .sgln96 1) = .ok (py "3234257BF460720000000190") := by decide +kernel

-- test_valid_sgln_tag_encodable_1 (from hex)
example : (SGLN.fromHex (py "3234257BF460720000000190")).map (·.epcUri) = .ok (py "urn:epc:id:sgln:0614141.12345.400") := by decide +kernel

-- test_valid_sgln_tag_encodable_1 (from base64)
example : ((hexToBase64 (py "3234257BF460720000000190")).bind SGLN.fromBase64).map (·.epcUri) = .ok (py "urn:epc:id:sgln:0614141.12345.400") := by decide +kernel

-- test_valid_sgln_tag_encodable_2 (tag URI)
example : (SGLN.new (py "urn:epc:id:sgln:0614141.12345.0")).bind (fun x => x.tagUri .sgln195 1) = .ok (py "urn:epc:tag:sgln-195:1.0614141.12345.0") := by decide +kernel

-- test_valid_sgln_tag_encodable_2 (from tag URI)
example : (SGLN.fromTagUri (py "urn:epc:tag:sgln-195:1.0614141.12345.0")).map (·.epcUri) = .ok (py "urn:epc:id:sgln:0614141.12345.0") := by decide +kernel

-- test_valid_sgln_tag_encodable_2 (hex)
example : (SGLN.new (py "urn:epc:id:sgln:0614141.12345.0")).bind (fun x => x.hex .sgln195 1) = .ok (py "3934257BF46072C0000000000000000000000000000000000000") := by decide +kernel

-- test_valid_sgln_tag_encodable_2 (from hex)
example : (SGLN.fromHex (py "3934257BF46072C0000000000000000000000000000000000000")).map (·.epcUri) = .ok (py "urn:epc:id:sgln:0614141.12345.0") := by decide +kernel

-- test_valid_sgln_tag_encodable_2 (from base64)
example : ((hexToBase64 (py "3934257BF46072C0000000000000000000000000000000000000")).bind SGLN.fromBase64).map (·.epcUri) = .ok (py "urn:epc:id:sgln:0614141.12345.0") := by decide +kernel

-- test_valid_sgln_tag_encodable_3 (tag URI)
example : (SGLN.new (py "urn:epc:id:sgln:0614141.12345.01")).bind (fun x => x.tagUri .sgln195 0) = .ok (py "urn:epc:tag:sgln-195:0.0614141.12345.01") := by decide +kernel

-- test_valid_sgln_tag_encodable_3 (from tag URI)
example : (SGLN.fromTagUri (py "urn:epc:tag:sgln-195:0.0614141.12345.01")).map (·.epcUri) = .ok (py "urn:epc:id:sgln:0614141.12345.01") := by decide +kernel

-- test_valid_sgln_tag_encodable_3 (hex)
example : (SGLN.new (py "urn:epc:id:sgln:0614141.12345.01")).bind (fun x => x.hex .sgln195 0) = .ok (py "3914257BF46072C1880000000000000000000000000000000000") := by decide +kernel

-- test_valid_sgln_tag_encodable_3 (from hex)
example : (SGLN.fromHex (py "3914257BF46072C1880000000000000000000000000000000000")).map (·.epcUri) = .ok (py "urn:epc:id:sgln:0614141.12345.01") := by decide +kernel

-- test_valid_sgln_tag_encodable_3 (from base64)
example : ((hexToBase64 (py "3914257BF46072C1880000000000000000000000000000000000")).bind SGLN.fromBase64).map (·.epcUri) = .ok (py "urn:epc:id:sgln:0614141.12345.01") := by decide +kernel

-- test_valid_sgln_tag_encodable_4 (tag URI)
example : (SGLN.new (py "urn:epc:id:sgln:061411.012345.01")).bind (fun x => x.tagUri .sgln195 0) = .ok (py "urn:epc:tag:sgln-195:0.061411.012345.01") := by decide +kernel

-- test_valid_sgln_tag_encodable_4 (from tag URI)
example : (SGLN.fromTagUri (py "urn:epc:tag:sgln-195:0.061411.012345.01")).map (·.epcUri) = .ok (py "urn:epc:id:sgln:061411.012345.01") := by decide +kernel

-- test_valid_sgln_tag_encodable_4 (hex)
example : (SGLN.new (py "urn:epc:id:sgln:061411.012345.01")).bind (fun x => x.hex .sgln195 0) = .ok (py "39183BF8C06072C1880000000000000000000000000000000000") := by decide +kernel

-- test_valid_sgln_tag_encodable_4 (from hex)
example : (SGLN.fromHex (py "39183BF8C06072C1880000000000000000000000000000000000")).map (·.epcUri) = .ok (py "urn:epc:id:sgln:061411.012345.01") := by decide +kernel

-- test_valid_sgln_tag_encodable_4 (from base64)
example : ((hexToBase64 (py "39183BF8C06072C1880000000000000000000000000000000000")).bind SGLN.fromBase64).map (·.epcUri) = .ok (py "urn:epc:id:sgln:061411.012345.01") := by decide +kernel

-- test_valid_sgln_tag_encodable_5 (tag URI)
example : (SGLN.new (py "urn:epc:id:sgln:061411123456..01")).bind (fun x => x.tagUri .sgln195 0) = .ok (py "urn:epc:tag:sgln-195:0.061411123456..01") := by decide +kernel

-- test_valid_sgln_tag_encodable_5 (from tag URI)
example : (SGLN.fromTagUri (py "urn:epc:tag:sgln-195:0.061411123456..01")).map (·.epcUri) = .ok (py "urn:epc:id:sgln:061411123456..01") := by decide +kernel

-- test_valid_sgln_tag_encodable_5 (hex)
example : (SGLN.new (py "urn:epc:id:sgln:061411123456..01")).bind (fun x => x.hex .sgln195 0) = .ok (py "390039318D8400C1880000000000000000000000000000000000") := by decide +kernel

-- test_valid_sgln_tag_encodable_5 (from hex)
example : (SGLN.fromHex (py "390039318D8400C1880000000000000000000000000000000000")).map (·.epcUri) = .ok (py "urn:epc:id:sgln:061411123456..01") := by decide +kernel

-- test_valid_sgln_tag_encodable_5 (from base64)
example : ((hexToBase64 (py "390039318D8400C1880000000000000000000000000000000000")).bind SGLN.fromBase64).map (·.epcUri) = .ok (py "urn:epc:id:sgln:061411123456..01") := by decide +kernel

-- test_valid_sgln_tag_encodable_6 (tag URI)
example : (SGLN.new (py "urn:epc:id:sgln:061411123456..A%2F-BCDEFGHIJKLMNOPQR")).bind (fun x => x.tagUri .sgln195 0) = .ok (py "urn:epc:tag:sgln-195:0.061411123456..A%2F-BCDEFGHIJKLMNOPQR") := by decide +kernel

-- test_valid_sgln_tag_encodable_6 (from tag URI)
example : (SGLN.fromTagUri (py "urn:epc:tag:sgln-195:0.061411123456..A%2F-BCDEFGHIJKLMNOPQR")).map (·.epcUri) = .ok (py "urn:epc:id:sgln:061411123456..A%2F-BCDEFGHIJKLMNOPQR") := by decide +kernel

-- test_valid_sgln_tag_encodable_6 (hex)
example : (SGLN.new (py "urn:epc:id:sgln:061411123456..A%2F-BCDEFGHIJKLMNOPQR")).bind (fun x => x.hex .sgln195 0) = .ok (py "390039318D8401057AD850E2458D1E449952E64D9D3E851A4000") := by decide +kernel

-- test_valid_sgln_tag_encodable_6 (from hex)
example : (SGLN.fromHex (py "390039318D8401057AD850E2458D1E449952E64D9D3E851A4000")).map (·.epcUri) = .ok (py "urn:epc:id:sgln:061411123456..A%2F-BCDEFGHIJKLMNOPQR") := by decide +kernel

-- test_valid_sgln_tag_encodable_6 (from base64)
example : ((hexToBase64 (py "390039318D8401057AD850E2458D1E449952E64D9D3E851A4000")).bind SGLN.fromBase64).map (·.epcUri) = .ok (py "urn:epc:id:sgln:061411123456..A%2F-BCDEFGHIJKLMNOPQR") := by decide +kernel

-- test_valid_sgln_tag_encodable_7 (tag URI)
example : (SGLN.new (py "urn:epc:id:sgln:061411123456..2199023255551")).bind (fun x => x.tagUri .sgln96 0) = .ok (py "urn:epc:tag:sgln-96:0.061411123456..2199023255551") := by decide +kernel

-- test_valid_sgln_tag_encodable_7 (from tag URI)
example : (SGLN.fromTagUri (py "urn:epc:tag:sgln-96:0.061411123456..2199023255551")).map (·.epcUri) = .ok (py "urn:epc:id:sgln:061411123456..2199023255551") := by decide +kernel

-- test_valid_sgln_tag_encodable_7 (hex)
example : (SGLN.new (py "urn:epc:id:sgln:061411123456..2199023255551")).bind (fun x => x.hex .sgln96 0) = .ok (py "320039318D8401FFFFFFFFFF") := by decide +kernel

-- test_valid_sgln_tag_encodable_7 (from hex)
example : (SGLN.fromHex (py "320039318D8401FFFFFFFFFF")).map (·.epcUri) = .ok (py "urn:epc:id:sgln:061411123456..2199023255551") := by decide +kernel

-- test_valid_sgln_tag_encodable_7 (from base64)
example : ((hexToBase64 (py "320039318D8401FFFFFFFFFF")).bind SGLN.fromBase64).map (·.epcUri) = .ok (py "urn:epc:id:sgln:061411123456..2199023255551") := by decide +kernel

-- test_valid_sgln_tag_encodable_8 (tag URI)
example : (SGLN.new (py "urn:epc:id:sgln:061411123456..2199023255552")).bind (fun x => x.tagUri .sgln195 0) = .ok (py "urn:epc:tag:sgln-195:0.061411123456..2199023255552") := by decide +kernel

-- test_valid_sgln_tag_encodable_8 (from tag URI)
example : (SGLN.fromTagUri (py "urn:epc:tag:sgln-195:0.061411123456..2199023255552")).map (·.epcUri) = .ok (py "urn:epc:id:sgln:061411123456..2199023255552") := by decide +kernel

-- test_valid_sgln_tag_encodable_8 (hex)
example : (SGLN.new (py "urn:epc:id:sgln:061411123456..2199023255552")).bind (fun x => x.hex .sgln195 0) = .ok (py "390039318D8400C98B972C193364D5AB56AC8000000000000000") := by decide +kernel

-- test_valid_sgln_tag_encodable_8 (from hex)
example : (SGLN.fromHex (py "390039318D8400C98B972C193364D5AB56AC8000000000000000")).map (·.epcUri) = .ok (py "urn:epc:id:sgln:061411123456..2199023255552") := by decide +kernel

-- test_valid_sgln_tag_encodable_8 (from base64)
example : ((hexToBase64 (py "390039318D8400C98B972C193364D5AB56AC8000000000000000")).bind SGLN.fromBase64).map (·.epcUri) = .ok (py "urn:epc:id:sgln:061411123456..2199023255552") := by decide +kernel

-- test_invalid_sgln_tag_encodable_invalid_serial_1
example : (SGLN.new (py "urn:epc:id:sgln:0614141.12345.01")).bind (fun x => x.tagUri .sgln96 0) = .error .convert := by decide +kernel

-- test_invalid_sgln_tag_encodable_invalid_serial_2
example : (SGLN.new (py "urn:epc:id:sgln:061411123456..A%2F-BCDEFGHIJKLMNOPQR")).bind (fun x => x.tagUri .sgln96 0) = .error .convert := by decide +kernel

-- test_invalid_sgln_tag_encodable_invalid_serial_3
example : (SGLN.new (py "urn:epc:id:sgln:061411123456..2199023255552")).bind (fun x => x.tagUri .sgln96 0) = .error .convert := by decide +kernel

end Epc.Tests
