/-
Tests (not proofs): the vectors of /repo/tests/epc_schemes/test_cpi.py evaluated in the model.  Generated by tools/gen_tests.py.
-/
import Verif.Model.Cpi

namespace Epc.Tests

-- test_valid_cpi_1
example : (CPI.new (py "urn:epc:id:cpi:0614141.123ABC.123456789")).map (·.epcUri) = .ok (py "urn:epc:id:cpi:0614141.123ABC.123456789") := by decide +kernel

-- test_valid_cpi_2
example : (CPI.new (py "urn:epc:id:cpi:0614141.12-456.123456789")).map (·.epcUri) = .ok (py "urn:epc:id:cpi:0614141.12-456.123456789") := by decide +kernel

-- test_valid_cpi_3
example : (CPI.new (py "urn:epc:id:cpi:0614141.1%231456.123456789")).map (·.epcUri) = .ok (py "urn:epc:id:cpi:0614141.1%231456.123456789") := by decide +kernel

-- test_valid_cpi_4
example : (CPI.new (py "urn:epc:id:cpi:0614141.123456.0")).map (·.epcUri) = .ok (py "urn:epc:id:cpi:0614141.123456.0") := by decide +kernel

-- test_invalid_cpi_identifier
example : CPI.new (py "urn:epc:id:ci:0614141.123456.0") = .error .convert := by decide +kernel

-- test_invalid_cpi_serial_starting_with_zero
example : CPI.new (py "urn:epc:id:cpi:0614141.123456.01") = .error .convert := by decide +kernel

-- test_invalid_cpi_percent23_wrong_location
example : CPI.new (py "urn:epc:id:cpi:0614141.123456.2%232WMA52") = .error .convert := by decide +kernel

-- test_invalid_cpi_percent23_wrong_location_2
example : CPI.new (py "urn:epc:id:cpi:06%231141.123456.22252") = .error .convert := by decide +kernel

-- test_invalid_cpi_invalid_company_pref
example : CPI.new (py "urn:epc:id:cpi:0641411231321.1%231456.123456789") = .error .convert := by decide +kernel

-- test_invalid_cpi_invalid_company_pref_2
example : CPI.new (py "urn:epc:id:cpi:01234.1%231456.123456789") = .error .convert := by decide +kernel

-- test_invalid_cpi_serial_too_long
example : CPI.new (py "urn:epc:id:cpi:0614141.1%231456.1234567891231") = .error .convert := by decide +kernel

-- test_valid_cpi_gs1_key_1 (element string)
example : (CPI.new (py "urn:epc:id:cpi:0614141.123ABC.123456789")).bind (fun x => x.gs1ElementString) = .ok (py "(8010)0614141123ABC(8011)123456789") := by decide +kernel

-- test_valid_cpi_gs1_key_1 (from element string)
example : (CPI.fromGs1ElementString (py "(8010)0614141123ABC(8011)123456789") 7).map (·.epcUri) = .ok (py "urn:epc:id:cpi:0614141.123ABC.123456789") := by decide +kernel

-- test_valid_cpi_gs1_key_2 (element string)
example : (CPI.new (py "urn:epc:id:cpi:0614141.12-456.123456789")).bind (fun x => x.gs1ElementString) = .ok (py "(8010)061414112-456(8011)123456789") := by decide +kernel

-- test_valid_cpi_gs1_key_2 (from element string)
example : (CPI.fromGs1ElementString (py "(8010)061414112-456(8011)123456789") 7).map (·.epcUri) = .ok (py "urn:epc:id:cpi:0614141.12-456.123456789") := by decide +kernel

-- test_valid_cpi_gs1_key_3 (element string)
example : (CPI.new (py "urn:epc:id:cpi:0614141.1%231456.123456789")).bind (fun x => x.gs1ElementString) = .ok (py "(8010)06141411#1456(8011)123456789") := by decide +kernel

-- test_valid_cpi_gs1_key_3 (from element string)
example : (CPI.fromGs1ElementString (py "(8010)06141411#1456(8011)123456789") 7).map (·.epcUri) = .ok (py "urn:epc:id:cpi:0614141.1%231456.123456789") := by decide +kernel

-- test_valid_cpi_gs1_key_4 (element string)
example : (CPI.new (py "urn:epc:id:cpi:06141412.123456.0")).bind (fun x => x.gs1ElementString) = .ok (py "(8010)06141412123456(8011)0") := by decide +kernel

-- test_valid_cpi_gs1_key_4 (from element string)
example : (CPI.fromGs1ElementString (py "(8010)06141412123456(8011)0") 8).map (·.epcUri) = .ok (py "urn:epc:id:cpi:06141412.123456.0") := by decide +kernel

-- test_valid_cpi_tag_encodable_1 (tag URI)
example : (CPI.new (py "urn:epc:id:cpi:0614141.12-456.123456789")).bind (fun x => x.tagUri .cpiVar 0) = .ok (py "urn:epc:tag:cpi-var:0.0614141.12-456.123456789") := by decide +kernel

-- test_valid_cpi_tag_encodable_1 (from tag URI)
example : (CPI.fromTagUri (py "urn:epc:tag:cpi-var:0.0614141.12-456.123456789")).map (·.epcUri) = .ok (py "urn:epc:id:cpi:0614141.12-456.123456789") := by decide +kernel

-- test_valid_cpi_tag_encodable_1 (hex)
example : (CPI.new (py "urn:epc:id:cpi:0614141.12-456.123456789")).bind (fun x => x.hex .cpiVar 0) = .ok (py "3D14257BF71CADD35D8000075BCD1500") := by decide +kernel

-- test_valid_cpi_tag_encodable_1 (from hex)
example : (CPI.fromHex (py "3D14257BF71CADD35D8000075BCD1500")).map (·.epcUri) = .ok (py "urn:epc:id:cpi:0614141.12-456.123456789") := by decide +kernel

-- test_valid_cpi_tag_encodable_1 (from base64)
example : ((hexToBase64 (py "3D14257BF71CADD35D8000075BCD1500")).bind CPI.fromBase64).map (·.epcUri) = .ok (py "urn:epc:id:cpi:0614141.12-456.123456789") := by decide +kernel

-- test_valid_cpi_tag_encodable_2 (tag URI)
example : (CPI.new (py "urn:epc:id:cpi:0614141.123456.0")).bind (fun x => x.tagUri .cpi96 1) = .ok (py "urn:epc:tag:cpi-96:1.0614141.123456.0") := by decide +kernel

-- test_valid_cpi_tag_encodable_2 (from tag URI)
example : (CPI.fromTagUri (py "urn:epc:tag:cpi-96:1.0614141.123456.0")).map (·.epcUri) = .ok (py "urn:epc:id:cpi:0614141.123456.0") := by decide +kernel

-- test_valid_cpi_tag_encodable_2 (hex)
example : (CPI.new (py "urn:epc:id:cpi:0614141.123456.0")).bind (fun x => x.hex .cpi96 1) = .ok (py "3C34257BF400F12000000000") := by decide +kernel

-- test_valid_cpi_tag_encodable_2 (from hex)
example : (CPI.fromHex (py "3C34257BF400F12000000000")).map (·.epcUri) = .ok (py "urn:epc:id:cpi:0614141.123456.0") := by decide +kernel

-- test_valid_cpi_tag_encodable_2 (from base64)
example : ((hexToBase64 (py "3C34257BF400F12000000000")).bind CPI.fromBase64).map (·.epcUri) = .ok (py "urn:epc:id:cpi:0614141.123456.0") := by decide +kernel

-- test_valid_cpi_tag_encodable_3 (tag URI)
example : (CPI.new (py "urn:epc:id:cpi:0614141.1234567890.0")).bind (fun x => x.tagUri .cpiVar 1) = .ok (py "urn:epc:tag:cpi-var:1.0614141.1234567890.0") := by decide +kernel

-- test_valid_cpi_tag_encodable_3 (from tag URI)
example : (CPI.fromTagUri (py "urn:epc:tag:cpi-var:1.0614141.1234567890.0")).map (·.epcUri) = .ok (py "urn:epc:id:cpi:0614141.1234567890.0") := by decide +kernel

-- test_valid_cpi_tag_encodable_3 (hex)
example : (CPI.new (py "urn:epc:id:cpi:0614141.1234567890.0")).bind (fun x => x.hex .cpiVar 1) = .ok (py "3D34257BF71CB3D35DB7E39C000000000000") := by decide +kernel

-- test_valid_cpi_tag_encodable_3 (from hex)
example : (CPI.fromHex (py "3D34257BF71CB3D35DB7E39C000000000000")).map (·.epcUri) = .ok (py "urn:epc:id:cpi:0614141.1234567890.0") := by decide +kernel

-- test_valid_cpi_tag_encodable_3 (from base64)
example : ((hexToBase64 (py "3D34257BF71CB3D35DB7E39C000000000000")).bind CPI.fromBase64).map (·.epcUri) = .ok (py "urn:epc:id:cpi:0614141.1234567890.0") := by decide +kernel

-- test_valid_cpi_tag_encodable_4 (tag URI)
example : (CPI.new (py "urn:epc:id:cpi:0614141.123467890.100000000000")).bind (fun x => x.tagUri .cpiVar 5) = .ok (py "urn:epc:tag:cpi-var:5.0614141.123467890.100000000000") := by decide +kernel

-- test_valid_cpi_tag_encodable_4 (from tag URI)
example : (CPI.fromTagUri (py "urn:epc:tag:cpi-var:5.0614141.123467890.100000000000")).map (·.epcUri) = .ok (py "urn:epc:id:cpi:0614141.123467890.100000000000") := by decide +kernel

-- test_valid_cpi_tag_encodable_4 (hex)
example : (CPI.new (py "urn:epc:id:cpi:0614141.123467890.100000000000")).bind (fun x => x.hex .cpiVar 5) = .ok (py "3DB4257BF71CB3D36DF8E70005D21DBA0000") := by decide +kernel

-- test_valid_cpi_tag_encodable_4 (from hex)
example : (CPI.fromHex (py "3DB4257BF71CB3D36DF8E70005D21DBA0000")).map (·.epcUri) = .ok (py "urn:epc:id:cpi:0614141.123467890.100000000000") := by decide +kernel

-- test_valid_cpi_tag_encodable_4 (from base64)
example : ((hexToBase64 (py "3DB4257BF71CB3D36DF8E70005D21DBA0000")).bind CPI.fromBase64).map (·.epcUri) = .ok (py "urn:epc:id:cpi:0614141.123467890.100000000000") := by decide +kernel

-- test_invalid_cpi_tag_encodable_invalid_syntax
example : (CPI.new (py "urn:epc:id:cpi:0614141.12-456.123456789")).bind (fun x => x.tagUri .cpi96 0) = .error .convert := by decide +kernel

-- test_invalid_cpi_tag_encodable_invalid_part_length
example : (CPI.new (py "urn:epc:id:cpi:0614141.1234567890.0")).bind (fun x => x.tagUri .cpi96 1) = .error .convert := by decide +kernel

-- test_invalid_cpi_tag_encodable_serial_out_of_range
example : (CPI.new (py "urn:epc:id:cpi:0614141.123467890.100000000000")).bind (fun x => x.tagUri .cpi96 5) = .error .convert := by decide +kernel

end Epc.Tests
