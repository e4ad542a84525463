/-
Tests (not proofs): the vectors of /repo/tests/epc_schemes/test_lgtin.py evaluated in the model.  Generated by tools/gen_tests.py.
-/
import Verif.Model.Lgtin

namespace Epc.Tests

-- test_valid_lgtin_1
example : (LGTIN.new (py "urn:epc:class:lgtin:061414.0123456.xyz3311cba")).map (·.epcUri) = .ok (py "urn:epc:class:lgtin:061414.0123456.xyz3311cba") := by decide +kernel

-- test_valid_lgtin_2
example : (LGTIN.new (py "urn:epc:class:lgtin:061414012345.0.0")).map (·.epcUri) = .ok (py "urn:epc:class:lgtin:061414012345.0.0") := by decide +kernel

-- test_valid_lgtin_3
example : (LGTIN.new (py "urn:epc:class:lgtin:061414012345.0.01234567890123456789")).map (·.epcUri) = .ok (py "urn:epc:class:lgtin:061414012345.0.01234567890123456789") := by decide +kernel

-- test_invalid_lgtin_identifier
example : LGTIN.new (py "urn:epc:class:lgtn:06141.10123456.xyz3311cba") = .error .convert := by decide +kernel

-- test_invalid_lgtin_company_prefix_1
example : LGTIN.new (py "urn:epc:class:lgtin:06141.10123456.01ABc%2FD") = .error .convert := by decide +kernel

-- test_invalid_lgtin_company_prefix_2
example : LGTIN.new (py "urn:epc:class:lgtin:0614140123456.0.1") = .error .convert := by decide +kernel

-- test_invalid_lgtin_invalid_component
example : LGTIN.new (py "urn:epc:class:lgtin:06141.0.01ABc%2FD") = .error .convert := by decide +kernel

-- test_invalid_lgtin_serial_too_long_1
example : LGTIN.new (py "urn:epc:class:lgtin:012345.0123456.012345678901234567890") = .error .convert := by decide +kernel

-- test_valid_lgtin_gs1_key_1 (key)
example : (LGTIN.new (py "urn:epc:class:lgtin:50712192365.88..%25:.13%26")).bind (fun x => x.gs1Key .gtin14) = .ok (py "85071219236581") := by decide +kernel

-- test_valid_lgtin_gs1_key_1 (element string)
example : (LGTIN.new (py "urn:epc:class:lgtin:50712192365.88..%25:.13%26")).bind (fun x => x.gs1ElementString) = .ok (py "(01)85071219236581(10).%:.13&") := by decide +kernel

-- test_valid_lgtin_gs1_key_1 (from element string)
example : (LGTIN.fromGs1ElementString (py "(01)85071219236581(10).%:.13&") 11).map (·.epcUri) = .ok (py "urn:epc:class:lgtin:50712192365.88..%25:.13%26") := by decide +kernel

-- test_valid_lgtin_gs1_key_2 (key)
example : (LGTIN.new (py "urn:epc:class:lgtin:00000000000.00.0")).bind (fun x => x.gs1Key .gtin14) = .ok (py "00000000000000") := by decide +kernel

-- test_valid_lgtin_gs1_key_2 (element string)
example : (LGTIN.new (py "urn:epc:class:lgtin:00000000000.00.0")).bind (fun x => x.gs1ElementString) = .ok (py "(01)00000000000000(10)0") := by decide +kernel

-- test_valid_lgtin_gs1_key_2 (from element string)
example : (LGTIN.fromGs1ElementString (py "(01)00000000000000(10)0") 11).map (·.epcUri) = .ok (py "urn:epc:class:lgtin:00000000000.00.0") := by decide +kernel

-- test_valid_lgtin_gs1_key_3 (key)
example : (LGTIN.new (py "urn:epc:class:lgtin:5019265.123588..%25:.13%26")).bind (fun x => x.gs1Key .gtin14) = .ok (py "15019265235883") := by decide +kernel

-- test_valid_lgtin_gs1_key_3 (element string)
example : (LGTIN.new (py "urn:epc:class:lgtin:5019265.123588..%25:.13%26")).bind (fun x => x.gs1ElementString) = .ok (py "(01)15019265235883(10).%:.13&") := by decide +kernel

-- test_valid_lgtin_gs1_key_3 (from element string)
example : (LGTIN.fromGs1ElementString (py "(01)15019265235883(10).%:.13&") 7).map (·.epcUri) = .ok (py "urn:epc:class:lgtin:5019265.123588..%25:.13%26") := by decide +kernel

-- test_valid_lgtin_gs1_key_4 (key)
example : (LGTIN.new (py "urn:epc:class:lgtin:00000950.01093.Serial")).bind (fun x => x.gs1Key .gtin13) = .ok (py "0000095010939") := by decide +kernel

-- test_valid_lgtin_gs1_key_4 (element string)
example : (LGTIN.new (py "urn:epc:class:lgtin:00000950.01093.Serial")).bind (fun x => x.gs1ElementString) = .ok (py "(01)00000095010939(10)Serial") := by decide +kernel

-- test_valid_lgtin_gs1_key_4 (from element string)
example : (LGTIN.fromGs1ElementString (py "(01)00000095010939(10)Serial") 8).map (·.epcUri) = .ok (py "urn:epc:class:lgtin:00000950.01093.Serial") := by decide +kernel

-- test_valid_lgtin_gs1_key_5 (key)
example : (LGTIN.new (py "urn:epc:class:lgtin:00000950.01093.Serial")).bind (fun x => x.gs1Key .gtin12) = .ok (py "000095010939") := by decide +kernel

-- test_valid_lgtin_gs1_key_5 (element string)
example : (LGTIN.new (py "urn:epc:class:lgtin:00000950.01093.Serial")).bind (fun x => x.gs1ElementString) = .ok (py "(01)00000095010939(10)Serial") := by decide +kernel

-- test_valid_lgtin_gs1_key_5 (from element string)
example : (LGTIN.fromGs1ElementString (py "(01)00000095010939(10)Serial") 8).map (·.epcUri) = .ok (py "urn:epc:class:lgtin:00000950.01093.Serial") := by decide +kernel

-- test_valid_lgtin_gs1_key_6 (key)
example : (LGTIN.new (py "urn:epc:class:lgtin:00000950.01093.Serial")).bind (fun x => x.gs1Key .gtin8) = .ok (py "95010939") := by decide +kernel

-- test_valid_lgtin_gs1_key_6 (element string)
example : (LGTIN.new (py "urn:epc:class:lgtin:00000950.01093.Serial")).bind (fun x => x.gs1ElementString) = .ok (py "(01)00000095010939(10)Serial") := by decide +kernel

-- test_valid_lgtin_gs1_key_6 (from element string)
example : (LGTIN.fromGs1ElementString (py "(01)00000095010939(10)Serial") 8).map (·.epcUri) = .ok (py "urn:epc:class:lgtin:00000950.01093.Serial") := by decide +kernel

-- test_invalid_lgtin_gs1_key_too_little_zeros_gtin13
example : (LGTIN.new (py "urn:epc:class:lgtin:5019265.123588..%25:.13%26")).bind (fun x => x.gs1Key .gtin13) = .error .convert := by decide +kernel

-- test_invalid_lgtin_gs1_key_too_little_zeros_gtin12
example : (LGTIN.new (py "urn:epc:class:lgtin:1519265.023588..%25:.13%26")).bind (fun x => x.gs1Key .gtin12) = .error .convert := by decide +kernel

-- test_invalid_lgtin_gs1_key_too_little_zeros_gtin8
example : (LGTIN.new (py "urn:epc:class:lgtin:0000565.023588..%25:.13%26")).bind (fun x => x.gs1Key .gtin8) = .error .convert := by decide +kernel

end Epc.Tests
