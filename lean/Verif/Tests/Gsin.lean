/-
Tests (not proofs): the vectors of /repo/tests/epc_schemes/test_gsin.py evaluated in the model.  Generated by tools/gen_tests.py.
-/
import Verif.Model.Gsin

namespace Epc.Tests

-- test_valid_gsin_1
example : (GSIN.new (py "urn:epc:id:gsin:0614141.123456789")).map (·.epcUri) = .ok (py "urn:epc:id:gsin:0614141.123456789") := by decide +kernel

-- test_valid_gsin_2
example : (GSIN.new (py "urn:epc:id:gsin:061414112345.0123")).map (·.epcUri) = .ok (py "urn:epc:id:gsin:061414112345.0123") := by decide +kernel

-- test_valid_gsin_3
example : (GSIN.new (py "urn:epc:id:gsin:061414.0123456789")).map (·.epcUri) = .ok (py "urn:epc:id:gsin:061414.0123456789") := by decide +kernel

-- test_valid_gsin_4
example : (GSIN.new (py "urn:epc:id:gsin:061414.0000000000")).map (·.epcUri) = .ok (py "urn:epc:id:gsin:061414.0000000000") := by decide +kernel

-- test_valid_gsin_5
example : (GSIN.new (py "urn:epc:id:gsin:000000.0000000000")).map (·.epcUri) = .ok (py "urn:epc:id:gsin:000000.0000000000") := by decide +kernel

-- test_valid_gsin_6
example : (GSIN.new (py "urn:epc:id:gsin:999999999999.9999")).map (·.epcUri) = .ok (py "urn:epc:id:gsin:999999999999.9999") := by decide +kernel

-- test_valid_gsin_7
example : (GSIN.new (py "urn:epc:id:gsin:999999.9999999999")).map (·.epcUri) = .ok (py "urn:epc:id:gsin:999999.9999999999") := by decide +kernel

-- test_invalid_gsin_identifier
example : GSIN.new (py "urn:epc:id:gsn:999999.9999999999") = .error .convert := by decide +kernel

-- test_invalid_gsin_company_prefix_1
example : GSIN.new (py "urn:epc:id:gsin:9999999999999.999") = .error .convert := by decide +kernel

-- test_invalid_gsin_company_prefix_2
example : GSIN.new (py "urn:epc:id:gsin:99999.99999999999") = .error .convert := by decide +kernel

-- test_invalid_gsin_incorrect_digit_amount_1
example : GSIN.new (py "urn:epc:id:gsin:0123456789:0123456") = .error .convert := by decide +kernel

-- test_invalid_gsin_incorrect_digit_amount_2
example : GSIN.new (py "urn:epc:id:gsin:0123456789:01234") = .error .convert := by decide +kernel

-- test_invalid_gsin_invalid_chars
example : GSIN.new (py "urn:epc:id:gsin:0123456789:0123A4") = .error .convert := by decide +kernel

-- test_valid_gsin_gs1_key_1 (key)
example : (GSIN.new (py "urn:epc:id:gsin:0614141.123456789")).bind (fun x => .ok x.gs1Key) = .ok (py "06141411234567890") := by decide +kernel

-- test_valid_gsin_gs1_key_1 (element string)
example : (GSIN.new (py "urn:epc:id:gsin:0614141.123456789")).bind (fun x => x.gs1ElementString) = .ok (py "(402)06141411234567890") := by decide +kernel

-- test_valid_gsin_gs1_key_1 (from element string)
example : (GSIN.fromGs1ElementString (py "(402)06141411234567890") 7).map (·.epcUri) = .ok (py "urn:epc:id:gsin:0614141.123456789") := by decide +kernel

-- test_valid_gsin_gs1_key_2 (key)
example : (GSIN.new (py "urn:epc:id:gsin:061414112345.0123")).bind (fun x => .ok x.gs1Key) = .ok (py "06141411234501238") := by decide +kernel

-- test_valid_gsin_gs1_key_2 (element string)
example : (GSIN.new (py "urn:epc:id:gsin:061414112345.0123")).bind (fun x => x.gs1ElementString) = .ok (py "(402)06141411234501238") := by decide +kernel

-- test_valid_gsin_gs1_key_2 (from element string)
example : (GSIN.fromGs1ElementString (py "(402)06141411234501238") 12).map (·.epcUri) = .ok (py "urn:epc:id:gsin:061414112345.0123") := by decide +kernel

-- test_valid_gsin_gs1_key_3 (key)
example : (GSIN.new (py "urn:epc:id:gsin:061414.0123456789")).bind (fun x => .ok x.gs1Key) = .ok (py "06141401234567891") := by decide +kernel

-- test_valid_gsin_gs1_key_3 (element string)
example : (GSIN.new (py "urn:epc:id:gsin:061414.0123456789")).bind (fun x => x.gs1ElementString) = .ok (py "(402)06141401234567891") := by decide +kernel

-- test_valid_gsin_gs1_key_3 (from element string)
example : (GSIN.fromGs1ElementString (py "(402)06141401234567891") 6).map (·.epcUri) = .ok (py "urn:epc:id:gsin:061414.0123456789") := by decide +kernel

-- test_valid_gsin_gs1_key_4 (key)
example : (GSIN.new (py "urn:epc:id:gsin:061414.0000000000")).bind (fun x => .ok x.gs1Key) = .ok (py "06141400000000006") := by decide +kernel

-- test_valid_gsin_gs1_key_4 (element string)
example : (GSIN.new (py "urn:epc:id:gsin:061414.0000000000")).bind (fun x => x.gs1ElementString) = .ok (py "(402)06141400000000006") := by decide +kernel

-- test_valid_gsin_gs1_key_4 (from element string)
example : (GSIN.fromGs1ElementString (py "(402)06141400000000006") 6).map (·.epcUri) = .ok (py "urn:epc:id:gsin:061414.0000000000") := by decide +kernel

-- test_valid_gsin_gs1_key_5 (key)
example : (GSIN.new (py "urn:epc:id:gsin:000000.0000000000")).bind (fun x => .ok x.gs1Key) = .ok (py "00000000000000000") := by decide +kernel

-- test_valid_gsin_gs1_key_5 (element string)
example : (GSIN.new (py "urn:epc:id:gsin:000000.0000000000")).bind (fun x => x.gs1ElementString) = .ok (py "(402)00000000000000000") := by decide +kernel

-- test_valid_gsin_gs1_key_5 (from element string)
example : (GSIN.fromGs1ElementString (py "(402)00000000000000000") 6).map (·.epcUri) = .ok (py "urn:epc:id:gsin:000000.0000000000") := by decide +kernel

-- test_valid_gsin_gs1_key_6 (key)
example : (GSIN.new (py "urn:epc:id:gsin:999999999999.9999")).bind (fun x => .ok x.gs1Key) = .ok (py "99999999999999992") := by decide +kernel

-- test_valid_gsin_gs1_key_6 (element string)
example : (GSIN.new (py "urn:epc:id:gsin:999999999999.9999")).bind (fun x => x.gs1ElementString) = .ok (py "(402)99999999999999992") := by decide +kernel

-- test_valid_gsin_gs1_key_6 (from element string)
example : (GSIN.fromGs1ElementString (py "(402)99999999999999992") 12).map (·.epcUri) = .ok (py "urn:epc:id:gsin:999999999999.9999") := by decide +kernel

-- test_valid_gsin_gs1_key_7 (key)
example : (GSIN.new (py "urn:epc:id:gsin:999999.9999999999")).bind (fun x => .ok x.gs1Key) = .ok (py "99999999999999992") := by decide +kernel

-- test_valid_gsin_gs1_key_7 (element string)
example : (GSIN.new (py "urn:epc:id:gsin:999999.9999999999")).bind (fun x => x.gs1ElementString) = .ok (py "(402)99999999999999992") := by decide +kernel

-- test_valid_gsin_gs1_key_7 (from element string)
example : (GSIN.fromGs1ElementString (py "(402)99999999999999992") 6).map (·.epcUri) = .ok (py "urn:epc:id:gsin:999999.9999999999") := by decide +kernel

end Epc.Tests
