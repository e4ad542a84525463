/-
Tests (not proofs): the vectors of /repo/tests/epc_schemes/test_ginc.py evaluated in the model.  Generated by tools/gen_tests.py.
-/
import Verif.Model.Ginc

namespace Epc.Tests

-- test_valid_ginc_1
example : (GINC.new (py "urn:epc:id:ginc:0614141.xyz3311cba")).map (·.epcUri) = .ok (py "urn:epc:id:ginc:0614141.xyz3311cba") := by decide +kernel

-- test_valid_ginc_2
example : (GINC.new (py "urn:epc:id:ginc:0614141.0")).map (·.epcUri) = .ok (py "urn:epc:id:ginc:0614141.0") := by decide +kernel

-- test_valid_ginc_3
example : (GINC.new (py "urn:epc:id:ginc:0614141.01")).map (·.epcUri) = .ok (py "urn:epc:id:ginc:0614141.01") := by decide +kernel

-- test_valid_ginc_4
example : (GINC.new (py "urn:epc:id:ginc:061411.01ABc%2FD")).map (·.epcUri) = .ok (py "urn:epc:id:ginc:061411.01ABc%2FD") := by decide +kernel

-- test_valid_ginc_5
example : (GINC.new (py "urn:epc:id:ginc:012345.012345678901234567890123")).map (·.epcUri) = .ok (py "urn:epc:id:ginc:012345.012345678901234567890123") := by decide +kernel

-- test_valid_ginc_6
example : (GINC.new (py "urn:epc:id:ginc:012345678901.012345678901234567")).map (·.epcUri) = .ok (py "urn:epc:id:ginc:012345678901.012345678901234567") := by decide +kernel

-- test_invalid_ginc_identifier
example : GINC.new (py "urn:epc:id:gnc:061411.01ABc%2FD") = .error .convert := by decide +kernel

-- test_invalid_ginc_company_prefix_1
example : GINC.new (py "urn:epc:id:ginc:06141.01ABc%2FD") = .error .convert := by decide +kernel

-- test_invalid_ginc_company_prefix_2
example : GINC.new (py "urn:epc:id:ginc:0614117890123.01ABc%2FD") = .error .convert := by decide +kernel

-- test_invalid_ginc_serial_too_long_1
example : GINC.new (py "urn:epc:id:ginc:012345.0123456789012345678901234") = .error .convert := by decide +kernel

-- test_invalid_ginc_serial_too_long_1
example : GINC.new (py "urn:epc:id:ginc:012345.0123456789012345678901234") = .error .convert := by decide +kernel

-- test_invalid_ginc_serial_too_long_2
example : GINC.new (py "urn:epc:id:ginc:012345678901.0123456789012345678") = .error .convert := by decide +kernel

-- test_valid_ginc_gs1_key_1 (key)
example : (GINC.new (py "urn:epc:id:ginc:0614141.xyz3311cba")).bind (fun x => .ok x.gs1Key) = .ok (py "0614141xyz3311cba") := by decide +kernel

-- test_valid_ginc_gs1_key_1 (element string)
example : (GINC.new (py "urn:epc:id:ginc:0614141.xyz3311cba")).bind (fun x => x.gs1ElementString) = .ok (py "(401)0614141xyz3311cba") := by decide +kernel

-- test_valid_ginc_gs1_key_1 (from element string)
example : (GINC.fromGs1ElementString (py "(401)0614141xyz3311cba") 7).map (·.epcUri) = .ok (py "urn:epc:id:ginc:0614141.xyz3311cba") := by decide +kernel

-- test_valid_ginc_gs1_key_2 (key)
example : (GINC.new (py "urn:epc:id:ginc:0614141.0")).bind (fun x => .ok x.gs1Key) = .ok (py "06141410") := by decide +kernel

-- test_valid_ginc_gs1_key_2 (element string)
example : (GINC.new (py "urn:epc:id:ginc:0614141.0")).bind (fun x => x.gs1ElementString) = .ok (py "(401)06141410") := by decide +kernel

-- test_valid_ginc_gs1_key_2 (from element string)
example : (GINC.fromGs1ElementString (py "(401)06141410") 7).map (·.epcUri) = .ok (py "urn:epc:id:ginc:0614141.0") := by decide +kernel

-- test_valid_ginc_gs1_key_3 (key)
example : (GINC.new (py "urn:epc:id:ginc:0614141.01")).bind (fun x => .ok x.gs1Key) = .ok (py "061414101") := by decide +kernel

-- test_valid_ginc_gs1_key_3 (element string)
example : (GINC.new (py "urn:epc:id:ginc:0614141.01")).bind (fun x => x.gs1ElementString) = .ok (py "(401)061414101") := by decide +kernel

-- test_valid_ginc_gs1_key_3 (from element string)
example : (GINC.fromGs1ElementString (py "(401)061414101") 7).map (·.epcUri) = .ok (py "urn:epc:id:ginc:0614141.01") := by decide +kernel

-- test_valid_ginc_gs1_key_4 (key)
example : (GINC.new (py "urn:epc:id:ginc:061411.01ABc%2FD")).bind (fun x => .ok x.gs1Key) = .ok (py "06141101ABc/D") := by decide +kernel

-- test_valid_ginc_gs1_key_4 (element string)
example : (GINC.new (py "urn:epc:id:ginc:061411.01ABc%2FD")).bind (fun x => x.gs1ElementString) = .ok (py "(401)06141101ABc/D") := by decide +kernel

-- test_valid_ginc_gs1_key_4 (from element string)
example : (GINC.fromGs1ElementString (py "(401)06141101ABc/D") 6).map (·.epcUri) = .ok (py "urn:epc:id:ginc:061411.01ABc%2FD") := by decide +kernel

-- test_valid_ginc_gs1_key_5 (key)
example : (GINC.new (py "urn:epc:id:ginc:012345.012345678901234567890123")).bind (fun x => .ok x.gs1Key) = .ok (py "012345012345678901234567890123") := by decide +kernel

-- test_valid_ginc_gs1_key_5 (element string)
example : (GINC.new (py "urn:epc:id:ginc:012345.012345678901234567890123")).bind (fun x => x.gs1ElementString) = .ok (py "(401)012345012345678901234567890123") := by decide +kernel

-- test_valid_ginc_gs1_key_5 (from element string)
example : (GINC.fromGs1ElementString (py "(401)012345012345678901234567890123") 6).map (·.epcUri) = .ok (py "urn:epc:id:ginc:012345.012345678901234567890123") := by decide +kernel

-- test_valid_ginc_gs1_key_6 (key)
example : (GINC.new (py "urn:epc:id:ginc:012345678901.012345678901234567")).bind (fun x => .ok x.gs1Key) = .ok (py "012345678901012345678901234567") := by decide +kernel

-- test_valid_ginc_gs1_key_6 (element string)
example : (GINC.new (py "urn:epc:id:ginc:012345678901.012345678901234567")).bind (fun x => x.gs1ElementString) = .ok (py "(401)012345678901012345678901234567") := by decide +kernel

-- test_valid_ginc_gs1_key_6 (from element string)
example : (GINC.fromGs1ElementString (py "(401)012345678901012345678901234567") 12).map (·.epcUri) = .ok (py "urn:epc:id:ginc:012345678901.012345678901234567") := by decide +kernel

end Epc.Tests
