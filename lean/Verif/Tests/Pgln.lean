/-
Tests (not proofs): the vectors of /repo/tests/epc_schemes/test_pgln.py evaluated in the model.  Generated by tools/gen_tests.py.
-/
import Verif.Model.Pgln

namespace Epc.Tests

-- test_valid_pgln_1
example : (PGLN.new (py "urn:epc:id:pgln:1234567.89012")).map (·.epcUri) = .ok (py "urn:epc:id:pgln:1234567.89012") := by decide +kernel

-- test_valid_pgln_2
example : (PGLN.new (py "urn:epc:id:pgln:012345678901.")).map (·.epcUri) = .ok (py "urn:epc:id:pgln:012345678901.") := by decide +kernel

-- test_valid_pgln_3
example : (PGLN.new (py "urn:epc:id:pgln:01234567890.0")).map (·.epcUri) = .ok (py "urn:epc:id:pgln:01234567890.0") := by decide +kernel

-- test_valid_pgln_4
example : (PGLN.new (py "urn:epc:id:pgln:0123456789.01")).map (·.epcUri) = .ok (py "urn:epc:id:pgln:0123456789.01") := by decide +kernel

-- test_valid_pgln_5
example : (PGLN.new (py "urn:epc:id:pgln:012345.012345")).map (·.epcUri) = .ok (py "urn:epc:id:pgln:012345.012345") := by decide +kernel

-- test_invalid_pgln_identifier
example : PGLN.new (py "urn:epc:id:gln:012345678901.") = .error .convert := by decide +kernel

-- test_invalid_pgln_company_prefix_1
example : PGLN.new (py "urn:epc:id:pgln:01234.5678901") = .error .convert := by decide +kernel

-- test_invalid_pgln_company_prefix_2
example : PGLN.new (py "urn:epc:id:pgln:0123456789012.") = .error .convert := by decide +kernel

-- test_invalid_pgln_serial_too_long_1
example : PGLN.new (py "urn:epc:id:pgln:012345.5678901") = .error .convert := by decide +kernel

-- test_invalid_pgln_serial_invalid_chars
example : PGLN.new (py "urn:epc:id:pgln:01234.567A01") = .error .convert := by decide +kernel

-- test_valid_pgln_gs1_key_1 (key)
example : (PGLN.new (py "urn:epc:id:pgln:1234567.89012")).bind (fun x => .ok x.gs1Key) = .ok (py "1234567890128") := by decide +kernel

-- test_valid_pgln_gs1_key_1 (element string)
example : (PGLN.new (py "urn:epc:id:pgln:1234567.89012")).bind (fun x => x.gs1ElementString) = .ok (py "(417)1234567890128") := by decide +kernel

-- test_valid_pgln_gs1_key_1 (from element string)
example : (PGLN.fromGs1ElementString (py "(417)1234567890128") 7).map (·.epcUri) = .ok (py "urn:epc:id:pgln:1234567.89012") := by decide +kernel

-- test_valid_pgln_gs1_key_2 (key)
example : (PGLN.new (py "urn:epc:id:pgln:012345678901.")).bind (fun x => .ok x.gs1Key) = .ok (py "0123456789012") := by decide +kernel

-- test_valid_pgln_gs1_key_2 (element string)
example : (PGLN.new (py "urn:epc:id:pgln:012345678901.")).bind (fun x => x.gs1ElementString) = .ok (py "(417)0123456789012") := by decide +kernel

-- test_valid_pgln_gs1_key_2 (from element string)
example : (PGLN.fromGs1ElementString (py "(417)0123456789012") 12).map (·.epcUri) = .ok (py "urn:epc:id:pgln:012345678901.") := by decide +kernel

-- test_valid_pgln_gs1_key_3 (key)
example : (PGLN.new (py "urn:epc:id:pgln:01234567890.0")).bind (fun x => .ok x.gs1Key) = .ok (py "0123456789005") := by decide +kernel

-- test_valid_pgln_gs1_key_3 (element string)
example : (PGLN.new (py "urn:epc:id:pgln:01234567890.0")).bind (fun x => x.gs1ElementString) = .ok (py "(417)0123456789005") := by decide +kernel

-- test_valid_pgln_gs1_key_3 (from element string)
example : (PGLN.fromGs1ElementString (py "(417)0123456789005") 11).map (·.epcUri) = .ok (py "urn:epc:id:pgln:01234567890.0") := by decide +kernel

-- test_valid_pgln_gs1_key_4 (key)
example : (PGLN.new (py "urn:epc:id:pgln:0123456789.01")).bind (fun x => .ok x.gs1Key) = .ok (py "0123456789012") := by decide +kernel

-- test_valid_pgln_gs1_key_4 (element string)
example : (PGLN.new (py "urn:epc:id:pgln:0123456789.01")).bind (fun x => x.gs1ElementString) = .ok (py "(417)0123456789012") := by decide +kernel

-- test_valid_pgln_gs1_key_4 (from element string)
example : (PGLN.fromGs1ElementString (py "(417)0123456789012") 10).map (·.epcUri) = .ok (py "urn:epc:id:pgln:0123456789.01") := by decide +kernel

-- test_valid_pgln_gs1_key_5 (key)
example : (PGLN.new (py "urn:epc:id:pgln:012345.012345")).bind (fun x => .ok x.gs1Key) = .ok (py "0123450123454") := by decide +kernel

-- test_valid_pgln_gs1_key_5 (element string)
example : (PGLN.new (py "urn:epc:id:pgln:012345.012345")).bind (fun x => x.gs1ElementString) = .ok (py "(417)0123450123454") := by decide +kernel

-- test_valid_pgln_gs1_key_5 (from element string)
example : (PGLN.fromGs1ElementString (py "(417)0123450123454") 6).map (·.epcUri) = .ok (py "urn:epc:id:pgln:012345.012345") := by decide +kernel

end Epc.Tests
