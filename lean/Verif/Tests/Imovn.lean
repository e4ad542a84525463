/-
Tests (not proofs): the vectors of /repo/tests/epc_schemes/test_imovn.py evaluated in the model.  Generated by tools/gen_tests.py.
-/
import Verif.Model.Imovn

namespace Epc.Tests

-- test_valid_imovn_1
example : (IMOVN.new (py "urn:epc:id:imovn:9176187")).map (·.epcUri) = .ok (py "urn:epc:id:imovn:9176187") := by decide +kernel

-- test_valid_imovn_2
example : (IMOVN.new (py "urn:epc:id:imovn:0123456")).map (·.epcUri) = .ok (py "urn:epc:id:imovn:0123456") := by decide +kernel

-- test_valid_imovn_3
example : (IMOVN.new (py "urn:epc:id:imovn:0000000")).map (·.epcUri) = .ok (py "urn:epc:id:imovn:0000000") := by decide +kernel

-- test_valid_imovn_4
example : (IMOVN.new (py "urn:epc:id:imovn:9999999")).map (·.epcUri) = .ok (py "urn:epc:id:imovn:9999999") := by decide +kernel

-- test_invalid_imovn_identifier
example : IMOVN.new (py "urn:epc:id:imvn:9176187") = .error .convert := by decide +kernel

-- test_invalid_imovn_too_long
example : IMOVN.new (py "urn:epc:id:imovn:91761877") = .error .convert := by decide +kernel

-- test_invalid_imovn_too_short
example : IMOVN.new (py "urn:epc:id:imovn:917618") = .error .convert := by decide +kernel

-- test_invalid_imovn_invalid_chars
example : IMOVN.new (py "urn:epc:id:imovn:91761A7") = .error .convert := by decide +kernel

end Epc.Tests
