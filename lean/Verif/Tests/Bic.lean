/-
Tests (not proofs): the vectors of /repo/tests/epc_schemes/test_bic.py evaluated in the model.  Generated by tools/gen_tests.py.
-/
import Verif.Model.Bic

namespace Epc.Tests

-- test_valid_bic_1
example : (BIC.new (py "urn:epc:id:bic:CSQU3054383")).map (·.epcUri) = .ok (py "urn:epc:id:bic:CSQU3054383") := by decide +kernel

-- test_valid_bic_2
example : (BIC.new (py "urn:epc:id:bic:CSQJ3054381")).map (·.epcUri) = .ok (py "urn:epc:id:bic:CSQJ3054381") := by decide +kernel

-- test_invalid_bic_too_long
example : BIC.new (py "urn:epc:id:bic:CSQJ30543831") = .error .convert := by decide +kernel

-- test_invalid_bic_wrong_catid
example : BIC.new (py "urn:epc:id:bic:CSQA3054383") = .error .convert := by decide +kernel

-- test_invalid_bic_too_many_chars
example : BIC.new (py "urn:epc:id:bic:CSQJA054383") = .error .convert := by decide +kernel

-- test_invalid_bic_wrong_ownercode
example : BIC.new (py "urn:epc:id:bic:CSIJ3054381") = .error .convert := by decide +kernel

end Epc.Tests
