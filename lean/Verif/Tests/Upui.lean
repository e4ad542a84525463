/-
Tests (not proofs): the vectors of /repo/tests/epc_schemes/test_upui.py evaluated in the model.  Generated by tools/gen_tests.py.
-/
import Verif.Model.Upui

namespace Epc.Tests

-- test_valid_upui_1
example : (UPUI.new (py "urn:epc:id:upui:1234567.089456.51qIgY)%3C%26Jp3*j7'SDB")).map (·.epcUri) = .ok (py "urn:epc:id:upui:1234567.089456.51qIgY)%3C%26Jp3*j7'SDB") := by decide +kernel

-- test_valid_upui_2
example : (UPUI.new (py "urn:epc:id:upui:123456.0894567.51qIgY)%3C%26Jp3*j7'SDB")).map (·.epcUri) = .ok (py "urn:epc:id:upui:123456.0894567.51qIgY)%3C%26Jp3*j7'SDB") := by decide +kernel

-- test_valid_upui_3
example : (UPUI.new (py "urn:epc:id:upui:123456789012.0.51qIgY)%3C%26Jp3*j7'SDB")).map (·.epcUri) = .ok (py "urn:epc:id:upui:123456789012.0.51qIgY)%3C%26Jp3*j7'SDB") := by decide +kernel

-- test_valid_upui_4
example : (UPUI.new (py "urn:epc:id:upui:123456789012.0.0123456789012346578901234657")).map (·.epcUri) = .ok (py "urn:epc:id:upui:123456789012.0.0123456789012346578901234657") := by decide +kernel

-- test_valid_upui_5
example : (UPUI.new (py "urn:epc:id:upui:123456789012.0.0")).map (·.epcUri) = .ok (py "urn:epc:id:upui:123456789012.0.0") := by decide +kernel

-- test_invalid_upui_identifier
example : UPUI.new (py "urn:epc:id:upi:123456789012.0.0") = .error .convert := by decide +kernel

-- test_invalid_upui_component1_1
example : UPUI.new (py "urn:epc:id:upui:12346.0894567.51qIgY)%3C%26Jp3*j7'SDB") = .error .convert := by decide +kernel

-- test_invalid_upui_component1_2
example : UPUI.new (py "urn:epc:id:upui:1234567890123.0.51qIgY)%3C%26Jp3*j7'SDB") = .error .convert := by decide +kernel

-- test_invalid_upui_serial_too_long
example : UPUI.new (py "urn:epc:id:upui:123456789012.0.01234567890123465789012346578") = .error .convert := by decide +kernel

-- test_invalid_upui_invalid_chars
example : UPUI.new (py "urn:epc:id:upui:123456789012.0.012345678901234%23") = .error .convert := by decide +kernel

-- test_valid_upui_gs1_element_string_1 (element string)
example : (UPUI.new (py "urn:epc:id:upui:1234567.089456.51qIgY)%3C%26Jp3*j7'SDB")).bind (fun x => x.gs1ElementString) = .ok (py "(01)01234567894560(235)51qIgY)<&Jp3*j7'SDB") := by decide +kernel

-- test_valid_upui_gs1_element_string_1 (from element string)
example : (UPUI.fromGs1ElementString (py "(01)01234567894560(235)51qIgY)<&Jp3*j7'SDB") 7).map (·.epcUri) = .ok (py "urn:epc:id:upui:1234567.089456.51qIgY)%3C%26Jp3*j7'SDB") := by decide +kernel

-- test_valid_upui_gs1_element_string_2 (element string)
example : (UPUI.new (py "urn:epc:id:upui:123456.0894567.51qIgY)%3C%26Jp3*j7'SDB")).bind (fun x => x.gs1ElementString) = .ok (py "(01)01234568945674(235)51qIgY)<&Jp3*j7'SDB") := by decide +kernel

-- test_valid_upui_gs1_element_string_2 (from element string)
example : (UPUI.fromGs1ElementString (py "(01)01234568945674(235)51qIgY)<&Jp3*j7'SDB") 6).map (·.epcUri) = .ok (py "urn:epc:id:upui:123456.0894567.51qIgY)%3C%26Jp3*j7'SDB") := by decide +kernel

-- test_valid_upui_gs1_element_string_3 (element string)
example : (UPUI.new (py "urn:epc:id:upui:123456789012.0.51qIgY)%3C%26Jp3*j7'SDB")).bind (fun x => x.gs1ElementString) = .ok (py "(01)01234567890128(235)51qIgY)<&Jp3*j7'SDB") := by decide +kernel

-- test_valid_upui_gs1_element_string_3 (from element string)
example : (UPUI.fromGs1ElementString (py "(01)01234567890128(235)51qIgY)<&Jp3*j7'SDB") 12).map (·.epcUri) = .ok (py "urn:epc:id:upui:123456789012.0.51qIgY)%3C%26Jp3*j7'SDB") := by decide +kernel

-- test_valid_upui_gs1_element_string_4 (element string)
example : (UPUI.new (py "urn:epc:id:upui:123456789012.0.0123456789012346578901234657")).bind (fun x => x.gs1ElementString) = .ok (py "(01)01234567890128(235)0123456789012346578901234657") := by decide +kernel

-- test_valid_upui_gs1_element_string_4 (from element string)
example : (UPUI.fromGs1ElementString (py "(01)01234567890128(235)0123456789012346578901234657") 12).map (·.epcUri) = .ok (py "urn:epc:id:upui:123456789012.0.0123456789012346578901234657") := by decide +kernel

-- test_valid_upui_gs1_element_string_5 (element string)
example : (UPUI.new (py "urn:epc:id:upui:123456789012.0.0")).bind (fun x => x.gs1ElementString) = .ok (py "(01)01234567890128(235)0") := by decide +kernel

-- test_valid_upui_gs1_element_string_5 (from element string)
example : (UPUI.fromGs1ElementString (py "(01)01234567890128(235)0") 12).map (·.epcUri) = .ok (py "urn:epc:id:upui:123456789012.0.0") := by decide +kernel

end Epc.Tests
