/-
Tests (not proofs): the vectors of /repo/tests/epc_schemes/test_adi.py evaluated in the model.  Generated by tools/gen_tests.py.
-/
import Verif.Model.Adi

namespace Epc.Tests

-- test_valid_adi_1
example : (ADI.new (py "urn:epc:id:adi:W81X9C.3KL984PX1.2WMA-52")).map (·.epcUri) = .ok (py "urn:epc:id:adi:W81X9C.3KL984PX1.2WMA-52") := by decide +kernel

-- test_valid_adi_2
example : (ADI.new (py "urn:epc:id:adi:2S194..12345678901")).map (·.epcUri) = .ok (py "urn:epc:id:adi:2S194..12345678901") := by decide +kernel

-- test_valid_adi_3
example : (ADI.new (py "urn:epc:id:adi:W81X9C.3KL984PX1.%232WMA52")).map (·.epcUri) = .ok (py "urn:epc:id:adi:W81X9C.3KL984PX1.%232WMA52") := by decide +kernel

-- test_valid_adi_4
example : (ADI.new (py "urn:epc:id:adi:W81X9C.3KL984PX1.%232WM%2FA52")).map (·.epcUri) = .ok (py "urn:epc:id:adi:W81X9C.3KL984PX1.%232WM%2FA52") := by decide +kernel

-- test_invalid_adi_identifier
example : ADI.new (py "urn:epc:id:aldi:W81X9C.3KL984PX1.2WMA52") = .error .convert := by decide +kernel

-- test_invalid_adi_no_adi_char
example : ADI.new (py "urn:epc:id:adi:2S194..%23") = .error .convert := by decide +kernel

-- test_invalid_adi_percent23_wrong_location
example : ADI.new (py "urn:epc:id:adi:W81X9C.3KL984PX1.2%232WMA52") = .error .convert := by decide +kernel

-- test_invalid_adi_illegal_char
example : ADI.new (py "urn:epc:id:adi:W81I9C.3KL984IPX1.2") = .error .convert := by decide +kernel

-- test_invalid_adi_too_little_cagecode_or_dodaac
example : ADI.new (py "urn:epc:id:adi:W89C.3KL984IPX1.2") = .error .convert := by decide +kernel

-- test_invalid_adi_too_many_cagecode_or_dodaac
example : ADI.new (py "urn:epc:id:adi:W8AAA9C.3KL984IPX1.2") = .error .convert := by decide +kernel

-- test_invalid_adi_too_many_part_chars
example : ADI.new (py "urn:epc:id:adi:W8AA9C.012345678901234567890123456789012.2") = .error .convert := by decide +kernel

-- test_invalid_adi_too_many_serial_chars
example : ADI.new (py "urn:epc:id:adi:W8AA9C.123.0123456789012345678901234567891") = .error .convert := by decide +kernel

-- test_valid_adi_tag_encodable_1 (tag URI)
example : (ADI.new (py "urn:epc:id:adi:W81X9C.3KL984PX1.2WMA-52")).bind (fun x => x.tagUri .adiVar 5) = .ok (py "urn:epc:tag:adi-var:5.W81X9C.3KL984PX1.2WMA-52") := by decide +kernel

-- test_valid_adi_tag_encodable_1 (from tag URI)
example : (ADI.fromTagUri (py "urn:epc:tag:adi-var:5.W81X9C.3KL984PX1.2WMA-52")).map (·.epcUri) = .ok (py "urn:epc:id:adi:W81X9C.3KL984PX1.2WMA-52") := by decide +kernel

-- test_valid_adi_tag_encodable_1 (hex)
example : (ADI.new (py "urn:epc:id:adi:W81X9C.3KL984PX1.2WMA-52")).bind (fun x => x.hex .adiVar 5) = .ok (py "3B157E316390F32CCE78D106310325CD06DD7200") := by decide +kernel

-- test_valid_adi_tag_encodable_1 (from hex)
example : (ADI.fromHex (py "3B157E316390F32CCE78D106310325CD06DD7200")).map (·.epcUri) = .ok (py "urn:epc:id:adi:W81X9C.3KL984PX1.2WMA-52") := by decide +kernel

-- test_valid_adi_tag_encodable_1 (from base64)
example : ((hexToBase64 (py "3B157E316390F32CCE78D106310325CD06DD7200")).bind ADI.fromBase64).map (·.epcUri) = .ok (py "urn:epc:id:adi:W81X9C.3KL984PX1.2WMA-52") := by decide +kernel

-- test_valid_adi_tag_encodable_2 (tag URI)
example : (ADI.new (py "urn:epc:id:adi:2S194..12345678901")).bind (fun x => x.tagUri .adiVar 23) = .ok (py "urn:epc:tag:adi-var:23.2S194..12345678901") := by decide +kernel

-- test_valid_adi_tag_encodable_2 (from tag URI)
example : (ADI.fromTagUri (py "urn:epc:tag:adi-var:23.2S194..12345678901")).map (·.epcUri) = .ok (py "urn:epc:id:adi:2S194..12345678901") := by decide +kernel

-- test_valid_adi_tag_encodable_2 (hex)
example : (ADI.new (py "urn:epc:id:adi:2S194..12345678901")).bind (fun x => x.hex .adiVar 23) = .ok (py "3B5E0C93C79D00C72CF4D76DF8E70C40") := by decide +kernel

-- test_valid_adi_tag_encodable_2 (from hex)
example : (ADI.fromHex (py "3B5E0C93C79D00C72CF4D76DF8E70C40")).map (·.epcUri) = .ok (py "urn:epc:id:adi:2S194..12345678901") := by decide +kernel

-- test_valid_adi_tag_encodable_2 (from base64)
example : ((hexToBase64 (py "3B5E0C93C79D00C72CF4D76DF8E70C40")).bind ADI.fromBase64).map (·.epcUri) = .ok (py "urn:epc:id:adi:2S194..12345678901") := by decide +kernel

-- test_valid_adi_tag_encodable_3 (tag URI)
example : (ADI.new (py "urn:epc:id:adi:W81X9C.3KL984PX1.%232WMA52")).bind (fun x => x.tagUri .adiVar 12) = .ok (py "urn:epc:tag:adi-var:12.W81X9C.3KL984PX1.%232WMA52") := by decide +kernel

-- test_valid_adi_tag_encodable_3 (from tag URI)
example : (ADI.fromTagUri (py "urn:epc:tag:adi-var:12.W81X9C.3KL984PX1.%232WMA52")).map (·.epcUri) = .ok (py "urn:epc:id:adi:W81X9C.3KL984PX1.%232WMA52") := by decide +kernel

-- test_valid_adi_tag_encodable_3 (hex)
example : (ADI.new (py "urn:epc:id:adi:W81X9C.3KL984PX1.%232WMA52")).bind (fun x => x.hex .adiVar 12) = .ok (py "3B317E316390F32CCE78D10631023C97341D7200") := by decide +kernel

-- test_valid_adi_tag_encodable_3 (from hex)
example : (ADI.fromHex (py "3B317E316390F32CCE78D10631023C97341D7200")).map (·.epcUri) = .ok (py "urn:epc:id:adi:W81X9C.3KL984PX1.%232WMA52") := by decide +kernel

-- test_valid_adi_tag_encodable_3 (from base64)
example : ((hexToBase64 (py "3B317E316390F32CCE78D10631023C97341D7200")).bind ADI.fromBase64).map (·.epcUri) = .ok (py "urn:epc:id:adi:W81X9C.3KL984PX1.%232WMA52") := by decide +kernel

-- test_valid_adi_tag_encodable_4 (tag URI)
example : (ADI.new (py "urn:epc:id:adi:W81X9C.3KL984PX1.%232WM%2FA52")).bind (fun x => x.tagUri .adiVar 1) = .ok (py "urn:epc:tag:adi-var:1.W81X9C.3KL984PX1.%232WM%2FA52") := by decide +kernel

-- test_valid_adi_tag_encodable_4 (from tag URI)
example : (ADI.fromTagUri (py "urn:epc:tag:adi-var:1.W81X9C.3KL984PX1.%232WM%2FA52")).map (·.epcUri) = .ok (py "urn:epc:id:adi:W81X9C.3KL984PX1.%232WM%2FA52") := by decide +kernel

-- test_valid_adi_tag_encodable_4 (hex)
example : (ADI.new (py "urn:epc:id:adi:W81X9C.3KL984PX1.%232WM%2FA52")).bind (fun x => x.hex .adiVar 1) = .ok (py "3B057E316390F32CCE78D10631023C9736F075C80000") := by decide +kernel

-- test_valid_adi_tag_encodable_4 (from hex)
example : (ADI.fromHex (py "3B057E316390F32CCE78D10631023C9736F075C80000")).map (·.epcUri) = .ok (py "urn:epc:id:adi:W81X9C.3KL984PX1.%232WM%2FA52") := by decide +kernel

-- test_valid_adi_tag_encodable_4 (from base64)
example : ((hexToBase64 (py "3B057E316390F32CCE78D10631023C9736F075C80000")).bind ADI.fromBase64).map (·.epcUri) = .ok (py "urn:epc:id:adi:W81X9C.3KL984PX1.%232WM%2FA52") := by decide +kernel

end Epc.Tests
