/-
Tests (not proofs): the vectors of /repo/tests/epc_schemes/test_itip.py evaluated in the model.  Generated by tools/gen_tests.py.
-/
import Verif.Model.Itip

namespace Epc.Tests

-- test_valid_itip_1
example : (ITIP.new (py "urn:epc:id:itip:4012345.012345.01.02.987")).map (·.epcUri) = .ok (py "urn:epc:id:itip:4012345.012345.01.02.987") := by decide +kernel

-- test_valid_itip_2
example : (ITIP.new (py "urn:epc:id:itip:0123456.012345.00.00.01234567890123456789")).map (·.epcUri) = .ok (py "urn:epc:id:itip:0123456.012345.00.00.01234567890123456789") := by decide +kernel

-- test_valid_itip_3
example : (ITIP.new (py "urn:epc:id:itip:012345678901.0.00.00.01234567890123456789")).map (·.epcUri) = .ok (py "urn:epc:id:itip:012345678901.0.00.00.01234567890123456789") := by decide +kernel

-- test_valid_itip_4
example : (ITIP.new (py "urn:epc:id:itip:012345678901.0.00.00.ABCDEFGHIJKLMNOP%2FRST")).map (·.epcUri) = .ok (py "urn:epc:id:itip:012345678901.0.00.00.ABCDEFGHIJKLMNOP%2FRST") := by decide +kernel

-- test_invalid_itip_identifier
example : ITIP.new (py "urn:epc:id:itp:012345678901.0.00.00.01234567890123456789") = .error .convert := by decide +kernel

-- test_invalid_itip_serial_too_long
example : ITIP.new (py "urn:epc:id:itip:012345678901.0.00.00.012345678901234567890") = .error .convert := by decide +kernel

-- test_invalid_itip_no_serial
example : ITIP.new (py "urn:epc:id:itip:012345678901.0.00.00.") = .error .convert := by decide +kernel

-- test_invalid_itip_company_pref_1
example : ITIP.new (py "urn:epc:id:itip:01234.01234567.00.00.01234567890123456789") = .error .convert := by decide +kernel

-- test_invalid_itip_company_pref_2
example : ITIP.new (py "urn:epc:id:itip:0123456789012.0.00.00.01234567890123456789") = .error .convert := by decide +kernel

-- test_invalid_itip_invalid_piece_1
example : ITIP.new (py "urn:epc:id:itip:012345678901.0.0.00.ABCDEFGHIJKLMNOP%2FRST") = .error .convert := by decide +kernel

-- test_invalid_itip_invalid_piece_2
example : ITIP.new (py "urn:epc:id:itip:012345678901.0.000.00.ABCDEFGHIJKLMNOP%2FRST") = .error .convert := by decide +kernel

-- test_invalid_itip_invalid_total_1
example : ITIP.new (py "urn:epc:id:itip:012345678901.0.00.0.ABCDEFGHIJKLMNOP%2FRST") = .error .convert := by decide +kernel

-- test_invalid_itip_invalid_total_2
example : ITIP.new (py "urn:epc:id:itip:012345678901.0.00.000.ABCDEFGHIJKLMNOP%2FRST") = .error .convert := by decide +kernel

-- test_valid_itip_gs1_element_string_1 (element string)
example : (ITIP.new (py "urn:epc:id:itip:4012345.012345.01.02.987")).bind (fun x => x.gs1ElementString) = .ok (py "(8006)040123451234560102(21)987") := by decide +kernel

-- test_valid_itip_gs1_element_string_1 (from element string)
example : (ITIP.fromGs1ElementString (py "(8006)040123451234560102(21)987") 7).map (·.epcUri) = .ok (py "urn:epc:id:itip:4012345.012345.01.02.987") := by decide +kernel

-- test_valid_itip_gs1_element_string_2 (element string)
example : (ITIP.new (py "urn:epc:id:itip:0123456.012345.00.00.01234567890123456789")).bind (fun x => x.gs1ElementString) = .ok (py "(8006)001234561234580000(21)01234567890123456789") := by decide +kernel

-- test_valid_itip_gs1_element_string_2 (from element string)
example : (ITIP.fromGs1ElementString (py "(8006)001234561234580000(21)01234567890123456789") 7).map (·.epcUri) = .ok (py "urn:epc:id:itip:0123456.012345.00.00.01234567890123456789") := by decide +kernel

-- test_valid_itip_gs1_element_string_3 (element string)
example : (ITIP.new (py "urn:epc:id:itip:012345678901.0.00.00.01234567890123456789")).bind (fun x => x.gs1ElementString) = .ok (py "(8006)001234567890120000(21)01234567890123456789") := by decide +kernel

-- test_valid_itip_gs1_element_string_3 (from element string)
example : (ITIP.fromGs1ElementString (py "(8006)001234567890120000(21)01234567890123456789") 12).map (·.epcUri) = .ok (py "urn:epc:id:itip:012345678901.0.00.00.01234567890123456789") := by decide +kernel

-- test_valid_itip_gs1_element_string_4 (element string)
example : (ITIP.new (py "urn:epc:id:itip:012345678901.0.00.00.ABCDEFGHIJKLMNOP%2FRST")).bind (fun x => x.gs1ElementString) = .ok (py "(8006)001234567890120000(21)ABCDEFGHIJKLMNOP/RST") := by decide +kernel

-- test_valid_itip_gs1_element_string_4 (from element string)
example : (ITIP.fromGs1ElementString (py "(8006)001234567890120000(21)ABCDEFGHIJKLMNOP/RST") 12).map (·.epcUri) = .ok (py "urn:epc:id:itip:012345678901.0.00.00.ABCDEFGHIJKLMNOP%2FRST") := by decide +kernel

-- test_valid_itip_tag_encodable_1 (tag URI)
example : (ITIP.new (py "urn:epc:id:itip:4012345.012345.01.02.987")).bind (fun x => x.tagUri .itip110 7) = .ok (py "urn:epc:tag:itip-110:7.4012345.012345.01.02.987") := by decide +kernel

-- test_valid_itip_tag_encodable_1 (from tag URI)
example : (ITIP.fromTagUri (py "urn:epc:tag:itip-110:7.4012345.012345.01.02.987")).map (·.epcUri) = .ok (py "urn:epc:id:itip:4012345.012345.01.02.987") := by decide +kernel

-- test_valid_itip_tag_encodable_1 (hex)
example : (ITIP.new (py "urn:epc:id:itip:4012345.012345.01.02.987")).bind (fun x => x.hex .itip110 7) = .ok (py "40F4F4E4E40C0E40820000000F6C") := by decide +kernel

-- test_valid_itip_tag_encodable_1 (from hex)
example : (ITIP.fromHex (py "40F4F4E4E40C0E40820000000F6C")).map (·.epcUri) = .ok (py "urn:epc:id:itip:4012345.012345.01.02.987") := by decide +kernel

-- test_valid_itip_tag_encodable_1 (from base64)
example : ((hexToBase64 (py "40F4F4E4E40C0E40820000000F6C")).bind ITIP.fromBase64).map (·.epcUri) = .ok (py "urn:epc:id:itip:4012345.012345.01.02.987") := by decide +kernel

-- test_valid_itip_tag_encodable_2 (tag URI)
example : (ITIP.new (py "urn:epc:id:itip:0123456.012345.00.00.01234567890123456789")).bind (fun x => x.tagUri .itip212 0) = .ok (py "urn:epc:tag:itip-212:0.0123456.012345.00.00.01234567890123456789") := by decide +kernel

-- test_valid_itip_tag_encodable_2 (from tag URI)
example : (ITIP.fromTagUri (py "urn:epc:tag:itip-212:0.0123456.012345.00.00.01234567890123456789")).map (·.epcUri) = .ok (py "urn:epc:id:itip:0123456.012345.00.00.01234567890123456789") := by decide +kernel

-- test_valid_itip_tag_encodable_2 (hex)
example : (ITIP.new (py "urn:epc:id:itip:0123456.012345.00.00.01234567890123456789")).bind (fun x => x.hex .itip212 0) = .ok (py "41140789000C0E400060C593368D5B3770E583164CDA356CDDC39000") := by decide +kernel

-- test_valid_itip_tag_encodable_2 (from hex)
example : (ITIP.fromHex (py "41140789000C0E400060C593368D5B3770E583164CDA356CDDC39000")).map (·.epcUri) = .ok (py "urn:epc:id:itip:0123456.012345.00.00.01234567890123456789") := by decide +kernel

-- test_valid_itip_tag_encodable_2 (from base64)
example : ((hexToBase64 (py "41140789000C0E400060C593368D5B3770E583164CDA356CDDC39000")).bind ITIP.fromBase64).map (·.epcUri) = .ok (py "urn:epc:id:itip:0123456.012345.00.00.01234567890123456789") := by decide +kernel

-- test_valid_itip_tag_encodable_3 (tag URI)
example : (ITIP.new (py "urn:epc:id:itip:012345678901.0.00.00.01234567890123456789")).bind (fun x => x.tagUri .itip212 0) = .ok (py "urn:epc:tag:itip-212:0.012345678901.0.00.00.01234567890123456789") := by decide +kernel

-- test_valid_itip_tag_encodable_3 (from tag URI)
example : (ITIP.fromTagUri (py "urn:epc:tag:itip-212:0.012345678901.0.00.00.01234567890123456789")).map (·.epcUri) = .ok (py "urn:epc:id:itip:012345678901.0.00.00.01234567890123456789") := by decide +kernel

-- test_valid_itip_tag_encodable_3 (hex)
example : (ITIP.new (py "urn:epc:id:itip:012345678901.0.00.00.01234567890123456789")).bind (fun x => x.hex .itip212 0) = .ok (py "41000B7F7070D4000060C593368D5B3770E583164CDA356CDDC39000") := by decide +kernel

-- test_valid_itip_tag_encodable_3 (from hex)
example : (ITIP.fromHex (py "41000B7F7070D4000060C593368D5B3770E583164CDA356CDDC39000")).map (·.epcUri) = .ok (py "urn:epc:id:itip:012345678901.0.00.00.01234567890123456789") := by decide +kernel

-- test_valid_itip_tag_encodable_3 (from base64)
example : ((hexToBase64 (py "41000B7F7070D4000060C593368D5B3770E583164CDA356CDDC39000")).bind ITIP.fromBase64).map (·.epcUri) = .ok (py "urn:epc:id:itip:012345678901.0.00.00.01234567890123456789") := by decide +kernel

-- test_valid_itip_tag_encodable_4 (tag URI)
example : (ITIP.new (py "urn:epc:id:itip:012345678901.0.00.00.ABCDEFGHIJKLMNOP%2FRST")).bind (fun x => x.tagUri .itip212 0) = .ok (py "urn:epc:tag:itip-212:0.012345678901.0.00.00.ABCDEFGHIJKLMNOP%2FRST") := by decide +kernel

-- test_valid_itip_tag_encodable_4 (from tag URI)
example : (ITIP.fromTagUri (py "urn:epc:tag:itip-212:0.012345678901.0.00.00.ABCDEFGHIJKLMNOP%2FRST")).map (·.epcUri) = .ok (py "urn:epc:id:itip:012345678901.0.00.00.ABCDEFGHIJKLMNOP%2FRST") := by decide +kernel

-- test_valid_itip_tag_encodable_4 (hex)
example : (ITIP.new (py "urn:epc:id:itip:012345678901.0.00.00.ABCDEFGHIJKLMNOP%2FRST")).bind (fun x => x.hex .itip212 0) = .ok (py "41000B7F7070D40000830A1C48B1A3C8932A5CC9B3A7D05F4A9D4000") := by decide +kernel

-- test_valid_itip_tag_encodable_4 (from hex)
example : (ITIP.fromHex (py "41000B7F7070D40000830A1C48B1A3C8932A5CC9B3A7D05F4A9D4000")).map (·.epcUri) = .ok (py "urn:epc:id:itip:012345678901.0.00.00.ABCDEFGHIJKLMNOP%2FRST") := by decide +kernel

-- test_valid_itip_tag_encodable_4 (from base64)
example : ((hexToBase64 (py "41000B7F7070D40000830A1C48B1A3C8932A5CC9B3A7D05F4A9D4000")).bind ITIP.fromBase64).map (·.epcUri) = .ok (py "urn:epc:id:itip:012345678901.0.00.00.ABCDEFGHIJKLMNOP%2FRST") := by decide +kernel

-- test_valid_itip_tag_encodable_5 (tag URI)
example : (ITIP.new (py "urn:epc:id:itip:012345678901.0.00.00.274877906943")).bind (fun x => x.tagUri .itip110 0) = .ok (py "urn:epc:tag:itip-110:0.012345678901.0.00.00.274877906943") := by decide +kernel

-- test_valid_itip_tag_encodable_5 (from tag URI)
example : (ITIP.fromTagUri (py "urn:epc:tag:itip-110:0.012345678901.0.00.00.274877906943")).map (·.epcUri) = .ok (py "urn:epc:id:itip:012345678901.0.00.00.274877906943") := by decide +kernel

-- test_valid_itip_tag_encodable_5 (hex)
example : (ITIP.new (py "urn:epc:id:itip:012345678901.0.00.00.274877906943")).bind (fun x => x.hex .itip110 0) = .ok (py "40000B7F7070D40000FFFFFFFFFC") := by decide +kernel

-- test_valid_itip_tag_encodable_5 (from hex)
example : (ITIP.fromHex (py "40000B7F7070D40000FFFFFFFFFC")).map (·.epcUri) = .ok (py "urn:epc:id:itip:012345678901.0.00.00.274877906943") := by decide +kernel

-- test_valid_itip_tag_encodable_5 (from base64)
example : ((hexToBase64 (py "40000B7F7070D40000FFFFFFFFFC")).bind ITIP.fromBase64).map (·.epcUri) = .ok (py "urn:epc:id:itip:012345678901.0.00.00.274877906943") := by decide +kernel

-- test_invalid_itip_tag_encodable_invalid_serial_1
example : (ITIP.new (py "urn:epc:id:itip:0123456.012345.00.00.01234567890123456789")).bind (fun x => x.tagUri .itip110 0) = .error .convert := by decide +kernel

-- test_invalid_itip_tag_encodable_invalid_serial_2
example : (ITIP.new (py "urn:epc:id:itip:012345678901.0.00.00.ABCDEFGHIJKLMNOP%2FRST")).bind (fun x => x.tagUri .itip110 0) = .error .convert := by decide +kernel

-- test_invalid_itip_tag_encodable_invalid_serial_3
example : (ITIP.new (py "urn:epc:id:itip:012345678901.0.00.00.274877906944")).bind (fun x => x.tagUri .itip110 0) = .error .convert := by decide +kernel

end Epc.Tests
