/-
Tests (not proofs): the vectors of /repo/tests/utils evaluated in the model.  Generated by tools/gen_tests.py.
-/
import Verif.Model.Parsers

namespace Epc.Tests

-- urn:epc:id:adi:W81X9C.3KL984PX1.2WMA-52
example : epcPureIdentityToScheme (py "urn:epc:id:adi:W81X9C.3KL984PX1.2WMA-52") = (ADI.new (py "urn:epc:id:adi:W81X9C.3KL984PX1.2WMA-52")).map Scheme.adi := by decide +kernel

-- urn:epc:id:adi:W81X9C.3KL984PX1.2WMA-52
example : epcPureIdentityToGs1Element (py "urn:epc:id:adi:W81X9C.3KL984PX1.2WMA-52") = .error .convert := by decide +kernel

-- urn:epc:id:adi:W81X9C.3KL984PX1.2WMA-52
example : epcPureIdentityToGs1Keyed (py "urn:epc:id:adi:W81X9C.3KL984PX1.2WMA-52") = .error .convert := by decide +kernel

-- urn:epc:id:adi:W81X9C.3KL984PX1.2WMA-52
example : epcPureIdentityToTagEncodable (py "urn:epc:id:adi:W81X9C.3KL984PX1.2WMA-52") = (ADI.new (py "urn:epc:id:adi:W81X9C.3KL984PX1.2WMA-52")).map Scheme.adi := by decide +kernel

-- urn:epc:id:adi:W81X9C.3KL984PX1.2WMA-52
example : tagUriToTagEncodable (py "urn:epc:tag:adi-var:5.W81X9C.3KL984PX1.2WMA-52") = (ADI.new (py "urn:epc:id:adi:W81X9C.3KL984PX1.2WMA-52")).map Scheme.adi := by decide +kernel

-- urn:epc:id:adi:W81X9C.3KL984PX1.2WMA-52
example : hexToTagEncodable (py "3B157E316390F32CCE78D106310325CD06DD7200") = (ADI.new (py "urn:epc:id:adi:W81X9C.3KL984PX1.2WMA-52")).map Scheme.adi := by decide +kernel

-- urn:epc:id:adi:W81X9C.3KL984PX1.2WMA-52
example : binaryToTagEncodable (py "0011101100010101011111100011000101100011100100001111001100101100110011100111100011010001000001100011000100000011001001011100110100000110110111010111001000000000") = (ADI.new (py "urn:epc:id:adi:W81X9C.3KL984PX1.2WMA-52")).map Scheme.adi := by decide +kernel

-- urn:epc:id:bic:CSQJ3054381
example : epcPureIdentityToScheme (py "urn:epc:id:bic:CSQJ3054381") = (BIC.new (py "urn:epc:id:bic:CSQJ3054381")).map Scheme.bic := by decide +kernel

-- urn:epc:id:bic:CSQJ3054381
example : epcPureIdentityToGs1Element (py "urn:epc:id:bic:CSQJ3054381") = .error .convert := by decide +kernel

-- urn:epc:id:bic:CSQJ3054381
example : epcPureIdentityToGs1Keyed (py "urn:epc:id:bic:CSQJ3054381") = .error .convert := by decide +kernel

-- urn:epc:id:bic:CSQJ3054381
example : epcPureIdentityToTagEncodable (py "urn:epc:id:bic:CSQJ3054381") = .error .convert := by decide +kernel

-- urn:epc:id:cpi:0614141.12-456.123456789
example : epcPureIdentityToScheme (py "urn:epc:id:cpi:0614141.12-456.123456789") = (CPI.new (py "urn:epc:id:cpi:0614141.12-456.123456789")).map Scheme.cpi := by decide +kernel

-- urn:epc:id:cpi:0614141.12-456.123456789
example : epcPureIdentityToGs1Element (py "urn:epc:id:cpi:0614141.12-456.123456789") = (CPI.new (py "urn:epc:id:cpi:0614141.12-456.123456789")).map Scheme.cpi := by decide +kernel

-- urn:epc:id:cpi:0614141.12-456.123456789
example : epcPureIdentityToGs1Keyed (py "urn:epc:id:cpi:0614141.12-456.123456789") = .error .convert := by decide +kernel

-- urn:epc:id:cpi:0614141.12-456.123456789
example : epcPureIdentityToTagEncodable (py "urn:epc:id:cpi:0614141.12-456.123456789") = (CPI.new (py "urn:epc:id:cpi:0614141.12-456.123456789")).map Scheme.cpi := by decide +kernel

-- urn:epc:id:cpi:0614141.12-456.123456789
example : epcPureIdentityToGs1ElementString (py "urn:epc:id:cpi:0614141.12-456.123456789") = .ok (py "(8010)061414112-456(8011)123456789") := by decide +kernel

-- urn:epc:id:cpi:0614141.12-456.123456789
example : tagUriToTagEncodable (py "urn:epc:tag:cpi-var:0.0614141.12-456.123456789") = (CPI.new (py "urn:epc:id:cpi:0614141.12-456.123456789")).map Scheme.cpi := by decide +kernel

-- urn:epc:id:cpi:0614141.12-456.123456789
example : hexToTagEncodable (py "3D14257BF71CADD35D8000075BCD1500") = (CPI.new (py "urn:epc:id:cpi:0614141.12-456.123456789")).map Scheme.cpi := by decide +kernel

-- urn:epc:id:cpi:0614141.12-456.123456789
example : binaryToTagEncodable (py "00111101000101000010010101111011111101110001110010101101110100110101110110000000000000000000011101011011110011010001010100000000") = (CPI.new (py "urn:epc:id:cpi:0614141.12-456.123456789")).map Scheme.cpi := by decide +kernel

-- urn:epc:id:gdti:0614141.12345.ABCD1234%2F
example : epcPureIdentityToScheme (py "urn:epc:id:gdti:0614141.12345.ABCD1234%2F") = (GDTI.new (py "urn:epc:id:gdti:0614141.12345.ABCD1234%2F")).map Scheme.gdti := by decide +kernel

-- urn:epc:id:gdti:0614141.12345.ABCD1234%2F
example : epcPureIdentityToGs1Element (py "urn:epc:id:gdti:0614141.12345.ABCD1234%2F") = (GDTI.new (py "urn:epc:id:gdti:0614141.12345.ABCD1234%2F")).map Scheme.gdti := by decide +kernel

-- urn:epc:id:gdti:0614141.12345.ABCD1234%2F
example : epcPureIdentityToGs1Keyed (py "urn:epc:id:gdti:0614141.12345.ABCD1234%2F") = (GDTI.new (py "urn:epc:id:gdti:0614141.12345.ABCD1234%2F")).map Scheme.gdti := by decide +kernel

-- urn:epc:id:gdti:0614141.12345.ABCD1234%2F
example : epcPureIdentityToTagEncodable (py "urn:epc:id:gdti:0614141.12345.ABCD1234%2F") = (GDTI.new (py "urn:epc:id:gdti:0614141.12345.ABCD1234%2F")).map Scheme.gdti := by decide +kernel

-- urn:epc:id:gdti:0614141.12345.ABCD1234%2F
example : epcPureIdentityToGs1ElementString (py "urn:epc:id:gdti:0614141.12345.ABCD1234%2F") = .ok (py "(253)0614141123452ABCD1234/") := by decide +kernel

-- urn:epc:id:gdti:0614141.12345.ABCD1234%2F
example : epcPureIdentityToGs1Key (py "urn:epc:id:gdti:0614141.12345.ABCD1234%2F") none = .ok (py "0614141123452ABCD1234/") := by decide +kernel

-- urn:epc:id:gdti:0614141.12345.ABCD1234%2F
example : getGs1Key (py "urn:epc:id:gdti:0614141.12345.ABCD1234%2F") none none = .ok (py "0614141123452ABCD1234/") := by decide +kernel

-- urn:epc:id:gdti:0614141.12345.ABCD1234%2F
example : getGs1Key (py "(253)0614141123452ABCD1234/") (some 7) none = .ok (py "0614141123452ABCD1234/") := by decide +kernel

-- urn:epc:id:gdti:0614141.12345.ABCD1234%2F
example : tagUriToTagEncodable (py "urn:epc:tag:gdti-174:0.0614141.12345.ABCD1234%2F") = (GDTI.new (py "urn:epc:id:gdti:0614141.12345.ABCD1234%2F")).map Scheme.gdti := by decide +kernel

-- urn:epc:id:gdti:0614141.12345.ABCD1234%2F
example : hexToTagEncodable (py "3E14257BF460730614388C593368BC00000000000000") = (GDTI.new (py "urn:epc:id:gdti:0614141.12345.ABCD1234%2F")).map Scheme.gdti := by decide +kernel

-- urn:epc:id:gdti:0614141.12345.ABCD1234%2F
example : binaryToTagEncodable (py "00111110000101000010010101111011111101000110000001110011000001100001010000111000100011000101100100110011011010001011110000000000000000000000000000000000000000000000000000000000") = (GDTI.new (py "urn:epc:id:gdti:0614141.12345.ABCD1234%2F")).map Scheme.gdti := by decide +kernel

-- urn:epc:id:gdti:0614141.12345.ABCD1234%2F
example : getGs1Key (py "urn:epc:tag:gdti-174:0.0614141.12345.ABCD1234%2F") none none = .ok (py "0614141123452ABCD1234/") := by decide +kernel

-- urn:epc:id:gdti:0614141.12345.ABCD1234%2F
example : getGs1Key (py "3E14257BF460730614388C593368BC00000000000000") none none = .ok (py "0614141123452ABCD1234/") := by decide +kernel

-- urn:epc:id:gdti:0614141.12345.ABCD1234%2F
example : getGs1Key (py "00111110000101000010010101111011111101000110000001110011000001100001010000111000100011000101100100110011011010001011110000000000000000000000000000000000000000000000000000000000") none none = .ok (py "0614141123452ABCD1234/") := by decide +kernel

-- urn:epc:id:giai:0614141.1ABc%2FD
example : epcPureIdentityToScheme (py "urn:epc:id:giai:0614141.1ABc%2FD") = (GIAI.new (py "urn:epc:id:giai:0614141.1ABc%2FD")).map Scheme.giai := by decide +kernel

-- urn:epc:id:giai:0614141.1ABc%2FD
example : epcPureIdentityToGs1Element (py "urn:epc:id:giai:0614141.1ABc%2FD") = (GIAI.new (py "urn:epc:id:giai:0614141.1ABc%2FD")).map Scheme.giai := by decide +kernel

-- urn:epc:id:giai:0614141.1ABc%2FD
example : epcPureIdentityToGs1Keyed (py "urn:epc:id:giai:0614141.1ABc%2FD") = (GIAI.new (py "urn:epc:id:giai:0614141.1ABc%2FD")).map Scheme.giai := by decide +kernel

-- urn:epc:id:giai:0614141.1ABc%2FD
example : epcPureIdentityToTagEncodable (py "urn:epc:id:giai:0614141.1ABc%2FD") = (GIAI.new (py "urn:epc:id:giai:0614141.1ABc%2FD")).map Scheme.giai := by decide +kernel

-- urn:epc:id:giai:0614141.1ABc%2FD
example : epcPureIdentityToGs1ElementString (py "urn:epc:id:giai:0614141.1ABc%2FD") = .ok (py "(8004)06141411ABc/D") := by decide +kernel

-- urn:epc:id:giai:0614141.1ABc%2FD
example : epcPureIdentityToGs1Key (py "urn:epc:id:giai:0614141.1ABc%2FD") none = .ok (py "06141411ABc/D") := by decide +kernel

-- urn:epc:id:giai:0614141.1ABc%2FD
example : getGs1Key (py "urn:epc:id:giai:0614141.1ABc%2FD") none none = .ok (py "06141411ABc/D") := by decide +kernel

-- urn:epc:id:giai:0614141.1ABc%2FD
example : getGs1Key (py "(8004)06141411ABc/D") (some 7) none = .ok (py "06141411ABc/D") := by decide +kernel

-- urn:epc:id:giai:0614141.1ABc%2FD
example : tagUriToTagEncodable (py "urn:epc:tag:giai-202:0.0614141.1ABc%2FD") = (GIAI.new (py "urn:epc:id:giai:0614141.1ABc%2FD")).map Scheme.giai := by decide +kernel

-- urn:epc:id:giai:0614141.1ABc%2FD
example : hexToTagEncodable (py "3814257BF58C1858D7C400000000000000000000000000000000") = (GIAI.new (py "urn:epc:id:giai:0614141.1ABc%2FD")).map Scheme.giai := by decide +kernel

-- urn:epc:id:giai:0614141.1ABc%2FD
example : binaryToTagEncodable (py "0011100000010100001001010111101111110101100011000001100001011000110101111100010000000000000000000000000000000000000000000000000000000000000000000000000000000000000000000000000000000000000000000000000000000000") = (GIAI.new (py "urn:epc:id:giai:0614141.1ABc%2FD")).map Scheme.giai := by decide +kernel

-- urn:epc:id:giai:0614141.1ABc%2FD
example : getGs1Key (py "urn:epc:tag:giai-202:0.0614141.1ABc%2FD") none none = .ok (py "06141411ABc/D") := by decide +kernel

-- urn:epc:id:giai:0614141.1ABc%2FD
example : getGs1Key (py "3814257BF58C1858D7C400000000000000000000000000000000") none none = .ok (py "06141411ABc/D") := by decide +kernel

-- urn:epc:id:giai:0614141.1ABc%2FD
example : getGs1Key (py "0011100000010100001001010111101111110101100011000001100001011000110101111100010000000000000000000000000000000000000000000000000000000000000000000000000000000000000000000000000000000000000000000000000000000000") none none = .ok (py "06141411ABc/D") := by decide +kernel

-- urn:epc:id:gid:268435455.16777215.68719476735
example : epcPureIdentityToScheme (py "urn:epc:id:gid:268435455.16777215.68719476735") = (GID.new (py "urn:epc:id:gid:268435455.16777215.68719476735")).map Scheme.gid := by decide +kernel

-- urn:epc:id:gid:268435455.16777215.68719476735
example : epcPureIdentityToGs1Element (py "urn:epc:id:gid:268435455.16777215.68719476735") = .error .convert := by decide +kernel

-- urn:epc:id:gid:268435455.16777215.68719476735
example : epcPureIdentityToGs1Keyed (py "urn:epc:id:gid:268435455.16777215.68719476735") = .error .convert := by decide +kernel

-- urn:epc:id:gid:268435455.16777215.68719476735
example : epcPureIdentityToTagEncodable (py "urn:epc:id:gid:268435455.16777215.68719476735") = (GID.new (py "urn:epc:id:gid:268435455.16777215.68719476735")).map Scheme.gid := by decide +kernel

-- urn:epc:id:gid:268435455.16777215.68719476735
example : tagUriToTagEncodable (py "urn:epc:tag:gid-96:268435455.16777215.68719476735") = (GID.new (py "urn:epc:id:gid:268435455.16777215.68719476735")).map Scheme.gid := by decide +kernel

-- urn:epc:id:gid:268435455.16777215.68719476735
example : hexToTagEncodable (py "35FFFFFFFFFFFFFFFFFFFFFF") = (GID.new (py "urn:epc:id:gid:268435455.16777215.68719476735")).map Scheme.gid := by decide +kernel

-- urn:epc:id:gid:268435455.16777215.68719476735
example : binaryToTagEncodable (py "001101011111111111111111111111111111111111111111111111111111111111111111111111111111111111111111") = (GID.new (py "urn:epc:id:gid:268435455.16777215.68719476735")).map Scheme.gid := by decide +kernel

-- urn:epc:id:ginc:061411.01ABc%2FD
example : epcPureIdentityToScheme (py "urn:epc:id:ginc:061411.01ABc%2FD") = (GINC.new (py "urn:epc:id:ginc:061411.01ABc%2FD")).map Scheme.ginc := by decide +kernel

-- urn:epc:id:ginc:061411.01ABc%2FD
example : epcPureIdentityToGs1Element (py "urn:epc:id:ginc:061411.01ABc%2FD") = (GINC.new (py "urn:epc:id:ginc:061411.01ABc%2FD")).map Scheme.ginc := by decide +kernel

-- urn:epc:id:ginc:061411.01ABc%2FD
example : epcPureIdentityToGs1Keyed (py "urn:epc:id:ginc:061411.01ABc%2FD") = (GINC.new (py "urn:epc:id:ginc:061411.01ABc%2FD")).map Scheme.ginc := by decide +kernel

-- urn:epc:id:ginc:061411.01ABc%2FD
example : epcPureIdentityToTagEncodable (py "urn:epc:id:ginc:061411.01ABc%2FD") = .error .convert := by decide +kernel

-- urn:epc:id:ginc:061411.01ABc%2FD
example : epcPureIdentityToGs1ElementString (py "urn:epc:id:ginc:061411.01ABc%2FD") = .ok (py "(401)06141101ABc/D") := by decide +kernel

-- urn:epc:id:ginc:061411.01ABc%2FD
example : epcPureIdentityToGs1Key (py "urn:epc:id:ginc:061411.01ABc%2FD") none = .ok (py "06141101ABc/D") := by decide +kernel

-- urn:epc:id:ginc:061411.01ABc%2FD
example : getGs1Key (py "urn:epc:id:ginc:061411.01ABc%2FD") none none = .ok (py "06141101ABc/D") := by decide +kernel

-- urn:epc:id:ginc:061411.01ABc%2FD
example : getGs1Key (py "(401)06141101ABc/D") (some 6) none = .ok (py "06141101ABc/D") := by decide +kernel

-- urn:epc:id:grai:0614141.12345.ABCD1234%2F
example : epcPureIdentityToScheme (py "urn:epc:id:grai:0614141.12345.ABCD1234%2F") = (GRAI.new (py "urn:epc:id:grai:0614141.12345.ABCD1234%2F")).map Scheme.grai := by decide +kernel

-- urn:epc:id:grai:0614141.12345.ABCD1234%2F
example : epcPureIdentityToGs1Element (py "urn:epc:id:grai:0614141.12345.ABCD1234%2F") = (GRAI.new (py "urn:epc:id:grai:0614141.12345.ABCD1234%2F")).map Scheme.grai := by decide +kernel

-- urn:epc:id:grai:0614141.12345.ABCD1234%2F
example : epcPureIdentityToGs1Keyed (py "urn:epc:id:grai:0614141.12345.ABCD1234%2F") = (GRAI.new (py "urn:epc:id:grai:0614141.12345.ABCD1234%2F")).map Scheme.grai := by decide +kernel

-- urn:epc:id:grai:0614141.12345.ABCD1234%2F
example : epcPureIdentityToTagEncodable (py "urn:epc:id:grai:0614141.12345.ABCD1234%2F") = (GRAI.new (py "urn:epc:id:grai:0614141.12345.ABCD1234%2F")).map Scheme.grai := by decide +kernel

-- urn:epc:id:grai:0614141.12345.ABCD1234%2F
example : epcPureIdentityToGs1ElementString (py "urn:epc:id:grai:0614141.12345.ABCD1234%2F") = .ok (py "(8003)00614141123452ABCD1234/") := by decide +kernel

-- urn:epc:id:grai:0614141.12345.ABCD1234%2F
example : epcPureIdentityToGs1Key (py "urn:epc:id:grai:0614141.12345.ABCD1234%2F") none = .ok (py "0614141123452ABCD1234/") := by decide +kernel

-- urn:epc:id:grai:0614141.12345.ABCD1234%2F
example : getGs1Key (py "urn:epc:id:grai:0614141.12345.ABCD1234%2F") none none = .ok (py "0614141123452ABCD1234/") := by decide +kernel

-- urn:epc:id:grai:0614141.12345.ABCD1234%2F
example : getGs1Key (py "(8003)00614141123452ABCD1234/") (some 7) none = .ok (py "0614141123452ABCD1234/") := by decide +kernel

-- urn:epc:id:grai:0614141.12345.ABCD1234%2F
example : tagUriToTagEncodable (py "urn:epc:tag:grai-170:0.0614141.12345.ABCD1234%2F") = (GRAI.new (py "urn:epc:id:grai:0614141.12345.ABCD1234%2F")).map Scheme.grai := by decide +kernel

-- urn:epc:id:grai:0614141.12345.ABCD1234%2F
example : hexToTagEncodable (py "3714257BF40C0E60C287118B266D1780000000000000") = (GRAI.new (py "urn:epc:id:grai:0614141.12345.ABCD1234%2F")).map Scheme.grai := by decide +kernel

-- urn:epc:id:grai:0614141.12345.ABCD1234%2F
example : binaryToTagEncodable (py "00110111000101000010010101111011111101000000110000001110011000001100001010000111000100011000101100100110011011010001011110000000000000000000000000000000000000000000000000000000") = (GRAI.new (py "urn:epc:id:grai:0614141.12345.ABCD1234%2F")).map Scheme.grai := by decide +kernel

-- urn:epc:id:grai:0614141.12345.ABCD1234%2F
example : getGs1Key (py "urn:epc:tag:grai-170:0.0614141.12345.ABCD1234%2F") none none = .ok (py "0614141123452ABCD1234/") := by decide +kernel

-- urn:epc:id:grai:0614141.12345.ABCD1234%2F
example : getGs1Key (py "3714257BF40C0E60C287118B266D1780000000000000") none none = .ok (py "0614141123452ABCD1234/") := by decide +kernel

-- urn:epc:id:grai:0614141.12345.ABCD1234%2F
example : getGs1Key (py "00110111000101000010010101111011111101000000110000001110011000001100001010000111000100011000101100100110011011010001011110000000000000000000000000000000000000000000000000000000") none none = .ok (py "0614141123452ABCD1234/") := by decide +kernel

-- urn:epc:id:gsin:061414.0123456789
example : epcPureIdentityToScheme (py "urn:epc:id:gsin:061414.0123456789") = (GSIN.new (py "urn:epc:id:gsin:061414.0123456789")).map Scheme.gsin := by decide +kernel

-- urn:epc:id:gsin:061414.0123456789
example : epcPureIdentityToGs1Element (py "urn:epc:id:gsin:061414.0123456789") = (GSIN.new (py "urn:epc:id:gsin:061414.0123456789")).map Scheme.gsin := by decide +kernel

-- urn:epc:id:gsin:061414.0123456789
example : epcPureIdentityToGs1Keyed (py "urn:epc:id:gsin:061414.0123456789") = (GSIN.new (py "urn:epc:id:gsin:061414.0123456789")).map Scheme.gsin := by decide +kernel

-- urn:epc:id:gsin:061414.0123456789
example : epcPureIdentityToTagEncodable (py "urn:epc:id:gsin:061414.0123456789") = .error .convert := by decide +kernel

-- urn:epc:id:gsin:061414.0123456789
example : epcPureIdentityToGs1ElementString (py "urn:epc:id:gsin:061414.0123456789") = .ok (py "(402)06141401234567891") := by decide +kernel

-- urn:epc:id:gsin:061414.0123456789
example : epcPureIdentityToGs1Key (py "urn:epc:id:gsin:061414.0123456789") none = .ok (py "06141401234567891") := by decide +kernel

-- urn:epc:id:gsin:061414.0123456789
example : getGs1Key (py "urn:epc:id:gsin:061414.0123456789") none none = .ok (py "06141401234567891") := by decide +kernel

-- urn:epc:id:gsin:061414.0123456789
example : getGs1Key (py "(402)06141401234567891") (some 6) none = .ok (py "06141401234567891") := by decide +kernel

-- urn:epc:id:gsrn:012345678901.01234
example : epcPureIdentityToScheme (py "urn:epc:id:gsrn:012345678901.01234") = (GSRN.new (py "urn:epc:id:gsrn:012345678901.01234")).map Scheme.gsrn := by decide +kernel

-- urn:epc:id:gsrn:012345678901.01234
example : epcPureIdentityToGs1Element (py "urn:epc:id:gsrn:012345678901.01234") = (GSRN.new (py "urn:epc:id:gsrn:012345678901.01234")).map Scheme.gsrn := by decide +kernel

-- urn:epc:id:gsrn:012345678901.01234
example : epcPureIdentityToGs1Keyed (py "urn:epc:id:gsrn:012345678901.01234") = (GSRN.new (py "urn:epc:id:gsrn:012345678901.01234")).map Scheme.gsrn := by decide +kernel

-- urn:epc:id:gsrn:012345678901.01234
example : epcPureIdentityToTagEncodable (py "urn:epc:id:gsrn:012345678901.01234") = (GSRN.new (py "urn:epc:id:gsrn:012345678901.01234")).map Scheme.gsrn := by decide +kernel

-- urn:epc:id:gsrn:012345678901.01234
example : epcPureIdentityToGs1ElementString (py "urn:epc:id:gsrn:012345678901.01234") = .ok (py "(8018)012345678901012342") := by decide +kernel

-- urn:epc:id:gsrn:012345678901.01234
example : epcPureIdentityToGs1Key (py "urn:epc:id:gsrn:012345678901.01234") none = .ok (py "012345678901012342") := by decide +kernel

-- urn:epc:id:gsrn:012345678901.01234
example : getGs1Key (py "urn:epc:id:gsrn:012345678901.01234") none none = .ok (py "012345678901012342") := by decide +kernel

-- urn:epc:id:gsrn:012345678901.01234
example : getGs1Key (py "(8018)012345678901012342") (some 12) none = .ok (py "012345678901012342") := by decide +kernel

-- urn:epc:id:gsrn:012345678901.01234
example : tagUriToTagEncodable (py "urn:epc:tag:gsrn-96:0.012345678901.01234") = (GSRN.new (py "urn:epc:id:gsrn:012345678901.01234")).map Scheme.gsrn := by decide +kernel

-- urn:epc:id:gsrn:012345678901.01234
example : hexToTagEncodable (py "2D000B7F7070D404D2000000") = (GSRN.new (py "urn:epc:id:gsrn:012345678901.01234")).map Scheme.gsrn := by decide +kernel

-- urn:epc:id:gsrn:012345678901.01234
example : binaryToTagEncodable (py "001011010000000000001011011111110111000001110000110101000000010011010010000000000000000000000000") = (GSRN.new (py "urn:epc:id:gsrn:012345678901.01234")).map Scheme.gsrn := by decide +kernel

-- urn:epc:id:gsrn:012345678901.01234
example : getGs1Key (py "urn:epc:tag:gsrn-96:0.012345678901.01234") none none = .ok (py "012345678901012342") := by decide +kernel

-- urn:epc:id:gsrn:012345678901.01234
example : getGs1Key (py "2D000B7F7070D404D2000000") none none = .ok (py "012345678901012342") := by decide +kernel

-- urn:epc:id:gsrn:012345678901.01234
example : getGs1Key (py "001011010000000000001011011111110111000001110000110101000000010011010010000000000000000000000000") none none = .ok (py "012345678901012342") := by decide +kernel

-- urn:epc:id:gsrnp:012345678901.01234
example : epcPureIdentityToScheme (py "urn:epc:id:gsrnp:012345678901.01234") = (GSRNP.new (py "urn:epc:id:gsrnp:012345678901.01234")).map Scheme.gsrnp := by decide +kernel

-- urn:epc:id:gsrnp:012345678901.01234
example : epcPureIdentityToGs1Element (py "urn:epc:id:gsrnp:012345678901.01234") = (GSRNP.new (py "urn:epc:id:gsrnp:012345678901.01234")).map Scheme.gsrnp := by decide +kernel

-- urn:epc:id:gsrnp:012345678901.01234
example : epcPureIdentityToGs1Keyed (py "urn:epc:id:gsrnp:012345678901.01234") = (GSRNP.new (py "urn:epc:id:gsrnp:012345678901.01234")).map Scheme.gsrnp := by decide +kernel

-- urn:epc:id:gsrnp:012345678901.01234
example : epcPureIdentityToTagEncodable (py "urn:epc:id:gsrnp:012345678901.01234") = (GSRNP.new (py "urn:epc:id:gsrnp:012345678901.01234")).map Scheme.gsrnp := by decide +kernel

-- urn:epc:id:gsrnp:012345678901.01234
example : epcPureIdentityToGs1ElementString (py "urn:epc:id:gsrnp:012345678901.01234") = .ok (py "(8017)012345678901012342") := by decide +kernel

-- urn:epc:id:gsrnp:012345678901.01234
example : epcPureIdentityToGs1Key (py "urn:epc:id:gsrnp:012345678901.01234") none = .ok (py "012345678901012342") := by decide +kernel

-- urn:epc:id:gsrnp:012345678901.01234
example : getGs1Key (py "urn:epc:id:gsrnp:012345678901.01234") none none = .ok (py "012345678901012342") := by decide +kernel

-- urn:epc:id:gsrnp:012345678901.01234
example : getGs1Key (py "(8017)012345678901012342") (some 12) none = .ok (py "012345678901012342") := by decide +kernel

-- urn:epc:id:gsrnp:012345678901.01234
example : tagUriToTagEncodable (py "urn:epc:tag:gsrnp-96:0.012345678901.01234") = (GSRNP.new (py "urn:epc:id:gsrnp:012345678901.01234")).map Scheme.gsrnp := by decide +kernel

-- urn:epc:id:gsrnp:012345678901.01234
example : hexToTagEncodable (py "2E000B7F7070D404D2000000") = (GSRNP.new (py "urn:epc:id:gsrnp:012345678901.01234")).map Scheme.gsrnp := by decide +kernel

-- urn:epc:id:gsrnp:012345678901.01234
example : binaryToTagEncodable (py "001011100000000000001011011111110111000001110000110101000000010011010010000000000000000000000000") = (GSRNP.new (py "urn:epc:id:gsrnp:012345678901.01234")).map Scheme.gsrnp := by decide +kernel

-- urn:epc:id:gsrnp:012345678901.01234
example : getGs1Key (py "urn:epc:tag:gsrnp-96:0.012345678901.01234") none none = .ok (py "012345678901012342") := by decide +kernel

-- urn:epc:id:gsrnp:012345678901.01234
example : getGs1Key (py "2E000B7F7070D404D2000000") none none = .ok (py "012345678901012342") := by decide +kernel

-- urn:epc:id:gsrnp:012345678901.01234
example : getGs1Key (py "001011100000000000001011011111110111000001110000110101000000010011010010000000000000000000000000") none none = .ok (py "012345678901012342") := by decide +kernel

-- urn:epc:id:imovn:9176187
example : epcPureIdentityToScheme (py "urn:epc:id:imovn:9176187") = (IMOVN.new (py "urn:epc:id:imovn:9176187")).map Scheme.imovn := by decide +kernel

-- urn:epc:id:imovn:9176187
example : epcPureIdentityToGs1Element (py "urn:epc:id:imovn:9176187") = .error .convert := by decide +kernel

-- urn:epc:id:imovn:9176187
example : epcPureIdentityToGs1Keyed (py "urn:epc:id:imovn:9176187") = .error .convert := by decide +kernel

-- urn:epc:id:imovn:9176187
example : epcPureIdentityToTagEncodable (py "urn:epc:id:imovn:9176187") = .error .convert := by decide +kernel

-- urn:epc:id:itip:012345678901.0.00.00.ABCDEFGHIJKLMNOP%2FRST
example : epcPureIdentityToScheme (py "urn:epc:id:itip:012345678901.0.00.00.ABCDEFGHIJKLMNOP%2FRST") = (ITIP.new (py "urn:epc:id:itip:012345678901.0.00.00.ABCDEFGHIJKLMNOP%2FRST")).map Scheme.itip := by decide +kernel

-- urn:epc:id:itip:012345678901.0.00.00.ABCDEFGHIJKLMNOP%2FRST
example : epcPureIdentityToGs1Element (py "urn:epc:id:itip:012345678901.0.00.00.ABCDEFGHIJKLMNOP%2FRST") = (ITIP.new (py "urn:epc:id:itip:012345678901.0.00.00.ABCDEFGHIJKLMNOP%2FRST")).map Scheme.itip := by decide +kernel

-- urn:epc:id:itip:012345678901.0.00.00.ABCDEFGHIJKLMNOP%2FRST
example : epcPureIdentityToGs1Keyed (py "urn:epc:id:itip:012345678901.0.00.00.ABCDEFGHIJKLMNOP%2FRST") = .error .convert := by decide +kernel

-- urn:epc:id:itip:012345678901.0.00.00.ABCDEFGHIJKLMNOP%2FRST
example : epcPureIdentityToTagEncodable (py "urn:epc:id:itip:012345678901.0.00.00.ABCDEFGHIJKLMNOP%2FRST") = (ITIP.new (py "urn:epc:id:itip:012345678901.0.00.00.ABCDEFGHIJKLMNOP%2FRST")).map Scheme.itip := by decide +kernel

-- urn:epc:id:itip:012345678901.0.00.00.ABCDEFGHIJKLMNOP%2FRST
example : epcPureIdentityToGs1ElementString (py "urn:epc:id:itip:012345678901.0.00.00.ABCDEFGHIJKLMNOP%2FRST") = .ok (py "(8006)001234567890120000(21)ABCDEFGHIJKLMNOP/RST") := by decide +kernel

-- urn:epc:id:itip:012345678901.0.00.00.ABCDEFGHIJKLMNOP%2FRST
example : tagUriToTagEncodable (py "urn:epc:tag:itip-212:0.012345678901.0.00.00.ABCDEFGHIJKLMNOP%2FRST") = (ITIP.new (py "urn:epc:id:itip:012345678901.0.00.00.ABCDEFGHIJKLMNOP%2FRST")).map Scheme.itip := by decide +kernel

-- urn:epc:id:itip:012345678901.0.00.00.ABCDEFGHIJKLMNOP%2FRST
example : hexToTagEncodable (py "41000B7F7070D40000830A1C48B1A3C8932A5CC9B3A7D05F4A9D4000") = (ITIP.new (py "urn:epc:id:itip:012345678901.0.00.00.ABCDEFGHIJKLMNOP%2FRST")).map Scheme.itip := by decide +kernel

-- urn:epc:id:itip:012345678901.0.00.00.ABCDEFGHIJKLMNOP%2FRST
example : binaryToTagEncodable (py "01000001000000000000101101111111011100000111000011010100000000000000000010000011000010100001110001001000101100011010001111001000100100110010101001011100110010011011001110100111110100000101111101001010100111010100000000000000") = (ITIP.new (py "urn:epc:id:itip:012345678901.0.00.00.ABCDEFGHIJKLMNOP%2FRST")).map Scheme.itip := by decide +kernel

-- urn:epc:class:lgtin:50712192365.88..%25:.13%26
example : epcPureIdentityToScheme (py "urn:epc:class:lgtin:50712192365.88..%25:.13%26") = (LGTIN.new (py "urn:epc:class:lgtin:50712192365.88..%25:.13%26")).map Scheme.lgtin := by decide +kernel

-- urn:epc:class:lgtin:50712192365.88..%25:.13%26
example : epcPureIdentityToGs1Element (py "urn:epc:class:lgtin:50712192365.88..%25:.13%26") = (LGTIN.new (py "urn:epc:class:lgtin:50712192365.88..%25:.13%26")).map Scheme.lgtin := by decide +kernel

-- urn:epc:class:lgtin:50712192365.88..%25:.13%26
example : epcPureIdentityToGs1Keyed (py "urn:epc:class:lgtin:50712192365.88..%25:.13%26") = (LGTIN.new (py "urn:epc:class:lgtin:50712192365.88..%25:.13%26")).map Scheme.lgtin := by decide +kernel

-- urn:epc:class:lgtin:50712192365.88..%25:.13%26
example : epcPureIdentityToTagEncodable (py "urn:epc:class:lgtin:50712192365.88..%25:.13%26") = .error .convert := by decide +kernel

-- urn:epc:class:lgtin:50712192365.88..%25:.13%26
example : epcPureIdentityToGs1ElementString (py "urn:epc:class:lgtin:50712192365.88..%25:.13%26") = .ok (py "(01)85071219236581(10).%:.13&") := by decide +kernel

-- urn:epc:class:lgtin:50712192365.88..%25:.13%26
example : epcPureIdentityToGs1Key (py "urn:epc:class:lgtin:50712192365.88..%25:.13%26") none = .ok (py "85071219236581") := by decide +kernel

-- urn:epc:class:lgtin:50712192365.88..%25:.13%26
example : getGs1Key (py "urn:epc:class:lgtin:50712192365.88..%25:.13%26") none none = .ok (py "85071219236581") := by decide +kernel

-- urn:epc:class:lgtin:50712192365.88..%25:.13%26
example : getGs1Key (py "(01)85071219236581(10).%:.13&") (some 11) none = .ok (py "85071219236581") := by decide +kernel

-- urn:epc:id:pgln:0123456789.01
example : epcPureIdentityToScheme (py "urn:epc:id:pgln:0123456789.01") = (PGLN.new (py "urn:epc:id:pgln:0123456789.01")).map Scheme.pgln := by decide +kernel

-- urn:epc:id:pgln:0123456789.01
example : epcPureIdentityToGs1Element (py "urn:epc:id:pgln:0123456789.01") = (PGLN.new (py "urn:epc:id:pgln:0123456789.01")).map Scheme.pgln := by decide +kernel

-- urn:epc:id:pgln:0123456789.01
example : epcPureIdentityToGs1Keyed (py "urn:epc:id:pgln:0123456789.01") = (PGLN.new (py "urn:epc:id:pgln:0123456789.01")).map Scheme.pgln := by decide +kernel

-- urn:epc:id:pgln:0123456789.01
example : epcPureIdentityToTagEncodable (py "urn:epc:id:pgln:0123456789.01") = .error .convert := by decide +kernel

-- urn:epc:id:pgln:0123456789.01
example : epcPureIdentityToGs1ElementString (py "urn:epc:id:pgln:0123456789.01") = .ok (py "(417)0123456789012") := by decide +kernel

-- urn:epc:id:pgln:0123456789.01
example : epcPureIdentityToGs1Key (py "urn:epc:id:pgln:0123456789.01") none = .ok (py "0123456789012") := by decide +kernel

-- urn:epc:id:pgln:0123456789.01
example : getGs1Key (py "urn:epc:id:pgln:0123456789.01") none none = .ok (py "0123456789012") := by decide +kernel

-- urn:epc:id:pgln:0123456789.01
example : getGs1Key (py "(417)0123456789012") (some 10) none = .ok (py "0123456789012") := by decide +kernel

-- urn:epc:id:sgcn:401234512345..1
example : epcPureIdentityToScheme (py "urn:epc:id:sgcn:401234512345..1") = (SGCN.new (py "urn:epc:id:sgcn:401234512345..1")).map Scheme.sgcn := by decide +kernel

-- urn:epc:id:sgcn:401234512345..1
example : epcPureIdentityToGs1Element (py "urn:epc:id:sgcn:401234512345..1") = (SGCN.new (py "urn:epc:id:sgcn:401234512345..1")).map Scheme.sgcn := by decide +kernel

-- urn:epc:id:sgcn:401234512345..1
example : epcPureIdentityToGs1Keyed (py "urn:epc:id:sgcn:401234512345..1") = (SGCN.new (py "urn:epc:id:sgcn:401234512345..1")).map Scheme.sgcn := by decide +kernel

-- urn:epc:id:sgcn:401234512345..1
example : epcPureIdentityToTagEncodable (py "urn:epc:id:sgcn:401234512345..1") = (SGCN.new (py "urn:epc:id:sgcn:401234512345..1")).map Scheme.sgcn := by decide +kernel

-- urn:epc:id:sgcn:401234512345..1
example : epcPureIdentityToGs1ElementString (py "urn:epc:id:sgcn:401234512345..1") = .ok (py "(255)40123451234561") := by decide +kernel

-- urn:epc:id:sgcn:401234512345..1
example : epcPureIdentityToGs1Key (py "urn:epc:id:sgcn:401234512345..1") none = .ok (py "40123451234561") := by decide +kernel

-- urn:epc:id:sgcn:401234512345..1
example : getGs1Key (py "urn:epc:id:sgcn:401234512345..1") none none = .ok (py "40123451234561") := by decide +kernel

-- urn:epc:id:sgcn:401234512345..1
example : getGs1Key (py "(255)40123451234561") (some 12) none = .ok (py "40123451234561") := by decide +kernel

-- urn:epc:id:sgcn:401234512345..1
example : tagUriToTagEncodable (py "urn:epc:tag:sgcn-96:7.401234512345..1") = (SGCN.new (py "urn:epc:id:sgcn:401234512345..1")).map Scheme.sgcn := by decide +kernel

-- urn:epc:id:sgcn:401234512345..1
example : hexToTagEncodable (py "3FE175ADC32764000000000B") = (SGCN.new (py "urn:epc:id:sgcn:401234512345..1")).map Scheme.sgcn := by decide +kernel

-- urn:epc:id:sgcn:401234512345..1
example : binaryToTagEncodable (py "001111111110000101110101101011011100001100100111011001000000000000000000000000000000000000001011") = (SGCN.new (py "urn:epc:id:sgcn:401234512345..1")).map Scheme.sgcn := by decide +kernel

-- urn:epc:id:sgcn:401234512345..1
example : getGs1Key (py "urn:epc:tag:sgcn-96:7.401234512345..1") none none = .ok (py "40123451234561") := by decide +kernel

-- urn:epc:id:sgcn:401234512345..1
example : getGs1Key (py "3FE175ADC32764000000000B") none none = .ok (py "40123451234561") := by decide +kernel

-- urn:epc:id:sgcn:401234512345..1
example : getGs1Key (py "001111111110000101110101101011011100001100100111011001000000000000000000000000000000000000001011") none none = .ok (py "40123451234561") := by decide +kernel

-- urn:epc:id:sgln:061411123456..A%2F-BCDEFGHIJKLMNOPQR
example : epcPureIdentityToScheme (py "urn:epc:id:sgln:061411123456..A%2F-BCDEFGHIJKLMNOPQR") = (SGLN.new (py "urn:epc:id:sgln:061411123456..A%2F-BCDEFGHIJKLMNOPQR")).map Scheme.sgln := by decide +kernel

-- urn:epc:id:sgln:061411123456..A%2F-BCDEFGHIJKLMNOPQR
example : epcPureIdentityToGs1Element (py "urn:epc:id:sgln:061411123456..A%2F-BCDEFGHIJKLMNOPQR") = (SGLN.new (py "urn:epc:id:sgln:061411123456..A%2F-BCDEFGHIJKLMNOPQR")).map Scheme.sgln := by decide +kernel

-- urn:epc:id:sgln:061411123456..A%2F-BCDEFGHIJKLMNOPQR
example : epcPureIdentityToGs1Keyed (py "urn:epc:id:sgln:061411123456..A%2F-BCDEFGHIJKLMNOPQR") = (SGLN.new (py "urn:epc:id:sgln:061411123456..A%2F-BCDEFGHIJKLMNOPQR")).map Scheme.sgln := by decide +kernel

-- urn:epc:id:sgln:061411123456..A%2F-BCDEFGHIJKLMNOPQR
example : epcPureIdentityToTagEncodable (py "urn:epc:id:sgln:061411123456..A%2F-BCDEFGHIJKLMNOPQR") = (SGLN.new (py "urn:epc:id:sgln:061411123456..A%2F-BCDEFGHIJKLMNOPQR")).map Scheme.sgln := by decide +kernel

-- urn:epc:id:sgln:061411123456..A%2F-BCDEFGHIJKLMNOPQR
example : epcPureIdentityToGs1ElementString (py "urn:epc:id:sgln:061411123456..A%2F-BCDEFGHIJKLMNOPQR") = .ok (py "(414)0614111234560(254)A/-BCDEFGHIJKLMNOPQR") := by decide +kernel

-- urn:epc:id:sgln:061411123456..A%2F-BCDEFGHIJKLMNOPQR
example : epcPureIdentityToGs1Key (py "urn:epc:id:sgln:061411123456..A%2F-BCDEFGHIJKLMNOPQR") none = .ok (py "0614111234560") := by decide +kernel

-- urn:epc:id:sgln:061411123456..A%2F-BCDEFGHIJKLMNOPQR
example : getGs1Key (py "urn:epc:id:sgln:061411123456..A%2F-BCDEFGHIJKLMNOPQR") none none = .ok (py "0614111234560") := by decide +kernel

-- urn:epc:id:sgln:061411123456..A%2F-BCDEFGHIJKLMNOPQR
example : getGs1Key (py "(414)0614111234560(254)A/-BCDEFGHIJKLMNOPQR") (some 12) none = .ok (py "0614111234560") := by decide +kernel

-- urn:epc:id:sgln:061411123456..A%2F-BCDEFGHIJKLMNOPQR
example : tagUriToTagEncodable (py "urn:epc:tag:sgln-195:0.061411123456..A%2F-BCDEFGHIJKLMNOPQR") = (SGLN.new (py "urn:epc:id:sgln:061411123456..A%2F-BCDEFGHIJKLMNOPQR")).map Scheme.sgln := by decide +kernel

-- urn:epc:id:sgln:061411123456..A%2F-BCDEFGHIJKLMNOPQR
example : hexToTagEncodable (py "390039318D8401057AD850E2458D1E449952E64D9D3E851A4000") = (SGLN.new (py "urn:epc:id:sgln:061411123456..A%2F-BCDEFGHIJKLMNOPQR")).map Scheme.sgln := by decide +kernel

-- urn:epc:id:sgln:061411123456..A%2F-BCDEFGHIJKLMNOPQR
example : binaryToTagEncodable (py "0011100100000000001110010011000110001101100001000000000100000101011110101101100001010000111000100100010110001101000111100100010010011001010100101110011001001101100111010011111010000101000110100100000000000000") = (SGLN.new (py "urn:epc:id:sgln:061411123456..A%2F-BCDEFGHIJKLMNOPQR")).map Scheme.sgln := by decide +kernel

-- urn:epc:id:sgln:061411123456..A%2F-BCDEFGHIJKLMNOPQR
example : getGs1Key (py "urn:epc:tag:sgln-195:0.061411123456..A%2F-BCDEFGHIJKLMNOPQR") none none = .ok (py "0614111234560") := by decide +kernel

-- urn:epc:id:sgln:061411123456..A%2F-BCDEFGHIJKLMNOPQR
example : getGs1Key (py "390039318D8401057AD850E2458D1E449952E64D9D3E851A4000") none none = .ok (py "0614111234560") := by decide +kernel

-- urn:epc:id:sgln:061411123456..A%2F-BCDEFGHIJKLMNOPQR
example : getGs1Key (py "0011100100000000001110010011000110001101100001000000000100000101011110101101100001010000111000100100010110001101000111100100010010011001010100101110011001001101100111010011111010000101000110100100000000000000") none none = .ok (py "0614111234560") := by decide +kernel

-- urn:epc:id:sgtin:00000950.01093.Serial
example : epcPureIdentityToScheme (py "urn:epc:id:sgtin:00000950.01093.Serial") = (SGTIN.new (py "urn:epc:id:sgtin:00000950.01093.Serial")).map Scheme.sgtin := by decide +kernel

-- urn:epc:id:sgtin:00000950.01093.Serial
example : epcPureIdentityToGs1Element (py "urn:epc:id:sgtin:00000950.01093.Serial") = (SGTIN.new (py "urn:epc:id:sgtin:00000950.01093.Serial")).map Scheme.sgtin := by decide +kernel

-- urn:epc:id:sgtin:00000950.01093.Serial
example : epcPureIdentityToGs1Keyed (py "urn:epc:id:sgtin:00000950.01093.Serial") = (SGTIN.new (py "urn:epc:id:sgtin:00000950.01093.Serial")).map Scheme.sgtin := by decide +kernel

-- urn:epc:id:sgtin:00000950.01093.Serial
example : epcPureIdentityToTagEncodable (py "urn:epc:id:sgtin:00000950.01093.Serial") = (SGTIN.new (py "urn:epc:id:sgtin:00000950.01093.Serial")).map Scheme.sgtin := by decide +kernel

-- urn:epc:id:sgtin:00000950.01093.Serial
example : epcPureIdentityToGs1ElementString (py "urn:epc:id:sgtin:00000950.01093.Serial") = .ok (py "(01)00000095010939(21)Serial") := by decide +kernel

-- urn:epc:id:sgtin:00000950.01093.Serial
example : epcPureIdentityToGs1Key (py "urn:epc:id:sgtin:00000950.01093.Serial") none = .ok (py "00000095010939") := by decide +kernel

-- urn:epc:id:sgtin:00000950.01093.Serial
example : getGs1Key (py "urn:epc:id:sgtin:00000950.01093.Serial") none none = .ok (py "00000095010939") := by decide +kernel

-- urn:epc:id:sgtin:00000950.01093.Serial
example : getGs1Key (py "(01)00000095010939(21)Serial") (some 8) none = .ok (py "00000095010939") := by decide +kernel

-- urn:epc:id:sgtin:00000950.01093.Serial
example : tagUriToTagEncodable (py "urn:epc:tag:sgtin-198:2.00000950.01093.Serial") = (SGTIN.new (py "urn:epc:id:sgtin:00000950.01093.Serial")).map Scheme.sgtin := by decide +kernel

-- urn:epc:id:sgtin:00000950.01093.Serial
example : hexToTagEncodable (py "36500001DB011169E5E5A70EC000000000000000000000000000") = (SGTIN.new (py "urn:epc:id:sgtin:00000950.01093.Serial")).map Scheme.sgtin := by decide +kernel

-- urn:epc:id:sgtin:00000950.01093.Serial
example : binaryToTagEncodable (py "0011011001010000000000000000000111011011000000010001000101101001111001011110010110100111000011101100000000000000000000000000000000000000000000000000000000000000000000000000000000000000000000000000000000000000") = (SGTIN.new (py "urn:epc:id:sgtin:00000950.01093.Serial")).map Scheme.sgtin := by decide +kernel

-- urn:epc:id:sgtin:00000950.01093.Serial
example : getGs1Key (py "urn:epc:tag:sgtin-198:2.00000950.01093.Serial") none none = .ok (py "00000095010939") := by decide +kernel

-- urn:epc:id:sgtin:00000950.01093.Serial
example : getGs1Key (py "36500001DB011169E5E5A70EC000000000000000000000000000") none none = .ok (py "00000095010939") := by decide +kernel

-- urn:epc:id:sgtin:00000950.01093.Serial
example : getGs1Key (py "0011011001010000000000000000000111011011000000010001000101101001111001011110010110100111000011101100000000000000000000000000000000000000000000000000000000000000000000000000000000000000000000000000000000000000") none none = .ok (py "00000095010939") := by decide +kernel

-- urn:epc:id:sgtin:00000950.01093.Serial
example : epcPureIdentityToScheme (py "urn:epc:id:sgtin:00000950.01093.Serial") = (SGTIN.new (py "urn:epc:id:sgtin:00000950.01093.Serial")).map Scheme.sgtin := by decide +kernel

-- urn:epc:id:sgtin:00000950.01093.Serial
example : epcPureIdentityToGs1Element (py "urn:epc:id:sgtin:00000950.01093.Serial") = (SGTIN.new (py "urn:epc:id:sgtin:00000950.01093.Serial")).map Scheme.sgtin := by decide +kernel

-- urn:epc:id:sgtin:00000950.01093.Serial
example : epcPureIdentityToGs1Keyed (py "urn:epc:id:sgtin:00000950.01093.Serial") = (SGTIN.new (py "urn:epc:id:sgtin:00000950.01093.Serial")).map Scheme.sgtin := by decide +kernel

-- urn:epc:id:sgtin:00000950.01093.Serial
example : epcPureIdentityToTagEncodable (py "urn:epc:id:sgtin:00000950.01093.Serial") = (SGTIN.new (py "urn:epc:id:sgtin:00000950.01093.Serial")).map Scheme.sgtin := by decide +kernel

-- urn:epc:id:sgtin:00000950.01093.Serial
example : epcPureIdentityToGs1ElementString (py "urn:epc:id:sgtin:00000950.01093.Serial") = .ok (py "(01)00000095010939(21)Serial") := by decide +kernel

-- urn:epc:id:sgtin:00000950.01093.Serial
example : epcPureIdentityToGs1Key (py "urn:epc:id:sgtin:00000950.01093.Serial") (some .gtin13) = .ok (py "0000095010939") := by decide +kernel

-- urn:epc:id:sgtin:00000950.01093.Serial
example : getGs1Key (py "urn:epc:id:sgtin:00000950.01093.Serial") none (some .gtin13) = .ok (py "0000095010939") := by decide +kernel

-- urn:epc:id:sgtin:00000950.01093.Serial
example : getGs1Key (py "(01)00000095010939(21)Serial") (some 8) (some .gtin13) = .ok (py "0000095010939") := by decide +kernel

-- urn:epc:id:sgtin:00000950.01093.Serial
example : tagUriToTagEncodable (py "urn:epc:tag:sgtin-198:2.00000950.01093.Serial") = (SGTIN.new (py "urn:epc:id:sgtin:00000950.01093.Serial")).map Scheme.sgtin := by decide +kernel

-- urn:epc:id:sgtin:00000950.01093.Serial
example : hexToTagEncodable (py "36500001DB011169E5E5A70EC000000000000000000000000000") = (SGTIN.new (py "urn:epc:id:sgtin:00000950.01093.Serial")).map Scheme.sgtin := by decide +kernel

-- urn:epc:id:sgtin:00000950.01093.Serial
example : binaryToTagEncodable (py "0011011001010000000000000000000111011011000000010001000101101001111001011110010110100111000011101100000000000000000000000000000000000000000000000000000000000000000000000000000000000000000000000000000000000000") = (SGTIN.new (py "urn:epc:id:sgtin:00000950.01093.Serial")).map Scheme.sgtin := by decide +kernel

-- urn:epc:id:sgtin:00000950.01093.Serial
example : getGs1Key (py "urn:epc:tag:sgtin-198:2.00000950.01093.Serial") none (some .gtin13) = .ok (py "0000095010939") := by decide +kernel

-- urn:epc:id:sgtin:00000950.01093.Serial
example : getGs1Key (py "36500001DB011169E5E5A70EC000000000000000000000000000") none (some .gtin13) = .ok (py "0000095010939") := by decide +kernel

-- urn:epc:id:sgtin:00000950.01093.Serial
example : getGs1Key (py "0011011001010000000000000000000111011011000000010001000101101001111001011110010110100111000011101100000000000000000000000000000000000000000000000000000000000000000000000000000000000000000000000000000000000000") none (some .gtin13) = .ok (py "0000095010939") := by decide +kernel

-- urn:epc:id:sgtin:00000950.01093.Serial
example : epcPureIdentityToScheme (py "urn:epc:id:sgtin:00000950.01093.Serial") = (SGTIN.new (py "urn:epc:id:sgtin:00000950.01093.Serial")).map Scheme.sgtin := by decide +kernel

-- urn:epc:id:sgtin:00000950.01093.Serial
example : epcPureIdentityToGs1Element (py "urn:epc:id:sgtin:00000950.01093.Serial") = (SGTIN.new (py "urn:epc:id:sgtin:00000950.01093.Serial")).map Scheme.sgtin := by decide +kernel

-- urn:epc:id:sgtin:00000950.01093.Serial
example : epcPureIdentityToGs1Keyed (py "urn:epc:id:sgtin:00000950.01093.Serial") = (SGTIN.new (py "urn:epc:id:sgtin:00000950.01093.Serial")).map Scheme.sgtin := by decide +kernel

-- urn:epc:id:sgtin:00000950.01093.Serial
example : epcPureIdentityToTagEncodable (py "urn:epc:id:sgtin:00000950.01093.Serial") = (SGTIN.new (py "urn:epc:id:sgtin:00000950.01093.Serial")).map Scheme.sgtin := by decide +kernel

-- urn:epc:id:sgtin:00000950.01093.Serial
example : epcPureIdentityToGs1ElementString (py "urn:epc:id:sgtin:00000950.01093.Serial") = .ok (py "(01)00000095010939(21)Serial") := by decide +kernel

-- urn:epc:id:sgtin:00000950.01093.Serial
example : epcPureIdentityToGs1Key (py "urn:epc:id:sgtin:00000950.01093.Serial") (some .gtin8) = .ok (py "95010939") := by decide +kernel

-- urn:epc:id:sgtin:00000950.01093.Serial
example : getGs1Key (py "urn:epc:id:sgtin:00000950.01093.Serial") none (some .gtin8) = .ok (py "95010939") := by decide +kernel

-- urn:epc:id:sgtin:00000950.01093.Serial
example : getGs1Key (py "(01)00000095010939(21)Serial") (some 8) (some .gtin8) = .ok (py "95010939") := by decide +kernel

-- urn:epc:id:sgtin:00000950.01093.Serial
example : tagUriToTagEncodable (py "urn:epc:tag:sgtin-198:2.00000950.01093.Serial") = (SGTIN.new (py "urn:epc:id:sgtin:00000950.01093.Serial")).map Scheme.sgtin := by decide +kernel

-- urn:epc:id:sgtin:00000950.01093.Serial
example : hexToTagEncodable (py "36500001DB011169E5E5A70EC000000000000000000000000000") = (SGTIN.new (py "urn:epc:id:sgtin:00000950.01093.Serial")).map Scheme.sgtin := by decide +kernel

-- urn:epc:id:sgtin:00000950.01093.Serial
example : binaryToTagEncodable (py "0011011001010000000000000000000111011011000000010001000101101001111001011110010110100111000011101100000000000000000000000000000000000000000000000000000000000000000000000000000000000000000000000000000000000000") = (SGTIN.new (py "urn:epc:id:sgtin:00000950.01093.Serial")).map Scheme.sgtin := by decide +kernel

-- urn:epc:id:sgtin:00000950.01093.Serial
example : getGs1Key (py "urn:epc:tag:sgtin-198:2.00000950.01093.Serial") none (some .gtin8) = .ok (py "95010939") := by decide +kernel

-- urn:epc:id:sgtin:00000950.01093.Serial
example : getGs1Key (py "36500001DB011169E5E5A70EC000000000000000000000000000") none (some .gtin8) = .ok (py "95010939") := by decide +kernel

-- urn:epc:id:sgtin:00000950.01093.Serial
example : getGs1Key (py "0011011001010000000000000000000111011011000000010001000101101001111001011110010110100111000011101100000000000000000000000000000000000000000000000000000000000000000000000000000000000000000000000000000000000000") none (some .gtin8) = .ok (py "95010939") := by decide +kernel

-- urn:epc:id:sscc:061414123456.12345
example : epcPureIdentityToScheme (py "urn:epc:id:sscc:061414123456.12345") = (SSCC.new (py "urn:epc:id:sscc:061414123456.12345")).map Scheme.sscc := by decide +kernel

-- urn:epc:id:sscc:061414123456.12345
example : epcPureIdentityToGs1Element (py "urn:epc:id:sscc:061414123456.12345") = (SSCC.new (py "urn:epc:id:sscc:061414123456.12345")).map Scheme.sscc := by decide +kernel

-- urn:epc:id:sscc:061414123456.12345
example : epcPureIdentityToGs1Keyed (py "urn:epc:id:sscc:061414123456.12345") = (SSCC.new (py "urn:epc:id:sscc:061414123456.12345")).map Scheme.sscc := by decide +kernel

-- urn:epc:id:sscc:061414123456.12345
example : epcPureIdentityToTagEncodable (py "urn:epc:id:sscc:061414123456.12345") = (SSCC.new (py "urn:epc:id:sscc:061414123456.12345")).map Scheme.sscc := by decide +kernel

-- urn:epc:id:sscc:061414123456.12345
example : epcPureIdentityToGs1ElementString (py "urn:epc:id:sscc:061414123456.12345") = .ok (py "(00)106141412345623458") := by decide +kernel

-- urn:epc:id:sscc:061414123456.12345
example : epcPureIdentityToGs1Key (py "urn:epc:id:sscc:061414123456.12345") none = .ok (py "106141412345623458") := by decide +kernel

-- urn:epc:id:sscc:061414123456.12345
example : getGs1Key (py "urn:epc:id:sscc:061414123456.12345") none none = .ok (py "106141412345623458") := by decide +kernel

-- urn:epc:id:sscc:061414123456.12345
example : getGs1Key (py "(00)106141412345623458") (some 12) none = .ok (py "106141412345623458") := by decide +kernel

-- urn:epc:id:sscc:061414123456.12345
example : tagUriToTagEncodable (py "urn:epc:tag:sscc-96:0.061414123456.12345") = (SSCC.new (py "urn:epc:id:sscc:061414123456.12345")).map Scheme.sscc := by decide +kernel

-- urn:epc:id:sscc:061414123456.12345
example : hexToTagEncodable (py "31003932449F003039000000") = (SSCC.new (py "urn:epc:id:sscc:061414123456.12345")).map Scheme.sscc := by decide +kernel

-- urn:epc:id:sscc:061414123456.12345
example : binaryToTagEncodable (py "001100010000000000111001001100100100010010011111000000000011000000111001000000000000000000000000") = (SSCC.new (py "urn:epc:id:sscc:061414123456.12345")).map Scheme.sscc := by decide +kernel

-- urn:epc:id:sscc:061414123456.12345
example : getGs1Key (py "urn:epc:tag:sscc-96:0.061414123456.12345") none none = .ok (py "106141412345623458") := by decide +kernel

-- urn:epc:id:sscc:061414123456.12345
example : getGs1Key (py "31003932449F003039000000") none none = .ok (py "106141412345623458") := by decide +kernel

-- urn:epc:id:sscc:061414123456.12345
example : getGs1Key (py "001100010000000000111001001100100100010010011111000000000011000000111001000000000000000000000000") none none = .ok (py "106141412345623458") := by decide +kernel

-- urn:epc:id:upui:1234567.089456.51qIgY)%3C%26Jp3*j7'SDB
example : epcPureIdentityToScheme (py "urn:epc:id:upui:1234567.089456.51qIgY)%3C%26Jp3*j7'SDB") = (UPUI.new (py "urn:epc:id:upui:1234567.089456.51qIgY)%3C%26Jp3*j7'SDB")).map Scheme.upui := by decide +kernel

-- urn:epc:id:upui:1234567.089456.51qIgY)%3C%26Jp3*j7'SDB
example : epcPureIdentityToGs1Element (py "urn:epc:id:upui:1234567.089456.51qIgY)%3C%26Jp3*j7'SDB") = (UPUI.new (py "urn:epc:id:upui:1234567.089456.51qIgY)%3C%26Jp3*j7'SDB")).map Scheme.upui := by decide +kernel

-- urn:epc:id:upui:1234567.089456.51qIgY)%3C%26Jp3*j7'SDB
example : epcPureIdentityToGs1Keyed (py "urn:epc:id:upui:1234567.089456.51qIgY)%3C%26Jp3*j7'SDB") = .error .convert := by decide +kernel

-- urn:epc:id:upui:1234567.089456.51qIgY)%3C%26Jp3*j7'SDB
example : epcPureIdentityToTagEncodable (py "urn:epc:id:upui:1234567.089456.51qIgY)%3C%26Jp3*j7'SDB") = .error .convert := by decide +kernel

-- urn:epc:id:upui:1234567.089456.51qIgY)%3C%26Jp3*j7'SDB
example : epcPureIdentityToGs1ElementString (py "urn:epc:id:upui:1234567.089456.51qIgY)%3C%26Jp3*j7'SDB") = .ok (py "(01)01234567894560(235)51qIgY)<&Jp3*j7'SDB") := by decide +kernel

-- urn:epc:id:usdod:2S194.68719476735
example : epcPureIdentityToScheme (py "urn:epc:id:usdod:2S194.68719476735") = (USDOD.new (py "urn:epc:id:usdod:2S194.68719476735")).map Scheme.usdod := by decide +kernel

-- urn:epc:id:usdod:2S194.68719476735
example : epcPureIdentityToGs1Element (py "urn:epc:id:usdod:2S194.68719476735") = .error .convert := by decide +kernel

-- urn:epc:id:usdod:2S194.68719476735
example : epcPureIdentityToGs1Keyed (py "urn:epc:id:usdod:2S194.68719476735") = .error .convert := by decide +kernel

-- urn:epc:id:usdod:2S194.68719476735
example : epcPureIdentityToTagEncodable (py "urn:epc:id:usdod:2S194.68719476735") = (USDOD.new (py "urn:epc:id:usdod:2S194.68719476735")).map Scheme.usdod := by decide +kernel

-- urn:epc:id:usdod:2S194.68719476735
example : tagUriToTagEncodable (py "urn:epc:tag:usdod-96:15.2S194.68719476735") = (USDOD.new (py "urn:epc:id:usdod:2S194.68719476735")).map Scheme.usdod := by decide +kernel

-- urn:epc:id:usdod:2S194.68719476735
example : hexToTagEncodable (py "2FF203253313934FFFFFFFFF") = (USDOD.new (py "urn:epc:id:usdod:2S194.68719476735")).map Scheme.usdod := by decide +kernel

-- urn:epc:id:usdod:2S194.68719476735
example : binaryToTagEncodable (py "001011111111001000000011001001010011001100010011100100110100111111111111111111111111111111111111") = (USDOD.new (py "urn:epc:id:usdod:2S194.68719476735")).map Scheme.usdod := by decide +kernel

-- urn:epc:idpat:gdti:0614141.12345.*
example : getGs1Key (py "urn:epc:idpat:gdti:0614141.12345.*") none none = .ok (py "0614141123452*") := by decide +kernel

-- urn:epc:idpat:giai:0614141.*
example : getGs1Key (py "urn:epc:idpat:giai:0614141.*") none none = .ok (py "0614141*") := by decide +kernel

-- urn:epc:idpat:ginc:061411.*
example : getGs1Key (py "urn:epc:idpat:ginc:061411.*") none none = .ok (py "061411*") := by decide +kernel

-- urn:epc:idpat:grai:0614141.12345.*
example : getGs1Key (py "urn:epc:idpat:grai:0614141.12345.*") none none = .ok (py "0614141123452*") := by decide +kernel

-- urn:epc:idpat:gsin:061414.0123456789
example : getGs1Key (py "urn:epc:idpat:gsin:061414.0123456789") none none = .ok (py "06141401234567891") := by decide +kernel

-- urn:epc:idpat:gsrn:012345678901.01234
example : getGs1Key (py "urn:epc:idpat:gsrn:012345678901.01234") none none = .ok (py "012345678901012342") := by decide +kernel

-- urn:epc:idpat:gsrnp:012345678901.01234
example : getGs1Key (py "urn:epc:idpat:gsrnp:012345678901.01234") none none = .ok (py "012345678901012342") := by decide +kernel

-- urn:epc:idpat:pgln:0123456789.01
example : getGs1Key (py "urn:epc:idpat:pgln:0123456789.01") none none = .ok (py "0123456789012") := by decide +kernel

-- urn:epc:idpat:sgcn:401234512345..1
example : getGs1Key (py "urn:epc:idpat:sgcn:401234512345..1") none none = .ok (py "40123451234561") := by decide +kernel

-- urn:epc:idpat:sgln:061411123456..*
example : getGs1Key (py "urn:epc:idpat:sgln:061411123456..*") none none = .ok (py "0614111234560") := by decide +kernel

-- urn:epc:idpat:sgtin:00000950.01093.*
example : getGs1Key (py "urn:epc:idpat:sgtin:00000950.01093.*") none none = .ok (py "00000095010939") := by decide +kernel

-- urn:epc:idpat:sgtin:00000950.01093.*
example : getGs1Key (py "urn:epc:idpat:sgtin:00000950.01093.*") none (some .gtin13) = .ok (py "0000095010939") := by decide +kernel

-- urn:epc:idpat:sgtin:00000950.01093.*
example : getGs1Key (py "urn:epc:idpat:sgtin:00000950.01093.*") none (some .gtin8) = .ok (py "95010939") := by decide +kernel

-- urn:epc:idpat:sscc:061414123456.12345
example : getGs1Key (py "urn:epc:idpat:sscc:061414123456.12345") none none = .ok (py "106141412345623458") := by decide +kernel

-- urn:epc:idpat:gdti:0614141.*.*
example : getGs1Key (py "urn:epc:idpat:gdti:0614141.*.*") none none = .error .convert := by decide +kernel

-- urn:epc:idpat:giai:*.*
example : getGs1Key (py "urn:epc:idpat:giai:*.*") none none = .error .convert := by decide +kernel

-- urn:epc:idpat:ginc:*.*
example : getGs1Key (py "urn:epc:idpat:ginc:*.*") none none = .error .convert := by decide +kernel

-- urn:epc:idpat:grai:0614141.*.*
example : getGs1Key (py "urn:epc:idpat:grai:0614141.*.*") none none = .error .convert := by decide +kernel

-- urn:epc:idpat:gsin:061414.*
example : getGs1Key (py "urn:epc:idpat:gsin:061414.*") none none = .error .convert := by decide +kernel

-- urn:epc:idpat:gsrn:012345678901.*
example : getGs1Key (py "urn:epc:idpat:gsrn:012345678901.*") none none = .error .convert := by decide +kernel

-- urn:epc:idpat:gsrnp:012345678901.*
example : getGs1Key (py "urn:epc:idpat:gsrnp:012345678901.*") none none = .error .convert := by decide +kernel

-- urn:epc:idpat:pgln:0123456789.*
example : getGs1Key (py "urn:epc:idpat:pgln:0123456789.*") none none = .error .convert := by decide +kernel

-- urn:epc:idpat:sgcn:401234512345..*
example : getGs1Key (py "urn:epc:idpat:sgcn:401234512345..*") none none = .error .convert := by decide +kernel

-- urn:epc:idpat:sgln:061411123456.*.*
example : getGs1Key (py "urn:epc:idpat:sgln:061411123456.*.*") none none = .error .convert := by decide +kernel

-- urn:epc:idpat:sgtin:00000950.*.*
example : getGs1Key (py "urn:epc:idpat:sgtin:00000950.*.*") none none = .error .convert := by decide +kernel

-- urn:epc:idpat:sgtin:00000950.*.*
example : getGs1Key (py "urn:epc:idpat:sgtin:00000950.*.*") none none = .error .convert := by decide +kernel

-- urn:epc:idpat:sgtin:00000950.*.*
example : getGs1Key (py "urn:epc:idpat:sgtin:00000950.*.*") none none = .error .convert := by decide +kernel

-- urn:epc:idpat:sscc:061414123456.*
example : getGs1Key (py "urn:epc:idpat:sscc:061414123456.*") none none = .error .convert := by decide +kernel

-- invalid urn:epc:id:adi:W81X9C.3KL984PX1.2WMA-52
example : epcPureIdentityToGs1Element (py "urn:epc:id:adi:W81X9C.3KL984PX1.2WMA-52") = .error .convert := by decide +kernel

-- invalid urn:epc:id:bic:CSQJ3054381
example : epcPureIdentityToGs1ElementString (py "urn:epc:id:bic:CSQJ3054381") = .error .convert := by decide +kernel

-- invalid urn:epc:id:upui:1234567.089456.51qIgY)%3C%26Jp3*j7'SDB
example : epcPureIdentityToGs1Keyed (py "urn:epc:id:upui:1234567.089456.51qIgY)%3C%26Jp3*j7'SDB") = .error .convert := by decide +kernel

-- invalid urn:epc:id:dod:2S194.68719476735
example : epcPureIdentityToScheme (py "urn:epc:id:dod:2S194.68719476735") = .error .convert := by decide +kernel

-- invalid urn:epc:id:pgln:0123456789.01
example : epcPureIdentityToTagEncodable (py "urn:epc:id:pgln:0123456789.01") = .error .convert := by decide +kernel

-- invalid 3AFFFFFFFFFFFFFFFFFFFFFF
example : hexToTagEncodable (py "3AFFFFFFFFFFFFFFFFFFFFFF") = .error .convert := by decide +kernel

-- invalid urn:epc:tag:imovn-96:0.9176187
example : tagUriToTagEncodable (py "urn:epc:tag:imovn-96:0.9176187") = .error .convert := by decide +kernel

-- invalid key
example : epcPureIdentityToGs1Key (py "urn:epc:id:itip:012345678901.0.00.00.ABCDEFGHIJKLMNOP%2FRST") none = .error .convert := by decide +kernel

end Epc.Tests
