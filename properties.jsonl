{"id": "C01", "title": "URI escaping is reversible", "statement": "Escaping any text with revert_uri_escapes and then unescaping it with replace_uri_escapes gives the text back; and unescaping then re-escaping a component gives the component back exactly when the component is written in the canonical escaped form (each of \" % & / < > ? written as its %XX escape and no other % sign).", "quantifier": "every string, of any length and over all of Unicode", "why_tests_cant": "the seven str.replace passes interact through '%'; only an induction over all strings shows no pass creates or destroys a match of another", "anchors": ["epcpy/utils/common.py: replace_uri_escapes, revert_uri_escapes"]}
{"id": "C02", "title": "Integers survive the bit-string encoding", "statement": "binary_to_int(int_to_binary(n, w)) == n for every n >= 0 and every width w; the result consists of '0'/'1' only; for w >= 1 it has exactly w characters if n < 2**w and more than w otherwise; and every non-empty bit string b is int_to_binary(binary_to_int(b), len(b)).", "quantifier": "all non-negative integers, all widths, all bit strings", "why_tests_cant": "unbounded integers and widths", "anchors": ["epcpy/utils/common.py: int_to_binary, binary_to_int, str_to_binary"]}
{"id": "C03", "title": "Hexadecimal, binary and base64 transports are lossless", "statement": "For every bit string whose length is a multiple of 4 and whose first nibble is non-zero, hex_to_binary(binary_to_hex(b)) == b; for every even-length hexadecimal string h, base64_to_hex(hex_to_base64(h)) == h.lower(); for every non-empty hexadecimal string, hex_to_binary(h) has 4*len(h) bits and does not depend on the letter case of h.", "quantifier": "all bit strings / hex strings of any length", "why_tests_cant": "unbounded lengths, padding cases of base64 interact with the extra '==' the code appends", "anchors": ["epcpy/utils/common.py: base64_to_hex, hex_to_base64, hex_to_binary, binary_to_hex"]}
{"id": "C04", "title": "7-bit serial codec round-trips", "statement": "decode_string(encode_string(s, n)) == s for every serial s in canonical escaped GS3A3 form and every n >= 7*len(unescaped s); the encoding is then exactly n bits long when 7*len <= n.", "quantifier": "all canonical serials of any length, all field widths that hold them", "why_tests_cant": "all lengths, all 82 characters in all positions, and the trailing padding have to be considered together", "anchors": ["epcpy/utils/common.py: encode_string, decode_string, decode_binary_char, ESCAPE_CHARACTERS"]}
{"id": "C05", "title": "6-bit string codec round-trips", "statement": "decode_string_six_bits(encode_string_six_bits(s) + tail, m) == s for every CPI/ADI component s (A-Z, 0-9, '-', %23, %2F) of at most m characters and every tail of bits: the six-bit terminator ends the field whatever follows.", "quantifier": "all components, all maximum lengths, all trailing bit strings", "why_tests_cant": "unbounded component and arbitrary trailing data", "anchors": ["epcpy/utils/common.py: encode_string_six_bits, decode_string_six_bits"]}
{"id": "C06", "title": "Partition tables round-trip for every company-prefix length", "statement": "For each scheme's partition table, every company prefix of each of the lengths 6..12 and every reference of the complementary length, decode_partition_table(encode_partition_table([C, D])) == C + '.' + D with leading zeros preserved, and the encoding has exactly 3+M+N bits, the same total for every row of the table.", "quantifier": "all digit strings for every row of every table", "why_tests_cant": "10**12 prefixes times references; the tables' bit widths must be wide enough for every value", "anchors": ["epcpy/utils/common.py: encode_partition_table, decode_partition_table", "epcpy/epc_schemes/sgtin.py: PARTITION_TABLE_P, PARTITION_TABLE_L", "epcpy/epc_schemes/sscc.py: PARTITION_TABLE_P, PARTITION_TABLE_L", "epcpy/epc_schemes/sgln.py: PARTITION_TABLE_P, PARTITION_TABLE_L", "epcpy/epc_schemes/grai.py: PARTITION_TABLE_P, PARTITION_TABLE_L", "epcpy/epc_schemes/giai.py: PARTITION_TABLE_P, PARTITION_TABLE_L", "epcpy/epc_schemes/gsrn.py: PARTITION_TABLE_P, PARTITION_TABLE_L", "epcpy/epc_schemes/gsrnp.py: PARTITION_TABLE_P, PARTITION_TABLE_L", "epcpy/epc_schemes/gdti.py: PARTITION_TABLE_P, PARTITION_TABLE_L", "epcpy/epc_schemes/cpi.py: PARTITION_TABLE_P, PARTITION_TABLE_L", "epcpy/epc_schemes/sgcn.py: PARTITION_TABLE_P, PARTITION_TABLE_L", "epcpy/epc_schemes/itip.py: PARTITION_TABLE_P, PARTITION_TABLE_L"]}
{"id": "C07", "title": "Numeric-string codec keeps leading zeros", "statement": "decode_numeric_string(encode_numeric_string(s, w)) == s for every non-empty digit string s that encode_numeric_string accepts, and the encoding has exactly w bits; every serial of at most 12 digits is accepted for w = 41.", "quantifier": "all strings of ASCII digits, all widths", "why_tests_cant": "leading zeros and the length bound", "anchors": ["epcpy/utils/common.py: encode_numeric_string, decode_numeric_string"]}
{"id": "C08", "title": "Fixed-width piece/total codec round-trips", "statement": "decode_fixed_width_integer(encode_fixed_width_integer(s, 7)) == s for every two-digit piece/total number s.", "quantifier": "all two-digit strings", "why_tests_cant": "a table of 100 values where the boundary 99 is never tested", "anchors": ["epcpy/utils/common.py: encode_fixed_width_integer, decode_fixed_width_integer"]}
{"id": "C09", "title": "GS1 check digit is correct and catches errors", "statement": "calculate_checksum(d) is a single digit such that the GS1 weighted sum (weights 1,3,1,3,... from the right) of d followed by it is a multiple of 10; it is the only such digit; changing any one digit of a digit string changes the check digit; swapping two adjacent digits changes the check digit unless they differ by exactly 5 or 0.", "quantifier": "strings of ASCII digits of every length, every position, every replacement digit", "why_tests_cant": "unbounded length and all positions", "anchors": ["epcpy/utils/common.py: calculate_checksum"]}
{"id": "C10", "title": "GSIN check digit follows the GS1 algorithm", "statement": "The separate check-digit routine used by GSIN gives the standard GS1 check digit for every 16-digit GSIN body (and for every digit string of even length).", "quantifier": "all digit strings of even length", "why_tests_cant": "10**16 bodies", "anchors": ["epcpy/epc_schemes/gsin.py: calculate_checksum", "epcpy/utils/common.py: calculate_checksum"]}
{"id": "C11", "title": "An accepted pure identity is kept verbatim", "statement": "For each of the 21 schemes: if the constructor (or from_epc_uri) accepts a URI, the object's epc_uri equals that URI, character for character, and the URI is exactly the scheme prefix followed by the object's components joined with '.'.", "quantifier": "all strings, all 21 schemes", "why_tests_cant": "all inputs; components are recovered by nested split(':')/split('.') which only agree with the regex on some inputs", "anchors": ["epcpy/epc_schemes/adi.py: __init__", "epcpy/epc_schemes/bic.py: __init__", "epcpy/epc_schemes/cpi.py: __init__", "epcpy/epc_schemes/gdti.py: __init__", "epcpy/epc_schemes/giai.py: __init__", "epcpy/epc_schemes/gid.py: __init__", "epcpy/epc_schemes/ginc.py: __init__", "epcpy/epc_schemes/grai.py: __init__", "epcpy/epc_schemes/gsin.py: __init__", "epcpy/epc_schemes/gsrn.py: __init__", "epcpy/epc_schemes/gsrnp.py: __init__", "epcpy/epc_schemes/imovn.py: __init__", "epcpy/epc_schemes/itip.py: __init__", "epcpy/epc_schemes/lgtin.py: __init__", "epcpy/epc_schemes/pgln.py: __init__", "epcpy/epc_schemes/sgcn.py: __init__", "epcpy/epc_schemes/sgln.py: __init__", "epcpy/epc_schemes/sgtin.py: __init__", "epcpy/epc_schemes/sscc.py: __init__", "epcpy/epc_schemes/upui.py: __init__", "epcpy/epc_schemes/usdod.py: __init__"]}
{"id": "C12", "title": "Digit-only schemes accept exactly the documented URIs", "statement": "SSCC, GSRN, GSRNP, GSIN, PGLN, SGCN, CPI, GID, USDOD, ADI, BIC and IMOVN constructors succeed on a string if and only if it is the scheme's prefix followed by components of the documented alphabets and lengths (company prefix 6-12 digits, complementary lengths, numeric ranges).", "quantifier": "all strings", "why_tests_cant": "acceptance and rejection of every string", "anchors": ["epcpy/epc_schemes/sscc.py: __init__", "epcpy/epc_schemes/gsrn.py: __init__", "epcpy/epc_schemes/gsrnp.py: __init__", "epcpy/epc_schemes/gsin.py: __init__", "epcpy/epc_schemes/pgln.py: __init__", "epcpy/epc_schemes/sgcn.py: __init__", "epcpy/epc_schemes/cpi.py: __init__", "epcpy/epc_schemes/gid.py: __init__", "epcpy/epc_schemes/usdod.py: __init__", "epcpy/epc_schemes/adi.py: __init__", "epcpy/epc_schemes/bic.py: __init__", "epcpy/epc_schemes/imovn.py: __init__", "epcpy/utils/regex.py"]}
{"id": "C13", "title": "Constructors reject bad input with ConvertException only", "statement": "Whatever string is passed to a constructor, the only exception it raises is ConvertException.", "quantifier": "all strings, all schemes", "why_tests_cant": "needs every rejected input, including malformed percent escapes", "anchors": ["epcpy/utils/common.py: verify_gs3a3_component, ConvertException", "epcpy/epc_schemes/sgtin.py: __init__", "epcpy/epc_schemes/giai.py: __init__", "epcpy/epc_schemes/gid.py: __init__"]}
{"id": "C14", "title": "Accepted numeric components are ASCII digits", "statement": "Any company prefix, reference or piece number of an accepted pure identity URI consists of the ASCII digits 0-9.", "quantifier": "all strings", "why_tests_cant": "the alphabet of \\d is all of Unicode", "anchors": ["epcpy/utils/regex.py: PADDED_NUMERIC_COMPONENT, NUMERIC_COMPONENT"]}
{"id": "C15", "title": "Every TDS-conformant serial is accepted", "statement": "Every URI whose serial/lot/TPX/asset/consignment component is in canonical escaped form with an admissible length is accepted by the constructor.", "quantifier": "all canonical serials", "why_tests_cant": "positions of escapes within the serial matter", "anchors": ["epcpy/utils/common.py: verify_gs3a3_component", "epcpy/epc_schemes/sgtin.py: __init__", "epcpy/epc_schemes/sgln.py: __init__", "epcpy/epc_schemes/grai.py: __init__", "epcpy/epc_schemes/gdti.py: __init__", "epcpy/epc_schemes/giai.py: __init__", "epcpy/epc_schemes/itip.py: __init__", "epcpy/epc_schemes/upui.py: __init__", "epcpy/epc_schemes/lgtin.py: __init__", "epcpy/epc_schemes/ginc.py: __init__"]}
{"id": "C16", "title": "Tag URIs round-trip", "statement": "For every TagEncodable object x, coding scheme and filter value for which x.tag_uri(...) returns, from_tag_uri(x.tag_uri(...)) returns an object equal to x (same class, same URI, same components).", "quantifier": "all accepted URIs, all coding schemes, all filter values", "why_tests_cant": "unbounded inputs; serials may contain '.', ':' and '-' on which from_tag_uri splits", "anchors": ["epcpy/epc_schemes/base_scheme.py: TagEncodable.from_tag_uri", "epcpy/epc_schemes/sgtin.py: tag_uri", "epcpy/epc_schemes/sscc.py: tag_uri", "epcpy/epc_schemes/sgln.py: tag_uri", "epcpy/epc_schemes/grai.py: tag_uri", "epcpy/epc_schemes/giai.py: tag_uri", "epcpy/epc_schemes/gsrn.py: tag_uri", "epcpy/epc_schemes/gsrnp.py: tag_uri", "epcpy/epc_schemes/gdti.py: tag_uri", "epcpy/epc_schemes/cpi.py: tag_uri", "epcpy/epc_schemes/sgcn.py: tag_uri", "epcpy/epc_schemes/itip.py: tag_uri", "epcpy/epc_schemes/gid.py: tag_uri", "epcpy/epc_schemes/usdod.py: tag_uri", "epcpy/epc_schemes/adi.py: tag_uri"]}
{"id": "C17", "title": "The 96/110-bit coding schemes are offered exactly for representable serials", "statement": "x.tag_uri(<96/110-bit scheme>, f) raises ConvertException exactly when the serial is not a decimal number without superfluous leading zero or does not fit the bit field (2**38, 2**41, 2**N, 2**31); otherwise it returns.", "quantifier": "all accepted URIs, all filter values", "why_tests_cant": "numeric boundary over unbounded digit strings", "anchors": ["epcpy/epc_schemes/sgtin.py: tag_uri", "epcpy/epc_schemes/sgln.py: tag_uri", "epcpy/epc_schemes/grai.py: tag_uri", "epcpy/epc_schemes/giai.py: tag_uri", "epcpy/epc_schemes/gdti.py: tag_uri", "epcpy/epc_schemes/cpi.py: tag_uri", "epcpy/epc_schemes/itip.py: tag_uri"]}
{"id": "C18", "title": "A tag URI of another scheme is rejected", "statement": "C.from_tag_uri(t) never returns an object when t's scheme name (before the '-') is not C's; and tag_uri_to_tag_encodable only ever returns an object of the class named in the URI.", "quantifier": "all strings, all classes", "why_tests_cant": "all strings", "anchors": ["epcpy/epc_schemes/base_scheme.py: TagEncodable.from_tag_uri", "epcpy/utils/parsers.py: tag_uri_to_tag_encodable"]}
{"id": "C19", "title": "Decoding ignores filter value and coding scheme", "statement": "The object decoded from x.binary(scheme, f) (or from the tag URI) is the same for every filter value f and every coding scheme for which x.tag_uri succeeds; the binaries for two filter values differ only in the filter field.", "quantifier": "all objects, all pairs of filter values and schemes", "why_tests_cant": "all inputs", "anchors": ["epcpy/epc_schemes/sgtin.py: binary, from_binary", "epcpy/epc_schemes/sscc.py: binary, from_binary", "epcpy/epc_schemes/sgln.py: binary, from_binary", "epcpy/epc_schemes/grai.py: binary, from_binary", "epcpy/epc_schemes/giai.py: binary, from_binary", "epcpy/epc_schemes/gsrn.py: binary, from_binary", "epcpy/epc_schemes/gsrnp.py: binary, from_binary", "epcpy/epc_schemes/gdti.py: binary, from_binary", "epcpy/epc_schemes/cpi.py: binary, from_binary", "epcpy/epc_schemes/sgcn.py: binary, from_binary", "epcpy/epc_schemes/itip.py: binary, from_binary", "epcpy/epc_schemes/usdod.py: binary, from_binary"]}
{"id": "C20", "title": "Binary encodings have the size their scheme names", "statement": "Whenever x.tag_uri(scheme, f) returns, x.binary(scheme, f) has exactly the number of bits in the scheme's name (96, 110, 113, 170, 174, 195, 198, 202, 212), starts with the scheme's 8-bit header followed by the filter value, and contains only 0 and 1.", "quantifier": "all objects, schemes, filter values", "why_tests_cant": "all inputs; every field must fit its width", "anchors": ["epcpy/epc_schemes/sgtin.py: binary", "epcpy/epc_schemes/sscc.py: binary", "epcpy/epc_schemes/sgln.py: binary", "epcpy/epc_schemes/grai.py: binary", "epcpy/epc_schemes/giai.py: binary", "epcpy/epc_schemes/gsrn.py: binary", "epcpy/epc_schemes/gsrnp.py: binary", "epcpy/epc_schemes/gdti.py: binary", "epcpy/epc_schemes/cpi.py: binary", "epcpy/epc_schemes/sgcn.py: binary", "epcpy/epc_schemes/itip.py: binary", "epcpy/epc_schemes/gid.py: binary", "epcpy/epc_schemes/usdod.py: binary"]}
{"id": "C21", "title": "Binary round-trip of the fixed numeric encodings", "statement": "For SGTIN-96, SSCC-96, SGLN-96, GRAI-96, GIAI-96, GSRN-96, GSRNP-96, GDTI-96, CPI-96, SGCN-96, ITIP-110, GID-96 and USDOD-96: whenever x.tag_uri(scheme, f) returns, from_binary(x.binary(scheme, f)) == x.", "quantifier": "all accepted URIs with representable serials, all filter values", "why_tests_cant": "2**88 values per scheme", "anchors": ["epcpy/epc_schemes/sgtin.py: binary, from_binary", "epcpy/epc_schemes/sscc.py: binary, from_binary", "epcpy/epc_schemes/sgln.py: binary, from_binary", "epcpy/epc_schemes/grai.py: binary, from_binary", "epcpy/epc_schemes/giai.py: binary, from_binary", "epcpy/epc_schemes/gsrn.py: binary, from_binary", "epcpy/epc_schemes/gsrnp.py: binary, from_binary", "epcpy/epc_schemes/gdti.py: binary, from_binary", "epcpy/epc_schemes/cpi.py: binary, from_binary", "epcpy/epc_schemes/sgcn.py: binary, from_binary", "epcpy/epc_schemes/itip.py: binary, from_binary", "epcpy/epc_schemes/gid.py: binary, from_binary", "epcpy/epc_schemes/usdod.py: binary, from_binary"]}
{"id": "C22", "title": "Binary round-trip of the alphanumeric encodings", "statement": "For SGTIN-198, SGLN-195, GRAI-170, GIAI-202, GDTI-174 and ITIP-212: from_binary(x.binary(scheme, f)) == x for every accepted x whose serial is in canonical escaped form.", "quantifier": "all accepted URIs with canonical serials, all filter values", "why_tests_cant": "all alphanumeric serials", "anchors": ["epcpy/epc_schemes/sgtin.py: binary, from_binary", "epcpy/epc_schemes/sgln.py: binary, from_binary", "epcpy/epc_schemes/grai.py: binary, from_binary", "epcpy/epc_schemes/giai.py: binary, from_binary", "epcpy/epc_schemes/gdti.py: binary, from_binary", "epcpy/epc_schemes/itip.py: binary, from_binary"]}
{"id": "C23", "title": "Binary round-trip of the variable-length encodings", "statement": "For CPI-var and ADI-var: from_binary(x.binary(scheme, f)) == x for every accepted x, also when the binary is followed by zero padding.", "quantifier": "all accepted URIs, all filter values, any amount of zero padding", "why_tests_cant": "terminator detection over all bit patterns", "anchors": ["epcpy/epc_schemes/cpi.py: binary, from_binary", "epcpy/epc_schemes/adi.py: binary, from_binary"]}
{"id": "C24", "title": "Encoding is injective", "statement": "Two accepted objects of one class (with canonical components, and for which tag_uri returns) that have the same binary, hex or base64 under the same coding scheme have the same URI.", "quantifier": "all pairs of objects", "why_tests_cant": "pairs of unbounded inputs", "anchors": ["epcpy/epc_schemes/sgtin.py: binary", "epcpy/epc_schemes/sscc.py: binary", "epcpy/epc_schemes/sgln.py: binary", "epcpy/epc_schemes/grai.py: binary", "epcpy/epc_schemes/giai.py: binary", "epcpy/epc_schemes/gsrn.py: binary", "epcpy/epc_schemes/gsrnp.py: binary", "epcpy/epc_schemes/gdti.py: binary", "epcpy/epc_schemes/cpi.py: binary", "epcpy/epc_schemes/sgcn.py: binary", "epcpy/epc_schemes/itip.py: binary", "epcpy/epc_schemes/gid.py: binary", "epcpy/epc_schemes/usdod.py: binary"]}
{"id": "C25", "title": "Hex form is word aligned and round-trips", "statement": "x.hex(...) is the uppercase hexadecimal form of x.binary(...) zero-padded on the right to a multiple of 16 bits: it has exactly ceil(len/16)*4 digits (no leading digit is lost) and from_hex(x.hex(...)) == x whenever from_binary on the padded binary gives x.", "quantifier": "all objects, schemes, filter values", "why_tests_cant": "all inputs; int formatting drops leading zeros", "anchors": ["epcpy/epc_schemes/base_scheme.py: TagEncodable.hex, TagEncodable.from_hex"]}
{"id": "C26", "title": "Base64 form round-trips", "statement": "from_base64(x.base64(...)) == x for every object, scheme and filter for which tag_uri returns and the hex form round-trips; padding characters at the end of the base64 text may be dropped.", "quantifier": "all objects, schemes, filter values", "why_tests_cant": "three alignment classes times all contents", "anchors": ["epcpy/epc_schemes/base_scheme.py: TagEncodable.base64, TagEncodable.from_base64"]}
{"id": "C27", "title": "Trailing bits after a fixed-size encoding are ignored", "statement": "For every fixed-size coding scheme, from_binary(b + extra) behaves exactly like from_binary(b) whenever b is at least as long as the scheme's size.", "quantifier": "all strings b and extra", "why_tests_cant": "all strings", "anchors": ["epcpy/utils/common.py: parse_header_and_truncate_binary"]}
{"id": "C28", "title": "Too-short binaries are rejected with ConvertException", "statement": "from_binary on a string that starts with one of the class's fixed-size headers but is shorter than the scheme's size raises ConvertException.", "quantifier": "all strings", "why_tests_cant": "all strings", "anchors": ["epcpy/utils/common.py: parse_header_and_truncate_binary"]}
{"id": "C29", "title": "Unknown headers are rejected with ConvertException", "statement": "binary_to_tag_encodable raises ConvertException for every string whose first eight characters are not a known header; so do the classes' from_binary methods.", "quantifier": "all strings", "why_tests_cant": "all strings", "anchors": ["epcpy/utils/parsers.py: binary_to_tag_encodable", "epcpy/utils/common.py: parse_header_and_truncate_binary"]}
{"id": "C30", "title": "Decoding then encoding reproduces the bits", "statement": "For the 96-bit numeric schemes, if from_binary(b) returns x then x.binary(scheme, filter bits of b) equals the first 96 bits of b (with the reserved bits of SSCC/GSRN/GSRNP zeroed).", "quantifier": "all bit strings", "why_tests_cant": "2**96 strings", "anchors": ["epcpy/epc_schemes/sgtin.py: from_binary, binary", "epcpy/epc_schemes/sscc.py: from_binary, binary", "epcpy/epc_schemes/sgln.py: from_binary, binary", "epcpy/epc_schemes/grai.py: from_binary, binary", "epcpy/epc_schemes/giai.py: from_binary, binary", "epcpy/epc_schemes/gsrn.py: from_binary, binary", "epcpy/epc_schemes/gsrnp.py: from_binary, binary", "epcpy/epc_schemes/gdti.py: from_binary, binary", "epcpy/epc_schemes/cpi.py: from_binary, binary", "epcpy/epc_schemes/sgcn.py: from_binary, binary", "epcpy/epc_schemes/gid.py: from_binary, binary"]}
{"id": "C31", "title": "Reserved partition values are rejected", "statement": "A bit string whose 3-bit partition value is 7 is rejected with ConvertException by every partition-table scheme, and a company prefix or (padded) reference field holding a number too large for its digit count is rejected with ConvertException.", "quantifier": "all bit strings", "why_tests_cant": "there are 2^96 to 2^212 bit strings of each kind, and tags in the field carry any of them; examples only show single ones", "anchors": ["epcpy/utils/common.py: decode_partition_table"]}
{"id": "C32", "title": "GS1 element strings round-trip", "statement": "from_gs1_element_string(x.gs1_element_string(), len(company prefix)) == x for every accepted x with canonical components.", "quantifier": "all accepted URIs with canonical components", "why_tests_cant": "unbounded inputs; parsing re-splits on parenthesised application identifiers", "anchors": ["epcpy/epc_schemes/sgtin.py: gs1_element_string, from_gs1_element_string", "epcpy/epc_schemes/sscc.py: gs1_element_string, from_gs1_element_string", "epcpy/epc_schemes/sgln.py: gs1_element_string, from_gs1_element_string", "epcpy/epc_schemes/grai.py: gs1_element_string, from_gs1_element_string", "epcpy/epc_schemes/giai.py: gs1_element_string, from_gs1_element_string", "epcpy/epc_schemes/gsrn.py: gs1_element_string, from_gs1_element_string", "epcpy/epc_schemes/gsrnp.py: gs1_element_string, from_gs1_element_string", "epcpy/epc_schemes/gdti.py: gs1_element_string, from_gs1_element_string", "epcpy/epc_schemes/cpi.py: gs1_element_string, from_gs1_element_string", "epcpy/epc_schemes/sgcn.py: gs1_element_string, from_gs1_element_string", "epcpy/epc_schemes/ginc.py: gs1_element_string, from_gs1_element_string", "epcpy/epc_schemes/gsin.py: gs1_element_string, from_gs1_element_string", "epcpy/epc_schemes/itip.py: gs1_element_string, from_gs1_element_string", "epcpy/epc_schemes/upui.py: gs1_element_string, from_gs1_element_string", "epcpy/epc_schemes/pgln.py: gs1_element_string, from_gs1_element_string", "epcpy/epc_schemes/lgtin.py: gs1_element_string, from_gs1_element_string"]}
{"id": "C33", "title": "GS1 keys have the right length and a valid check digit", "statement": "For accepted x: the key of SGTIN/LGTIN is 14 digits, SSCC/GSRN/GSRNP 18, GSIN 17, SGLN/PGLN 13, and the numeric part of GRAI/GDTI/SGCN keys is 13 digits; each ends (its numeric part) with the check digit that makes the GS1 weighted sum a multiple of 10, and the key contains the company prefix.", "quantifier": "all accepted URIs", "why_tests_cant": "all inputs", "anchors": ["epcpy/epc_schemes/sgtin.py: gs1_key", "epcpy/epc_schemes/lgtin.py: gs1_key", "epcpy/epc_schemes/sscc.py: gs1_key", "epcpy/epc_schemes/gsrn.py: gs1_key", "epcpy/epc_schemes/gsrnp.py: gs1_key", "epcpy/epc_schemes/gsin.py: gs1_key", "epcpy/epc_schemes/sgln.py: gs1_key", "epcpy/epc_schemes/pgln.py: gs1_key", "epcpy/epc_schemes/grai.py: gs1_key", "epcpy/epc_schemes/gdti.py: gs1_key", "epcpy/epc_schemes/sgcn.py: gs1_key"]}
{"id": "C34", "title": "Shorter GTINs are returned exactly when they exist", "statement": "gs1_key(gtin_type=GTIN8/12/13) returns the last 8/12/13 digits of the GTIN-14 if the dropped leading digits are all zero, and raises ConvertException otherwise; padding the result back with zeros gives the GTIN-14.", "quantifier": "all accepted SGTINs and LGTINs", "why_tests_cant": "all inputs", "anchors": ["epcpy/epc_schemes/sgtin.py: gtin, gs1_key", "epcpy/epc_schemes/lgtin.py: gtin, gs1_key"]}
{"id": "C35", "title": "SGTIN from GTIN plus serial", "statement": "SGTIN.from_gtin_plus_serial(x.gtin(), serial of x, len(company prefix)) == x for every accepted x; and if from_gtin_plus_serial(g, s, n) returns y for a 14-digit g, then y.gtin() agrees with g in all digits but the last, which is the correct check digit.", "quantifier": "all accepted SGTINs; all GTIN strings, serials and prefix lengths", "why_tests_cant": "all inputs", "anchors": ["epcpy/epc_schemes/sgtin.py: from_gtin_plus_serial, gtin"]}
{"id": "C36", "title": "Element strings with a wrong check digit", "statement": "from_gs1_element_string rejects an element string whose check digit is wrong; i.e. if it returns x then x.gs1_element_string() is the string that was parsed.", "quantifier": "all element strings, all prefix lengths", "why_tests_cant": "all strings", "anchors": ["epcpy/epc_schemes/sgtin.py: from_gs1_element_string", "epcpy/epc_schemes/sscc.py: from_gs1_element_string", "epcpy/epc_schemes/sgln.py: from_gs1_element_string", "epcpy/epc_schemes/gsrn.py: from_gs1_element_string", "epcpy/epc_schemes/gsrnp.py: from_gs1_element_string", "epcpy/epc_schemes/pgln.py: from_gs1_element_string", "epcpy/epc_schemes/gsin.py: from_gs1_element_string"]}
{"id": "C37", "title": "A GS1 element string is claimed by at most one scheme", "statement": "No string matches the element-string patterns of two schemes, so the dispatch of gs1_element_string_to_gs1_element does not depend on the order of its table; and every x.gs1_element_string() is dispatched back to x's own class.", "quantifier": "all strings", "why_tests_cant": "all strings", "anchors": ["epcpy/utils/regex.py: *_GS1_ELEMENT_STRING", "epcpy/utils/parsers.py: gs1_element_string_to_gs1_element"]}
{"id": "C38", "title": "Pure identity dispatch", "statement": "epc_pure_identity_to_scheme(u) returns exactly what the class named in the URI's scheme field returns for u, it returns an object with epc_uri == u for every u accepted by any class, and raises ConvertException for unknown scheme names; the gs1_element/gs1_keyed/tag_encodable variants return the same object or raise ConvertException.", "quantifier": "all strings", "why_tests_cant": "all strings", "anchors": ["epcpy/utils/parsers.py: epc_pure_identity_to_*"]}
{"id": "C39", "title": "Binary, hex and base64 dispatch", "statement": "The 8-bit headers of all coding schemes are pairwise distinct, so for every TagEncodable x, binary_to_tag_encodable(x.binary(...)), hex_to_tag_encodable(x.hex(...)) and base64_to_tag_encodable(x.base64(...)) are what x's own class returns.", "quantifier": "all objects, schemes and filter values", "why_tests_cant": "all inputs", "anchors": ["epcpy/utils/parsers.py: binary_to_tag_encodable, hex_to_tag_encodable, base64_to_tag_encodable, TAG_ENCODABLE_BINARY_HEADERS"]}
{"id": "C40", "title": "get_gs1_key agrees over all representations", "statement": "For every GS1-keyed object x: get_gs1_key of x's pure identity URI, tag URI, binary, hex and GS1 element string (with the company prefix length) all equal x.gs1_key() whenever these representations exist and round-trip.", "quantifier": "all accepted URIs, coding schemes, filter values", "why_tests_cant": "five parsers and their precedence on all inputs", "anchors": ["epcpy/utils/parsers.py: get_gs1_key"]}
{"id": "C41", "title": "get_gs1_key of an id pattern is the key of its members", "statement": "For an SGTIN or SGLN pattern with a wildcard serial, get_gs1_key(pattern) equals get_gs1_key(u) for every URI u of the pattern; patterns with two or more wildcards raise ConvertException; for GRAI and GDTI the key of a pattern is the key of its members too.", "quantifier": "all patterns and members", "why_tests_cant": "all pairs of pattern and member", "anchors": ["epcpy/utils/parsers.py: _idpat_to_gs1_keyed_scheme, get_gs1_key"]}
{"id": "C42", "title": "get_gs1_key refuses sources without a GS1 key", "statement": "For every accepted ADI, BIC, CPI, GID, IMOVN, ITIP, UPUI and USDOD URI, get_gs1_key raises ConvertException.", "quantifier": "all accepted URIs of these schemes", "why_tests_cant": "all inputs", "anchors": ["epcpy/utils/parsers.py: get_gs1_key"]}
{"id": "C43", "title": "Equality of EPC objects", "statement": "x == y holds exactly when both are EPC schemes with the same epc_uri; it is an equivalence relation; equal objects accepted by constructors are of the same class and have equal components, keys and encodings.", "quantifier": "all pairs and triples of objects of all 21 classes", "why_tests_cant": "all pairs", "anchors": ["epcpy/epc_schemes/base_scheme.py: EPCScheme.__eq__"]}
{"id": "C44", "title": "Hexadecimal input is case-insensitive", "statement": "from_hex(h), hex_to_tag_encodable(h) and get_gs1_key(h) give the same result for h in upper, lower or mixed case.", "quantifier": "all hex strings", "why_tests_cant": "all strings", "anchors": ["epcpy/epc_schemes/base_scheme.py: TagEncodable.from_hex", "epcpy/utils/parsers.py: hex_to_tag_encodable, get_gs1_key"]}
{"id": "C45", "title": "GS1 keys do not depend on the serial", "statement": "Two accepted SGTINs (LGTINs, SGLNs) with the same company prefix and reference have the same GS1 key; conversely equal keys and equal company-prefix length imply equal company prefix and reference.", "quantifier": "all pairs", "why_tests_cant": "pairs of unbounded inputs", "anchors": ["epcpy/epc_schemes/sgtin.py: gs1_key", "epcpy/epc_schemes/lgtin.py: gs1_key", "epcpy/epc_schemes/sgln.py: gs1_key"]}
{"id": "C46", "title": "gs1_element_string is available for every accepted object", "statement": "For every accepted object of a GS1Element class, gs1_element_string() returns (does not raise) and the result matches the class's own element-string pattern.", "quantifier": "all accepted URIs of the 16 GS1Element classes", "why_tests_cant": "all inputs, including degenerate component lengths", "anchors": ["epcpy/epc_schemes/sgtin.py: gs1_element_string", "epcpy/epc_schemes/sscc.py: gs1_element_string", "epcpy/epc_schemes/sgln.py: gs1_element_string", "epcpy/epc_schemes/grai.py: gs1_element_string", "epcpy/epc_schemes/giai.py: gs1_element_string", "epcpy/epc_schemes/gsrn.py: gs1_element_string", "epcpy/epc_schemes/gsrnp.py: gs1_element_string", "epcpy/epc_schemes/gdti.py: gs1_element_string", "epcpy/epc_schemes/cpi.py: gs1_element_string", "epcpy/epc_schemes/sgcn.py: gs1_element_string", "epcpy/epc_schemes/ginc.py: gs1_element_string", "epcpy/epc_schemes/gsin.py: gs1_element_string", "epcpy/epc_schemes/itip.py: gs1_element_string", "epcpy/epc_schemes/upui.py: gs1_element_string", "epcpy/epc_schemes/pgln.py: gs1_element_string", "epcpy/epc_schemes/lgtin.py: gs1_element_string"]}
{"id": "C47", "title": "The long coding schemes are always available", "statement": "x.tag_uri(c, f) returns, for every accepted object x, every filter value f and c one of sgtin-198, sgln-195, grai-170, giai-202, gdti-174, cpi-var, itip-212, and the only coding scheme of SSCC, GSRN, GSRNP, SGCN, GID, USDOD and ADI; the result is urn:epc:tag:<c>:<f>.<components of x>.", "quantifier": "all accepted URIs, all filter values", "why_tests_cant": "unbounded inputs: no length or character check of tag_uri may refuse what the constructor accepts", "anchors": ["epcpy/epc_schemes/sgtin.py: tag_uri", "epcpy/epc_schemes/sgln.py: tag_uri", "epcpy/epc_schemes/grai.py: tag_uri", "epcpy/epc_schemes/giai.py: tag_uri", "epcpy/epc_schemes/gdti.py: tag_uri", "epcpy/epc_schemes/cpi.py: tag_uri", "epcpy/epc_schemes/itip.py: tag_uri", "epcpy/epc_schemes/sscc.py: tag_uri", "epcpy/epc_schemes/gsrn.py: tag_uri", "epcpy/epc_schemes/gsrnp.py: tag_uri", "epcpy/epc_schemes/sgcn.py: tag_uri", "epcpy/epc_schemes/gid.py: tag_uri", "epcpy/epc_schemes/usdod.py: tag_uri", "epcpy/epc_schemes/adi.py: tag_uri"]}
{"id": "C48", "title": "Exactly which free-form serials the constructors accept", "statement": "For SGTIN, LGTIN, SGLN, GRAI, GDTI, UPUI, ITIP, GINC and GIAI: a URI whose serial is the escaped form of a text over the GS1 character set is accepted if and only if the numeric components consist of digits and have the documented lengths, the text is non-empty, has no more characters than documented (for GRAI, GDTI and GIAI the limit counts the escaped form) and no escape that contains a letter is followed by further text before the next escape of two decimal digits. Everything accepted has the prefix of its class, numeric components of digits, and a serial of allowed characters in which a hexadecimal digit follows every percent sign.", "quantifier": "all strings", "why_tests_cant": "all strings of every length; exact acceptance condition in both directions", "anchors": ["epcpy/epc_schemes/sgtin.py: __init__", "epcpy/epc_schemes/lgtin.py: __init__", "epcpy/epc_schemes/sgln.py: __init__", "epcpy/epc_schemes/grai.py: __init__", "epcpy/epc_schemes/gdti.py: __init__", "epcpy/epc_schemes/upui.py: __init__", "epcpy/epc_schemes/itip.py: __init__", "epcpy/epc_schemes/ginc.py: __init__", "epcpy/epc_schemes/giai.py: __init__", "epcpy/utils/common.py: verify_gs3a3_component, replace_uri_escapes"]}
{"id": "C49", "title": "Binaries with character-string serials have the documented size whenever they are returned", "statement": "If binary() with sgtin-198, sgln-195, grai-170, giai-202, gdti-174 or itip-212 returns for an accepted URI, the result consists of '0' and '1' only and has exactly 198, 195, 170, 202, 174 or 212 characters, whatever the serial is.", "quantifier": "all accepted URIs, all filter values", "why_tests_cant": "serials with arbitrary, also ill-formed, escapes", "anchors": ["epcpy/epc_schemes/sgtin.py: binary", "epcpy/epc_schemes/sgln.py: binary", "epcpy/epc_schemes/grai.py: binary", "epcpy/epc_schemes/giai.py: binary", "epcpy/epc_schemes/gdti.py: binary", "epcpy/epc_schemes/itip.py: binary", "epcpy/utils/common.py: encode_string, encode_partition_table"]}
{"id": "C50", "title": "Escaping and unescaping work in a single pass on every string", "statement": "replace_uri_escapes(s) equals reading s once from left to right and replacing %25 %3F %3E %3C %2F %26 %22 by % ? > < / & double-quote; revert_uri_escapes(s) equals replacing each of these characters of s by its escape; nothing is replaced twice and nothing else is changed.", "quantifier": "all strings, not only serials of accepted URIs", "why_tests_cant": "all strings; the order of the successive replacements matters", "anchors": ["epcpy/utils/common.py: replace_uri_escapes, revert_uri_escapes"]}
{"id": "C51", "title": "binary() refuses what tag_uri() refuses", "statement": "If tag_uri(c, f) raises ConvertException for an accepted object because its serial does not fit coding scheme c, then binary(c, f) raises as well.", "quantifier": "all accepted URIs, c one of sgtin-96, sgln-96, grai-96, gdti-96, giai-96, cpi-96, itip-110", "why_tests_cant": "all serials", "anchors": ["epcpy/epc_schemes/sgtin.py: tag_uri, binary", "epcpy/epc_schemes/sgln.py: tag_uri, binary", "epcpy/epc_schemes/grai.py: tag_uri, binary", "epcpy/epc_schemes/gdti.py: tag_uri, binary", "epcpy/epc_schemes/giai.py: tag_uri, binary", "epcpy/epc_schemes/cpi.py: tag_uri, binary", "epcpy/epc_schemes/itip.py: tag_uri, binary", "epcpy/utils/common.py: str_to_binary"]}
{"id": "C52", "title": "Decoding of numeric encodings is completely specified", "statement": "For every bit string that begins with the header of SGTIN-96, SSCC-96, SGLN-96, GRAI-96, GIAI-96, GID-96, GSRN-96, GSRNP-96, GDTI-96, CPI-96, SGCN-96, ITIP-110 or USDOD-96 and has at least the size of the encoding: if the numbers in the fields of the standard's layout have no more digits than the partition allows, from_binary returns the EPC whose components are exactly these numbers (company prefix and reference padded with zeros, serial without); otherwise it raises ConvertException.", "quantifier": "all bit strings", "why_tests_cant": "all 2^96 (and longer) bit strings", "anchors": ["epcpy/epc_schemes/sgtin.py: from_binary", "epcpy/epc_schemes/sscc.py: from_binary", "epcpy/epc_schemes/sgln.py: from_binary", "epcpy/epc_schemes/grai.py: from_binary", "epcpy/epc_schemes/giai.py: from_binary", "epcpy/epc_schemes/gid.py: from_binary", "epcpy/epc_schemes/gsrn.py: from_binary", "epcpy/epc_schemes/gsrnp.py: from_binary", "epcpy/epc_schemes/gdti.py: from_binary", "epcpy/epc_schemes/cpi.py: from_binary", "epcpy/epc_schemes/sgcn.py: from_binary", "epcpy/epc_schemes/itip.py: from_binary", "epcpy/epc_schemes/usdod.py: from_binary", "epcpy/utils/common.py: decode_partition_table, decode_numeric_string, decode_fixed_width_integer, decode_cage_code"]}
{"id": "C53", "title": "Decoding of encodings with text is completely specified", "statement": "For every bit string that begins with the header of SGTIN-198, SGLN-195, GRAI-170, GDTI-174, ITIP-212 or GIAI-202 and has at least the size of the encoding: if the numeric fields are in range and the seven-bit groups hold a non-empty text over the GS1 character set, not too long, in which no character escaped with a letter stands at the start or after a character escaped with two digits unless followed by another such, from_binary returns the EPC with these components; a text with other characters, an empty or too long text, or a numeric field out of range raises ConvertException; a text that breaks only the last rule raises ConvertException, ValueError or OverflowError.", "quantifier": "all bit strings", "why_tests_cant": "there are 2^96 to 2^212 bit strings of each kind, and tags in the field carry any of them; examples only show single ones", "anchors": ["epcpy/epc_schemes/sgtin.py: from_binary", "epcpy/epc_schemes/sgln.py: from_binary", "epcpy/epc_schemes/grai.py: from_binary", "epcpy/epc_schemes/gdti.py: from_binary", "epcpy/epc_schemes/itip.py: from_binary", "epcpy/epc_schemes/giai.py: from_binary", "epcpy/utils/common.py: decode_string, decode_partition_table, verify_gs3a3_component"]}
{"id": "C54", "title": "Decoding of CPI-var is completely specified", "statement": "For every bit string that begins with the header of CPI-var and reaches to the end of the company prefix: let the text be what the six-bit groups after the company prefix spell up to six zeros or the end, and the serial be the number in the (at most 40) bits after the six zeros. If the company prefix has no more digits than the partition allows, the text after escaping is that of a non-empty part reference, it is not longer than the partition allows, company prefix and reference have at most 30 characters and the serial at most 12 digits, from_binary returns the EPC with exactly these components; otherwise it raises ConvertException. A tag cut off before the serial is read with serial 0.", "quantifier": "all bit strings", "why_tests_cant": "bit strings of every length and content; examples only show single ones", "anchors": ["epcpy/epc_schemes/cpi.py: from_binary", "epcpy/utils/common.py: decode_partition_table, decode_string_six_bits"]}
{"id": "C55", "title": "Decoding of ADI-var is completely specified", "statement": "For every bit string of at least 50 bits that begins with the header of ADI-var: the part number is the text in the six-bit groups from bit 50 to the first six consecutive zeros (aligned or not), the serial number the text in the groups behind them that do not reach into the last six bits. If bits 14 to 49 hold a CAGE code and both texts are, escaped, those of a part number and a serial number of permitted length, from_binary returns the EPC with exactly these components; otherwise, also when there are no six zeros, it raises ConvertException.", "quantifier": "all bit strings", "why_tests_cant": "bit strings of every length and content; examples only show single ones", "anchors": ["epcpy/epc_schemes/adi.py: from_binary", "epcpy/utils/common.py: decode_cage_code_six_bits, decode_string_six_bits"]}
{"id": "C56", "title": "Encoding is completely specified", "statement": "For every accepted URI made of ASCII characters, every coding scheme and every filter value: if the tag URI of that coding scheme exists (for the encodings with a text: if the serial number is the escaped form of a text over the GS1 character set), binary returns exactly the header, the filter value, the partition value 12 - (length of the company prefix), the company prefix, the reference and the serial number of the identifier, as numbers with the most significant bit first in the widths of the TDS coding tables; a text as seven-bit codes (six-bit for CPI-var and ADI-var, eight-bit for a CAGE code in USDOD-96, which is aligned to the right with a space), then zeros up to the width of the field or a terminator of six zeros; SSCC, GSRN and GSRNP end in 24 zeros; an SGCN serial number is written with a leading 1.", "quantifier": "all accepted ASCII URIs, all coding schemes, all filter values", "why_tests_cant": "the set of identifiers is far too large to enumerate; a round trip through decode would hide an encoding that is wrong in the same way on both sides", "anchors": ["epcpy/epc_schemes/sgtin.py: binary", "epcpy/epc_schemes/sscc.py: binary", "epcpy/epc_schemes/sgln.py: binary", "epcpy/epc_schemes/grai.py: binary", "epcpy/epc_schemes/giai.py: binary", "epcpy/epc_schemes/gsrn.py: binary", "epcpy/epc_schemes/gsrnp.py: binary", "epcpy/epc_schemes/gdti.py: binary", "epcpy/epc_schemes/sgcn.py: binary", "epcpy/epc_schemes/itip.py: binary", "epcpy/epc_schemes/cpi.py: binary", "epcpy/epc_schemes/gid.py: binary", "epcpy/epc_schemes/usdod.py: binary", "epcpy/epc_schemes/adi.py: binary", "epcpy/utils/common.py: encode_partition_table, encode_string, encode_string_six_bits, encode_fixed_width_integer, encode_numeric_string, encode_cage_code, encode_cage_code_six_bits"]}
{"id": "C57", "title": "A tag URI determines the tag", "statement": "For every accepted URI: whenever tag_uri(coding scheme, filter) returns t, the generic parser applied to t returns that very object (same class, same attributes), and no other object of that class, coding scheme or filter value has the tag URI t.", "quantifier": "all accepted URIs, all coding schemes, all filter values", "why_tests_cant": "pairs of identifiers colliding on one tag URI cannot be searched by tests", "anchors": ["epcpy/epc_schemes/sgtin.py: tag_uri, from_tag_uri", "epcpy/epc_schemes/sscc.py: tag_uri, from_tag_uri", "epcpy/epc_schemes/sgln.py: tag_uri, from_tag_uri", "epcpy/epc_schemes/grai.py: tag_uri, from_tag_uri", "epcpy/epc_schemes/giai.py: tag_uri, from_tag_uri", "epcpy/epc_schemes/gsrn.py: tag_uri, from_tag_uri", "epcpy/epc_schemes/gsrnp.py: tag_uri, from_tag_uri", "epcpy/epc_schemes/gdti.py: tag_uri, from_tag_uri", "epcpy/epc_schemes/sgcn.py: tag_uri, from_tag_uri", "epcpy/epc_schemes/itip.py: tag_uri, from_tag_uri", "epcpy/epc_schemes/cpi.py: tag_uri, from_tag_uri", "epcpy/epc_schemes/gid.py: tag_uri, from_tag_uri", "epcpy/epc_schemes/usdod.py: tag_uri, from_tag_uri", "epcpy/epc_schemes/adi.py: tag_uri, from_tag_uri", "epcpy/utils/parsers.py: tag_uri_to_tag_encodable"]}
{"id": "C58", "title": "The bits of a tag determine class, coding scheme and filter value", "statement": "If two objects of a class give the same binary string, they were encoded with the same coding scheme and the same filter value, and the first eight bits of the binary string are a header of that class and of no other class.", "quantifier": "all pairs of objects, coding schemes and filter values", "why_tests_cant": "quantifies over all pairs of encodings", "anchors": ["epcpy/epc_schemes/sgtin.py: binary, BinaryHeader", "epcpy/epc_schemes/sscc.py: binary, BinaryHeader", "epcpy/epc_schemes/sgln.py: binary, BinaryHeader", "epcpy/epc_schemes/grai.py: binary, BinaryHeader", "epcpy/epc_schemes/giai.py: binary, BinaryHeader", "epcpy/epc_schemes/gsrn.py: binary, BinaryHeader", "epcpy/epc_schemes/gsrnp.py: binary, BinaryHeader", "epcpy/epc_schemes/gdti.py: binary, BinaryHeader", "epcpy/epc_schemes/sgcn.py: binary, BinaryHeader", "epcpy/epc_schemes/itip.py: binary, BinaryHeader", "epcpy/epc_schemes/cpi.py: binary, BinaryHeader", "epcpy/epc_schemes/gid.py: binary, BinaryHeader", "epcpy/epc_schemes/usdod.py: binary, BinaryHeader", "epcpy/epc_schemes/adi.py: binary, BinaryHeader"]}
{"id": "C59", "title": "Parsing element strings is completely specified", "statement": "For every string s and every company prefix length n: from_gs1_element_string(s, n) returns an object exactly if s is the application identifier, the right number of digits and a serial part over the class's character set and length, and 6 <= n <= 12 (UPUI: 1 <= n <= 12); the object is the one whose URI has the first n digits (behind the indicator or extension digit) as company prefix, the remaining digits without the check digit as reference and the escaped serial part. Every other input raises ConvertException, except serial parts with a parenthesised group (SGTIN, LGTIN, SGLN: ValueError) and serial parts whose escapes are misread (ConvertException, ValueError or OverflowError). Negative n count from the end of the digits. (GIAI, GINC: strings without a dot among the first n characters; GIAI: without colon.)", "quantifier": "all strings, all company prefix lengths", "why_tests_cant": "the set of strings is infinite, and rejection can only be proved, not tested", "anchors": ["epcpy/epc_schemes/sgtin.py: from_gs1_element_string", "epcpy/epc_schemes/sscc.py: from_gs1_element_string", "epcpy/epc_schemes/sgln.py: from_gs1_element_string", "epcpy/epc_schemes/grai.py: from_gs1_element_string", "epcpy/epc_schemes/giai.py: from_gs1_element_string", "epcpy/epc_schemes/gsrn.py: from_gs1_element_string", "epcpy/epc_schemes/gsrnp.py: from_gs1_element_string", "epcpy/epc_schemes/gdti.py: from_gs1_element_string", "epcpy/epc_schemes/sgcn.py: from_gs1_element_string", "epcpy/epc_schemes/itip.py: from_gs1_element_string", "epcpy/epc_schemes/cpi.py: from_gs1_element_string", "epcpy/epc_schemes/ginc.py: from_gs1_element_string", "epcpy/epc_schemes/gsin.py: from_gs1_element_string", "epcpy/epc_schemes/lgtin.py: from_gs1_element_string", "epcpy/epc_schemes/pgln.py: from_gs1_element_string", "epcpy/epc_schemes/upui.py: from_gs1_element_string", "epcpy/utils/regex.py: *_GS1_ELEMENT_STRING"]}
{"id": "C60", "title": "Parsers raise only the listed exceptions", "statement": "For every string: a constructor raises nothing but ConvertException, ValueError or OverflowError (ConvertException only for ADI, BIC, CPI, GID, GSIN, GSRN, GSRNP, IMOVN, PGLN, SGCN, SSCC, USDOD; all three occur for the other classes); so do from_tag_uri, from_gs1_element_string, from_gtin_plus_serial, binary_/hex_/base64_to_tag_encodable, gs1_element_string_to_gs1_element and get_gs1_key without gtin_type. from_binary raises KeyError in addition, exactly if the first eight characters are no header of the class; epc_pure_identity_to_scheme and tag_uri_to_tag_encodable raise IndexError in addition, exactly if there are fewer than three colons; get_gs1_key with gtin_type raises TypeError in addition, exactly for objects with a key that are neither SGTIN nor LGTIN.", "quantifier": "all classes, all strings (decimal numerals of at most 4300 digits), all company prefix lengths", "why_tests_cant": "a caller's except clause must cover every exception; no set of test inputs shows that another exception never occurs", "anchors": ["epcpy/utils/parsers.py: get_gs1_key, epc_pure_identity_to_scheme, tag_uri_to_tag_encodable, binary_to_tag_encodable, hex_to_tag_encodable, base64_to_tag_encodable, gs1_element_string_to_gs1_element", "epcpy/epc_schemes/sgtin.py: __init__, from_tag_uri, from_binary, from_gs1_element_string", "epcpy/epc_schemes/sscc.py: __init__, from_tag_uri, from_binary, from_gs1_element_string", "epcpy/epc_schemes/sgln.py: __init__, from_tag_uri, from_binary, from_gs1_element_string", "epcpy/epc_schemes/grai.py: __init__, from_tag_uri, from_binary, from_gs1_element_string", "epcpy/epc_schemes/giai.py: __init__, from_tag_uri, from_binary, from_gs1_element_string", "epcpy/epc_schemes/gsrn.py: __init__, from_tag_uri, from_binary, from_gs1_element_string", "epcpy/epc_schemes/gsrnp.py: __init__, from_tag_uri, from_binary, from_gs1_element_string", "epcpy/epc_schemes/gdti.py: __init__, from_tag_uri, from_binary, from_gs1_element_string", "epcpy/epc_schemes/sgcn.py: __init__, from_tag_uri, from_binary, from_gs1_element_string", "epcpy/epc_schemes/itip.py: __init__, from_tag_uri, from_binary, from_gs1_element_string", "epcpy/epc_schemes/cpi.py: __init__, from_tag_uri, from_binary, from_gs1_element_string", "epcpy/epc_schemes/ginc.py: __init__, from_tag_uri, from_binary, from_gs1_element_string", "epcpy/epc_schemes/gsin.py: __init__, from_tag_uri, from_binary, from_gs1_element_string", "epcpy/epc_schemes/lgtin.py: __init__, from_tag_uri, from_binary, from_gs1_element_string", "epcpy/epc_schemes/pgln.py: __init__, from_tag_uri, from_binary, from_gs1_element_string", "epcpy/epc_schemes/upui.py: __init__, from_tag_uri, from_binary, from_gs1_element_string", "epcpy/epc_schemes/adi.py: __init__, from_tag_uri, from_binary, from_gs1_element_string", "epcpy/epc_schemes/bic.py: __init__, from_tag_uri, from_binary, from_gs1_element_string", "epcpy/epc_schemes/gid.py: __init__, from_tag_uri, from_binary, from_gs1_element_string", "epcpy/epc_schemes/imovn.py: __init__, from_tag_uri, from_binary, from_gs1_element_string", "epcpy/epc_schemes/usdod.py: __init__, from_tag_uri, from_binary, from_gs1_element_string"]}
{"id": "C61", "title": "get_gs1_key answers exactly for strings that denote an object with a key", "statement": "get_gs1_key(s, n, gtin_type) returns k exactly if s is a pure identity URI, a GS1 element string (with a non-zero company prefix length n), a tag URI, a pure identity pattern (a pure identity URI with idpat in the place of id), a binary or a hexadecimal encoding of an object of a class with GS1 keys, and k is the key of that object. The string has at most one key. Every object returned by from_tag_uri, from_binary or from_gs1_element_string equals the object constructed from its own pure identity URI and has the class that was asked. The retry of a pattern with a dummy serial never changes a result.", "quantifier": "all strings, all company prefix lengths, all GTIN types", "why_tests_cant": "both directions quantify over all strings: that nothing else is given a key cannot be tested", "anchors": ["epcpy/utils/parsers.py: get_gs1_key, idpat_to_gs1_keyed_scheme"]}
{"id": "C62", "title": "Element strings have the text GS1 prescribes", "statement": "For every accepted object of a class with an element string, gs1_element_string() is, character by character, the application identifier of the class, the key (indicator or extension digit if there is one, company prefix, reference, check digit), the second application identifier if there is one, and the serial of the URI with the seven escapes of TDS replaced (for GIAI only up to the first colon; for CPI the reference with %23 and %2F replaced). Two objects of a class whose company prefixes (ITIP: and pieces and totals) have the same length and whose element strings are equal have the same company prefix, reference and unescaped serial (ITIP: and piece and total).", "quantifier": "all accepted URIs of SGTIN, LGTIN, UPUI, ITIP, SSCC, GSRN, GSRNP, PGLN, GSIN, SGLN, GRAI, GDTI, SGCN, GIAI, GINC, CPI", "why_tests_cant": "the text must be right for every prefix length, digit and serial; that no two serials collide quantifies over pairs", "anchors": ["epcpy/epc_schemes/sgtin.py: gs1_element_string", "epcpy/epc_schemes/lgtin.py: gs1_element_string", "epcpy/epc_schemes/upui.py: gs1_element_string", "epcpy/epc_schemes/itip.py: gs1_element_string", "epcpy/epc_schemes/sscc.py: gs1_element_string", "epcpy/epc_schemes/gsrn.py: gs1_element_string", "epcpy/epc_schemes/gsrnp.py: gs1_element_string", "epcpy/epc_schemes/pgln.py: gs1_element_string", "epcpy/epc_schemes/gsin.py: gs1_element_string", "epcpy/epc_schemes/sgln.py: gs1_element_string", "epcpy/epc_schemes/grai.py: gs1_element_string", "epcpy/epc_schemes/gdti.py: gs1_element_string", "epcpy/epc_schemes/sgcn.py: gs1_element_string", "epcpy/epc_schemes/giai.py: gs1_element_string", "epcpy/epc_schemes/ginc.py: gs1_element_string", "epcpy/epc_schemes/cpi.py: gs1_element_string"]}
{"id": "C63", "title": "Digits of other scripts mean what the ASCII digits mean", "statement": "The constructors accept decimal digits of every script in numeric components. If a URI is accepted and every decimal digit in it is rewritten as the ASCII digit of the same value, the result consists of ASCII characters and is accepted; the attributes, the GS1 key, the element string and the tag URI (for every coding scheme and filter value, including whether it raises) of the new object are those of the old one rewritten in the same way, and the binary encoding is the same (or raises the same exception). ADI, BIC and IMOVN accept only ASCII characters.", "quantifier": "all accepted URIs of all 21 classes, all coding schemes, all filter values", "why_tests_cant": "there are 65 scripts with decimal digits and every position of every component may use any of them", "anchors": ["epcpy/epc_schemes/sgtin.py: __init__, tag_uri, binary, gs1_element_string, gs1_key", "epcpy/epc_schemes/sscc.py: __init__, tag_uri, binary, gs1_element_string, gs1_key", "epcpy/epc_schemes/sgln.py: __init__, tag_uri, binary, gs1_element_string, gs1_key", "epcpy/epc_schemes/grai.py: __init__, tag_uri, binary, gs1_element_string, gs1_key", "epcpy/epc_schemes/gdti.py: __init__, tag_uri, binary, gs1_element_string, gs1_key", "epcpy/epc_schemes/giai.py: __init__, tag_uri, binary, gs1_element_string, gs1_key", "epcpy/epc_schemes/gsrn.py: __init__, tag_uri, binary, gs1_element_string, gs1_key", "epcpy/epc_schemes/gsrnp.py: __init__, tag_uri, binary, gs1_element_string, gs1_key", "epcpy/epc_schemes/sgcn.py: __init__, tag_uri, binary, gs1_element_string, gs1_key", "epcpy/epc_schemes/itip.py: __init__, tag_uri, binary, gs1_element_string, gs1_key", "epcpy/epc_schemes/cpi.py: __init__, tag_uri, binary, gs1_element_string, gs1_key", "epcpy/epc_schemes/gid.py: __init__, tag_uri, binary, gs1_element_string, gs1_key", "epcpy/epc_schemes/usdod.py: __init__, tag_uri, binary, gs1_element_string, gs1_key", "epcpy/epc_schemes/pgln.py: __init__, tag_uri, binary, gs1_element_string, gs1_key", "epcpy/epc_schemes/gsin.py: __init__, tag_uri, binary, gs1_element_string, gs1_key", "epcpy/epc_schemes/ginc.py: __init__, tag_uri, binary, gs1_element_string, gs1_key", "epcpy/epc_schemes/lgtin.py: __init__, tag_uri, binary, gs1_element_string, gs1_key", "epcpy/epc_schemes/upui.py: __init__, tag_uri, binary, gs1_element_string, gs1_key", "epcpy/epc_schemes/adi.py: __init__, tag_uri, binary, gs1_element_string, gs1_key", "epcpy/epc_schemes/bic.py: __init__, tag_uri, binary, gs1_element_string, gs1_key", "epcpy/epc_schemes/imovn.py: __init__, tag_uri, binary, gs1_element_string, gs1_key"]}
{"id": "C64", "title": "What was read from a tag can be written again", "statement": "If a binary decodes to an object x, then x.tag_uri(c, f) and x.binary(c, f), for the coding scheme c and the filter value f of that binary, return, and decoding them yields x again. Exceptions: a GIAI-202 whose reference contains ':' comes back as another object; an ITIP with piece or total 99 has no binary; the tag URI of a CPI-96 is refused if company prefix and part reference exceed 15 digits (the decoder reads such tags); an ADI comes back exactly if the bits of its part number in the six-bit code, with the first five bits of the terminator, contain no six zeros in a row.", "quantifier": "all bit strings that are accepted, all 21 encodings", "why_tests_cant": "all bit strings: stray bits, empty seven-bit groups and unaligned terminators are read as well, and the object made from them need not be one the encoder can write", "anchors": ["epcpy/epc_schemes/sgtin.py: from_binary, binary, from_tag_uri, tag_uri", "epcpy/epc_schemes/sscc.py: from_binary, binary, from_tag_uri, tag_uri", "epcpy/epc_schemes/sgln.py: from_binary, binary, from_tag_uri, tag_uri", "epcpy/epc_schemes/grai.py: from_binary, binary, from_tag_uri, tag_uri", "epcpy/epc_schemes/gdti.py: from_binary, binary, from_tag_uri, tag_uri", "epcpy/epc_schemes/giai.py: from_binary, binary, from_tag_uri, tag_uri", "epcpy/epc_schemes/gsrn.py: from_binary, binary, from_tag_uri, tag_uri", "epcpy/epc_schemes/gsrnp.py: from_binary, binary, from_tag_uri, tag_uri", "epcpy/epc_schemes/sgcn.py: from_binary, binary, from_tag_uri, tag_uri", "epcpy/epc_schemes/itip.py: from_binary, binary, from_tag_uri, tag_uri", "epcpy/epc_schemes/cpi.py: from_binary, binary, from_tag_uri, tag_uri", "epcpy/epc_schemes/gid.py: from_binary, binary, from_tag_uri, tag_uri", "epcpy/epc_schemes/usdod.py: from_binary, binary, from_tag_uri, tag_uri", "epcpy/epc_schemes/adi.py: from_binary, binary, from_tag_uri, tag_uri"]}
{"id": "C65", "title": "from_gtin_plus_serial is completely specified", "statement": "SGTIN.from_gtin_plus_serial(gtin, serial, n) for a gtin of digits fills it with zeros to 14 digits and returns (or raises) exactly what SGTIN(uri) does for the URI with the n digits after the first as company prefix, the first digit and the digits up to the last but one as item reference, and the serial as it is given. The last character of the gtin is not looked at: neither its value nor whether it is a digit makes a difference. A gtin of more than 14 characters, with a non-digit before the last character, or a length that is neither in 6..12 nor in -8..-2 raises ConvertException whatever the serial. A negative length -k means 14-k.", "quantifier": "all gtin texts without a dot, all serials, all integer prefix lengths (dots: by example, they move the borders)", "why_tests_cant": "all GTIN texts of all lengths and all prefix lengths", "anchors": ["epcpy/epc_schemes/sgtin.py: from_gtin_plus_serial"]}
{"id": "C66", "title": "The helper codecs for characters, CAGE codes and part references are specified", "statement": "encode_cage_code writes every character with a code below 256 in eight bits, and decode_cage_code reads any bit string in groups of eight bits, a shorter last group as the number it is, and drops blanks; decoding what was encoded gives the text without its blanks. encode_cage_code_six_bits writes every CAGE code (five or six characters) in 36 bits, with a blank before one of five characters, and decode_cage_code_six_bits gives it back. decode_binary_char of seven bits is the character with that number, in its escaped form if it has one, and nothing for seven zeros. revert_cpi_escapes writes # and / of any text as escapes and nothing else, and replace_cpi_escapes gives back every text without a percent sign.", "quantifier": "all texts of characters below 256; all bit strings; all CAGE codes; all seven-bit strings; all texts", "why_tests_cant": "texts and bit strings of every length", "anchors": ["epcpy/utils/common.py: encode_cage_code, decode_cage_code, encode_cage_code_six_bits, decode_cage_code_six_bits, decode_binary_char", "epcpy/epc_schemes/cpi.py: replace_cpi_escapes, revert_cpi_escapes"]}
{"id": "C67", "title": "Which strings the constructors with a free-form serial accept, and which exception the others raise", "statement": "For every string u, the constructors of SGTIN, LGTIN, SGLN, GRAI, GDTI, GIAI, GINC, UPUI and ITIP return an object exactly if u is the URI of the scheme with digit components of the documented lengths and a serial over the permitted characters, with a hexadecimal digit after every percent sign, not too long, and whose percent signs make sense in the following way: cut the serial before and after every %dd (two decimal digits); every piece that starts with a percent sign is as a whole the hexadecimal code, in Python's number notation, of a character of the GS1 set 82. They raise ValueError exactly if, in a u of that form, the first piece that is not the code of any character is not a hexadecimal number below 2**31, OverflowError exactly if it is a number of 2**31 or more, and ConvertException for every other string.", "quantifier": "all strings, all nine schemes", "why_tests_cant": "all strings; which of three exceptions is raised depends on the whole serial", "anchors": ["epcpy/epc_schemes/sgtin.py: __init__", "epcpy/epc_schemes/lgtin.py: __init__", "epcpy/epc_schemes/sgln.py: __init__", "epcpy/epc_schemes/grai.py: __init__", "epcpy/epc_schemes/gdti.py: __init__", "epcpy/epc_schemes/giai.py: __init__", "epcpy/epc_schemes/ginc.py: __init__", "epcpy/epc_schemes/upui.py: __init__", "epcpy/epc_schemes/itip.py: __init__", "epcpy/utils/common.py: verify_gs3a3_component"]}
{"id": "C68", "title": "Round trips and injectivity of the encodings for digits of any script", "statement": "The constructors accept decimal digits of every script. For every accepted object x whose tag_uri(c, f) returns (for the coding schemes with a text: whose serial is in canonical escaped form; ITIP: with two-digit piece and total below 99): binary, hex and base64 return, and reading them (the binary also with anything appended) gives the object whose URI is that of x with every digit written as the ASCII digit of the same value (GIAI: and with the asset reference cut at the first colon). Two such objects have the same binary, the same hex or the same base64 form exactly if their URIs agree up to the script of the digits (GIAI: company prefix and asset reference agree) and the filter values are equal.", "quantifier": "all accepted URIs, with digits of any script; all coding schemes but ADI-var (ADI accepts ASCII only), all filter values, all trailing bits", "why_tests_cant": "digits of some 60 scripts in every position, and pairs of objects colliding on one encoding", "anchors": ["epcpy/epc_schemes/sgtin.py: binary, from_binary, hex, base64", "epcpy/epc_schemes/sscc.py: binary, from_binary, hex, base64", "epcpy/epc_schemes/sgln.py: binary, from_binary, hex, base64", "epcpy/epc_schemes/grai.py: binary, from_binary, hex, base64", "epcpy/epc_schemes/giai.py: binary, from_binary, hex, base64", "epcpy/epc_schemes/gsrn.py: binary, from_binary, hex, base64", "epcpy/epc_schemes/gsrnp.py: binary, from_binary, hex, base64", "epcpy/epc_schemes/gdti.py: binary, from_binary, hex, base64", "epcpy/epc_schemes/cpi.py: binary, from_binary, hex, base64", "epcpy/epc_schemes/sgcn.py: binary, from_binary, hex, base64", "epcpy/epc_schemes/itip.py: binary, from_binary, hex, base64", "epcpy/epc_schemes/gid.py: binary, from_binary, hex, base64", "epcpy/epc_schemes/usdod.py: binary, from_binary, hex, base64", "epcpy/utils/common.py: encode_partition_table, str_to_binary"]}
{"id": "C69", "title": "binary() is specified for every object, also when the coding scheme cannot express it", "statement": "binary(c, f) does not check that the coding scheme c can express the object; this is what it does in every case. Numeric coding schemes read the serial (GIAI-96: the asset reference; CPI-96: the part reference) as a Python integer: if it is one (perhaps a sign, digits, single underscores between them) the field is its binary form, filled with zeros to the width of the field - longer if the number is too large, with a minus sign among the bits if it is negative; otherwise binary raises ValueError. Coding schemes with a text cut the serial before and after each percent sign with two hexadecimal digits; a piece that starts with a percent sign is encoded as one hexadecimal number, the other pieces character by character in seven bits, and the field is filled with zeros on the right; binary raises ValueError exactly if such a piece is no hexadecimal number. ITIP raises ConvertException exactly if piece or total is 99 or more. The other coding schemes always return, and the bits are listed.", "quantifier": "all accepted URIs, with digits of any script; all coding schemes and filter values; all serials, canonical or not", "why_tests_cant": "the serials a scheme cannot express are the rare ones: signs, underscores, escapes glued to letters, huge numbers", "anchors": ["epcpy/epc_schemes/sgtin.py: binary", "epcpy/epc_schemes/sscc.py: binary", "epcpy/epc_schemes/sgln.py: binary", "epcpy/epc_schemes/grai.py: binary", "epcpy/epc_schemes/giai.py: binary", "epcpy/epc_schemes/gsrn.py: binary", "epcpy/epc_schemes/gsrnp.py: binary", "epcpy/epc_schemes/gdti.py: binary", "epcpy/epc_schemes/cpi.py: binary", "epcpy/epc_schemes/sgcn.py: binary", "epcpy/epc_schemes/itip.py: binary", "epcpy/epc_schemes/gid.py: binary", "epcpy/epc_schemes/usdod.py: binary", "epcpy/utils/common.py: str_to_binary, encode_string, encode_fixed_width_integer, encode_partition_table"]}
{"id": "C70", "title": "Exactly when parsing raises an exception other than ConvertException", "statement": "from_tag_uri raises ValueError or OverflowError exactly if the string is a tag URI of the class (a documented size, a numeric filter) whose pure identity URI makes the constructor raise that exception (see C67); the classes without a free-form serial raise only ConvertException. from_binary of SGTIN-198, SGLN-195, GRAI-170, GDTI-174, GIAI-202 and ITIP-212 raises ValueError or OverflowError exactly if the numeric fields are in range, the text is non-empty and over the GS1 set 82 and the percent signs of its escaped form do not make sense in the way of C67 (GIAI: the text up to the first colon, if not too long). from_gs1_element_string raises ValueError exactly for well-formed element strings whose serial contains a parenthesised group (SGTIN, LGTIN, SGLN) or, with a sensible company prefix length, percent signs that do not make sense in this way, and OverflowError likewise; for GIAI and GINC it does whatever the constructor does with the URI that has a dot behind the first n characters.", "quantifier": "all strings and bit strings, all company prefix lengths n >= 0, all classes", "why_tests_cant": "The exceptions depend on how the escapes of a serial are glued to the characters behind them, for serials of every length; and an exception type outside the documented one escapes any caller that catches ConvertException only.", "anchors": ["epcpy/epc_schemes/sgtin.py: __init__, from_gs1_element_string, from_binary", "epcpy/epc_schemes/lgtin.py: __init__, from_gs1_element_string, from_binary", "epcpy/epc_schemes/sgln.py: __init__, from_gs1_element_string, from_binary", "epcpy/epc_schemes/grai.py: __init__, from_gs1_element_string, from_binary", "epcpy/epc_schemes/gdti.py: __init__, from_gs1_element_string, from_binary", "epcpy/epc_schemes/giai.py: __init__, from_gs1_element_string, from_binary", "epcpy/epc_schemes/ginc.py: __init__, from_gs1_element_string, from_binary", "epcpy/epc_schemes/upui.py: __init__, from_gs1_element_string, from_binary", "epcpy/epc_schemes/itip.py: __init__, from_gs1_element_string, from_binary", "epcpy/utils/common.py: verify_gs3a3_component, revert_uri_escapes, decode_string", "epcpy/epc_schemes/base_scheme.py: from_tag_uri"]}
{"id": "C71", "title": "Reading a tag and writing it again changes only unused bits", "statement": "If from_binary decodes a bit string to an object, binary() of that object, for the coding scheme of the header and the filter value found in the bits, returns the same bits up to the size of the encoding, except: the bits of the reference are zero if the company prefix has twelve digits and the reference of the scheme then has none (SGLN, GRAI, GDTI, SGCN); the text of a serial number is moved to the front of its field if groups of seven zeros stand before or inside it; a CAGE code is moved to the right end of its field, without the blanks inside it; a GIAI reference ends before its first colon; what follows a CPI-var or ADI-var is dropped; a CPI-var that ends before its serial number does is completed. The text stays as it is exactly if no group of zeros is followed by a non-zero group, the key fields exactly if the unused bits are zero. An ITIP with piece and total below 99 is meant; for 99 see C64.", "quantifier": "all bit strings that decode, of any length, for SGLN-96/195, GRAI-96/170, GDTI-96/174, SGCN-96, SGTIN-198, ITIP-110/212, GIAI-202, USDOD-96, CPI-var and ADI-var; the other encodings are in C30", "why_tests_cant": "A reader that rewrites tags must know which bits it may destroy; which bits are ignored depends on the partition value and on where zeros stand in up to 168 bits of text.", "anchors": ["epcpy/epc_schemes/sgln.py: from_binary, binary", "epcpy/epc_schemes/grai.py: from_binary, binary", "epcpy/epc_schemes/gdti.py: from_binary, binary", "epcpy/epc_schemes/sgcn.py: from_binary, binary", "epcpy/epc_schemes/sgtin.py: from_binary, binary", "epcpy/epc_schemes/itip.py: from_binary, binary", "epcpy/epc_schemes/giai.py: from_binary, binary", "epcpy/epc_schemes/usdod.py: from_binary, binary", "epcpy/epc_schemes/cpi.py: from_binary, binary", "epcpy/epc_schemes/adi.py: from_binary, binary", "epcpy/utils/common.py: decode_partition_table, encode_partition_table, decode_string, encode_string, decode_cage_code, encode_cage_code"]}
{"id": "C72", "title": "hex, base64, from_hex and from_base64 are specified for every object and every text", "statement": "from_hex(s) is from_binary of the bits of s, four per digit, if s consists of hexadecimal digits (either case, decimal digits of any script); for every other s it raises ValueError or KeyError - blanks, signs, underscores and a prefix 0x, which Python's int accepts, never lead to an object. from_base64(s) ignores characters outside the base64 alphabet and any pad characters at the end and is from_binary of the bits of the others, six per character, up to the last whole byte; it raises ValueError if the number of these characters is zero or one more than a multiple of four, or if s is not ASCII; a pad character in the middle ends the text if it completes a group of four and otherwise does not count. hex() and base64() raise ValueError exactly if binary() returns something that is not a bit string (a minus sign in it), and the exception of binary() if it raises one.", "quantifier": "all strings; all objects, coding schemes and filter values of the 14 classes with a binary form", "why_tests_cant": "Every string is an input; the fallback paths of int() and of the base64 decoder accept far more than what the encoder writes.", "anchors": ["epcpy/epc_schemes/base_scheme.py: TagEncodable.from_hex, TagEncodable.from_base64, TagEncodable.hex, TagEncodable.base64", "epcpy/utils/common.py: hex_to_binary, base64_to_hex, hex_to_base64, binary_to_hex"]}
{"id": "C73", "title": "The outcome of a call does not depend on the calls made before", "statement": "Whatever sequence of tag_uri, binary, hex, base64, gs1_key and gs1_element_string calls a program makes on any number of objects, each call returns the value or raises the exception it would as the only call ever made on its object; exceptions in between change nothing.", "quantifier": "all finite sequences of calls, all objects of the 21 classes, all arguments", "why_tests_cant": "Objects carry slots for remembered results; a stale one shows only after particular histories, of which there are infinitely many.", "anchors": ["epcpy/epc_schemes/sgtin.py: tag_uri, binary", "epcpy/epc_schemes/sscc.py: tag_uri, binary", "epcpy/epc_schemes/sgln.py: tag_uri, binary", "epcpy/epc_schemes/grai.py: tag_uri, binary", "epcpy/epc_schemes/giai.py: tag_uri, binary", "epcpy/epc_schemes/gid.py: tag_uri, binary", "epcpy/epc_schemes/gsrn.py: tag_uri, binary", "epcpy/epc_schemes/gsrnp.py: tag_uri, binary", "epcpy/epc_schemes/gdti.py: tag_uri, binary", "epcpy/epc_schemes/cpi.py: tag_uri, binary", "epcpy/epc_schemes/sgcn.py: tag_uri, binary", "epcpy/epc_schemes/usdod.py: tag_uri, binary", "epcpy/epc_schemes/adi.py: tag_uri, binary", "epcpy/epc_schemes/itip.py: tag_uri, binary", "epcpy/epc_schemes/base_scheme.py: hex, base64, TagEncodable.__init__"]}
{"id": "C74", "title": "Threads that share objects do not disturb each other", "statement": "If several threads call tag_uri, binary, hex, base64, gs1_key and gs1_element_string on shared objects, then for every interleaving of their attribute accesses each call returns the value or raises the exception it would as the only call ever made on its object, and ends after a bounded number of its own steps.", "quantifier": "all numbers of threads and objects, all lists of calls per thread, all schedules", "why_tests_cant": "A race shows only under particular interleavings, which tests cannot enumerate or reproduce.", "anchors": ["epcpy/epc_schemes/sgtin.py: tag_uri, binary", "epcpy/epc_schemes/sscc.py: tag_uri, binary", "epcpy/epc_schemes/sgln.py: tag_uri, binary", "epcpy/epc_schemes/grai.py: tag_uri, binary", "epcpy/epc_schemes/giai.py: tag_uri, binary", "epcpy/epc_schemes/gid.py: tag_uri, binary", "epcpy/epc_schemes/gsrn.py: tag_uri, binary", "epcpy/epc_schemes/gsrnp.py: tag_uri, binary", "epcpy/epc_schemes/gdti.py: tag_uri, binary", "epcpy/epc_schemes/cpi.py: tag_uri, binary", "epcpy/epc_schemes/sgcn.py: tag_uri, binary", "epcpy/epc_schemes/usdod.py: tag_uri, binary", "epcpy/epc_schemes/adi.py: tag_uri, binary", "epcpy/epc_schemes/itip.py: tag_uri, binary", "epcpy/epc_schemes/base_scheme.py: hex, base64, TagEncodable.__init__"]}
{"id": "C75", "title": "from_binary takes strings of zeros and ones only", "statement": "If from_binary of any of the 14 tag classes returns an object, the text it was given consists of the characters 0 and 1.", "quantifier": "all texts, all 14 classes", "why_tests_cant": "The texts over all characters are infinitely many, and the odd ones that slip through are those nobody thinks of writing down.", "anchors": ["epcpy/epc_schemes/sgtin.py: from_binary", "epcpy/epc_schemes/sscc.py: from_binary", "epcpy/epc_schemes/sgln.py: from_binary", "epcpy/epc_schemes/grai.py: from_binary", "epcpy/epc_schemes/giai.py: from_binary", "epcpy/epc_schemes/gid.py: from_binary", "epcpy/epc_schemes/gsrn.py: from_binary", "epcpy/epc_schemes/gsrnp.py: from_binary", "epcpy/epc_schemes/gdti.py: from_binary", "epcpy/epc_schemes/cpi.py: from_binary", "epcpy/epc_schemes/sgcn.py: from_binary", "epcpy/epc_schemes/usdod.py: from_binary", "epcpy/epc_schemes/adi.py: from_binary", "epcpy/epc_schemes/itip.py: from_binary", "epcpy/utils/common.py: binary_to_int, decode_partition_table, decode_fixed_width_integer, decode_numeric_string"]}
{"id": "C76", "title": "hex and base64 take the arguments of binary, however they are passed", "statement": "For every object of the 14 tag classes and every way of passing a coding scheme and a filter value, by position, by name or by default: hex(...) and base64(...) are the hexadecimal and base64 forms of what binary(...) returns for the same arguments, and raise what it raises.", "quantifier": "all objects, all lists of positional arguments, all lists of keyword arguments", "why_tests_cant": "Every test calls hex and base64 one way only; the ways to pass the arguments are as many as the argument lists.", "anchors": ["epcpy/epc_schemes/base_scheme.py: TagEncodable.hex, TagEncodable.base64", "epcpy/epc_schemes/sgtin.py: binary", "epcpy/epc_schemes/sscc.py: binary", "epcpy/epc_schemes/sgln.py: binary", "epcpy/epc_schemes/grai.py: binary", "epcpy/epc_schemes/giai.py: binary", "epcpy/epc_schemes/gid.py: binary", "epcpy/epc_schemes/gsrn.py: binary", "epcpy/epc_schemes/gsrnp.py: binary", "epcpy/epc_schemes/gdti.py: binary", "epcpy/epc_schemes/cpi.py: binary", "epcpy/epc_schemes/sgcn.py: binary", "epcpy/epc_schemes/usdod.py: binary", "epcpy/epc_schemes/adi.py: binary", "epcpy/epc_schemes/itip.py: binary"]}
{"id": "C77", "title": "tag_uri and binary take the same arguments in the same order", "statement": "For every tag class, object and way of passing a coding scheme and a filter value: if the call gives tag_uri a scheme and a filter, then tag_uri answers for them and binary called the same way answers for the same two; if it does not, both raise TypeError.", "quantifier": "all objects, all lists of positional arguments, all lists of keyword arguments", "why_tests_cant": "As C76: each class has its own order and defaults, and tests use one call form per class.", "anchors": ["epcpy/epc_schemes/sgtin.py: tag_uri, binary", "epcpy/epc_schemes/sscc.py: tag_uri, binary", "epcpy/epc_schemes/sgln.py: tag_uri, binary", "epcpy/epc_schemes/grai.py: tag_uri, binary", "epcpy/epc_schemes/giai.py: tag_uri, binary", "epcpy/epc_schemes/gid.py: tag_uri, binary", "epcpy/epc_schemes/gsrn.py: tag_uri, binary", "epcpy/epc_schemes/gsrnp.py: tag_uri, binary", "epcpy/epc_schemes/gdti.py: tag_uri, binary", "epcpy/epc_schemes/cpi.py: tag_uri, binary", "epcpy/epc_schemes/sgcn.py: tag_uri, binary", "epcpy/epc_schemes/usdod.py: tag_uri, binary", "epcpy/epc_schemes/adi.py: tag_uri, binary", "epcpy/epc_schemes/itip.py: tag_uri, binary"]}
{"id": "C78", "title": "Which objects survive every chain of conversions", "statement": "An accepted object that is written out in any of its six notations (pure identity URI, GS1 element string, tag URI, binary, hexadecimal, base64), read with the general parser of that notation, written out in another notation, and so on any number of times, always arrives, and as the equal object, exactly if it meets the condition of its class: always for PGLN, GSIN, BIC and IMOVN; for the others that its digits are ASCII and its serial part is written canonically, plus the per-class exceptions (no serial that looks like an application identifier for SGTIN, SGLN and LGTIN; no colon for GIAI; two-digit piece and total for ITIP; no early terminator for ADI).", "quantifier": "all accepted objects of all 21 classes, all chains of conversions of any length, all coding schemes and filter values", "why_tests_cant": "The chains are infinitely many and each step branches over notations, coding schemes and filter values; a test follows a few fixed paths.", "anchors": ["epcpy/utils/parsers.py: epc_pure_identity_to_scheme, gs1_element_string_to_gs1_element, tag_uri_to_tag_encodable, binary_to_tag_encodable, hex_to_tag_encodable, base64_to_tag_encodable", "epcpy/epc_schemes/sgtin.py: tag_uri, binary", "epcpy/epc_schemes/sscc.py: tag_uri, binary", "epcpy/epc_schemes/sgln.py: tag_uri, binary", "epcpy/epc_schemes/grai.py: tag_uri, binary", "epcpy/epc_schemes/giai.py: tag_uri, binary", "epcpy/epc_schemes/gid.py: tag_uri, binary", "epcpy/epc_schemes/gsrn.py: tag_uri, binary", "epcpy/epc_schemes/gsrnp.py: tag_uri, binary", "epcpy/epc_schemes/gdti.py: tag_uri, binary", "epcpy/epc_schemes/cpi.py: tag_uri, binary", "epcpy/epc_schemes/sgcn.py: tag_uri, binary", "epcpy/epc_schemes/usdod.py: tag_uri, binary", "epcpy/epc_schemes/adi.py: tag_uri, binary", "epcpy/epc_schemes/itip.py: tag_uri, binary", "epcpy/epc_schemes/lgtin.py: gs1_element_string, from_gs1_element_string", "epcpy/epc_schemes/upui.py: gs1_element_string, from_gs1_element_string", "epcpy/epc_schemes/ginc.py: gs1_element_string, from_gs1_element_string", "epcpy/epc_schemes/pgln.py: gs1_element_string, from_gs1_element_string", "epcpy/epc_schemes/gsin.py: gs1_element_string, from_gs1_element_string"]}
{"id": "C79", "title": "from_tag_uri with includes_filter=False reads tag URIs without a filter value", "statement": "For each of the 13 tag classes with filter values: if X(urn:epc:id:NAME:BODY) is accepted, then X.from_tag_uri(urn:epc:tag:NAME-SIZE:BODY, includes_filter=False) is that object, for each size of the class.", "quantifier": "all accepted bodies, all sizes of the 13 classes", "why_tests_cant": "No test passes the flag at all; whether the text fits depends on every component of the body.", "anchors": ["epcpy/epc_schemes/base_scheme.py: TagEncodable.from_tag_uri", "epcpy/utils/regex.py: TAG_URI"]}
{"id": "C80", "title": "from_tag_uri with the wrong includes_filter returns nothing", "statement": "If tag_uri of an accepted object wrote t, then from_tag_uri(t) with the flag includes_filter the wrong way round (False for the 13 classes with filter values, True for GID) raises an exception; it never returns another object.", "quantifier": "all accepted objects, coding schemes and filter values of all 14 tag classes", "why_tests_cant": "A misread object would look plausible; that none exists has to be excluded for every serial, including those with dots and colons.", "anchors": ["epcpy/epc_schemes/base_scheme.py: TagEncodable.from_tag_uri", "epcpy/epc_schemes/sgtin.py: tag_uri", "epcpy/epc_schemes/sscc.py: tag_uri", "epcpy/epc_schemes/sgln.py: tag_uri", "epcpy/epc_schemes/grai.py: tag_uri", "epcpy/epc_schemes/giai.py: tag_uri", "epcpy/epc_schemes/gsrn.py: tag_uri", "epcpy/epc_schemes/gsrnp.py: tag_uri", "epcpy/epc_schemes/gdti.py: tag_uri", "epcpy/epc_schemes/cpi.py: tag_uri", "epcpy/epc_schemes/sgcn.py: tag_uri", "epcpy/epc_schemes/usdod.py: tag_uri", "epcpy/epc_schemes/adi.py: tag_uri", "epcpy/epc_schemes/itip.py: tag_uri", "epcpy/epc_schemes/gid.py: tag_uri, from_tag_uri"]}
{"id": "C81", "title": "Interpreter limits on decimal conversions change no result", "statement": "On an interpreter that refuses decimal numerals of more than L digits (L at least 640, the least CPython allows), GID(u) and USDOD(u) accept exactly the same strings and yield the same objects as without the limit, directly and from tag URIs; the only difference is ValueError instead of ConvertException, for exactly the well-formed URIs in which the first component that is out of range has more than L digits. In the objects of every other class each attribute that is converted to a number is so short that no limit matters.", "quantifier": "all strings, all limits of at least 640 digits, all accepted objects of the tag classes", "why_tests_cant": "The tests run on one interpreter with one limit and with numerals of a few digits.", "anchors": ["epcpy/epc_schemes/gid.py: __init__, from_tag_uri", "epcpy/epc_schemes/usdod.py: __init__, from_tag_uri", "epcpy/epc_schemes/sgtin.py: __init__, tag_uri, binary", "epcpy/epc_schemes/sscc.py: __init__, tag_uri, binary", "epcpy/epc_schemes/sgln.py: __init__, tag_uri, binary", "epcpy/epc_schemes/grai.py: __init__, tag_uri, binary", "epcpy/epc_schemes/giai.py: __init__, tag_uri, binary", "epcpy/epc_schemes/gsrn.py: __init__, tag_uri, binary", "epcpy/epc_schemes/gsrnp.py: __init__, tag_uri, binary", "epcpy/epc_schemes/gdti.py: __init__, tag_uri, binary", "epcpy/epc_schemes/cpi.py: __init__, tag_uri, binary", "epcpy/epc_schemes/sgcn.py: __init__, tag_uri, binary", "epcpy/epc_schemes/itip.py: __init__, tag_uri, binary"]}
{"id": "C82", "title": "Checking a text takes time linear in its length", "statement": "No text, however crafted, makes a format check run away: a backtracking regular-expression engine decides whether a text is a pure identity of a given class, an identity, a tag URI or a pattern URI of any class, and whether a serial number or an ADI tag image is acceptable, in a number of steps that is at most a fixed multiple of the length of the text plus one, and whether it is an element string in a number of steps below a fixed bound, and its verdict is the one the other properties are about.", "quantifier": "all texts of all lengths; the patterns of all 21 classes and of the generic parsers", "why_tests_cant": "A test measures the time for chosen texts; that no text causes catastrophic backtracking is a statement about all texts of all lengths.", "anchors": ["epcpy/utils/regex.py: SGTIN_URI, SSCC_URI, SGLN_URI, GRAI_URI, GIAI_URI, GSRN_URI, GSRNP_URI, GDTI_URI, CPI_URI, SGCN_URI, GINC_URI, GSIN_URI, ITIP_URI, UPUI_URI, PGLN_URI, GID_URI, USDOD_URI, ADI_URI, BIC_URI, IMOVN_URI, LGTIN_CLASS, EPC_URI, IDPAT_URI, TAG_URI, GS1_ELEMENT_STRING, VERIFY_GS3A3_CHARS", "epcpy/epc_schemes/base_scheme.py: from_tag_uri", "epcpy/utils/common.py: verify_gs3a3_component", "epcpy/epc_schemes/adi.py: from_binary"]}
{"id": "C83", "title": "The texts of each class have a known shortest and longest length", "statement": "For every class there is an exact range for the number of characters of the EPC URIs its constructor accepts, of the tag URIs its objects write and of the element strings its objects write: no such text is shorter or longer, and both ends are attained (SGTIN: 33 to 92, 39 to 99 and 23 to 42 characters; ADI URIs go up to 209, UPUI URIs up to 115). GIAI is the exception: arbitrarily long URIs are accepted, because what follows a colon is left unread, while its tag URIs have 30 to 54 characters and its element strings 13 to 36.", "quantifier": "all texts; all 21 classes, their coding schemes and filter values", "why_tests_cant": "A test measures the texts it contains; that no accepted text is longer than the column reserved for it is a statement about all of them.", "anchors": ["epcpy/epc_schemes/sgtin.py: __init__, tag_uri, gs1_element_string", "epcpy/epc_schemes/sscc.py: __init__, tag_uri, gs1_element_string", "epcpy/epc_schemes/sgln.py: __init__, tag_uri, gs1_element_string", "epcpy/epc_schemes/grai.py: __init__, tag_uri, gs1_element_string", "epcpy/epc_schemes/giai.py: __init__, tag_uri, gs1_element_string", "epcpy/epc_schemes/gsrn.py: __init__, tag_uri, gs1_element_string", "epcpy/epc_schemes/gsrnp.py: __init__, tag_uri, gs1_element_string", "epcpy/epc_schemes/gdti.py: __init__, tag_uri, gs1_element_string", "epcpy/epc_schemes/cpi.py: __init__, tag_uri, gs1_element_string", "epcpy/epc_schemes/sgcn.py: __init__, tag_uri, gs1_element_string", "epcpy/epc_schemes/itip.py: __init__, tag_uri, gs1_element_string", "epcpy/epc_schemes/pgln.py: __init__, gs1_element_string", "epcpy/epc_schemes/gsin.py: __init__, gs1_element_string", "epcpy/epc_schemes/ginc.py: __init__, gs1_element_string", "epcpy/epc_schemes/upui.py: __init__, gs1_element_string", "epcpy/epc_schemes/lgtin.py: __init__, gs1_element_string", "epcpy/epc_schemes/gid.py: __init__, tag_uri", "epcpy/epc_schemes/usdod.py: __init__, tag_uri", "epcpy/epc_schemes/adi.py: __init__, tag_uri", "epcpy/epc_schemes/bic.py: __init__", "epcpy/epc_schemes/imovn.py: __init__"]}
{"id": "C84", "title": "A coding scheme of another class is refused", "statement": "Whatever EPC object is written with a coding scheme that does not belong to its class (say an SSCC with the coding scheme of GSRN), neither tag_uri nor binary returns a text.", "quantifier": "all objects of the 14 tag-encodable classes, all coding schemes of the other classes, all filter values", "why_tests_cant": "Tests pass each class its own coding schemes; Python does not check the annotations, and the other combinations are 14 x 13 families of calls.", "anchors": ["epcpy/epc_schemes/sgtin.py: tag_uri, binary, BinaryHeader", "epcpy/epc_schemes/sscc.py: tag_uri, binary, BinaryHeader", "epcpy/epc_schemes/sgln.py: tag_uri, binary, BinaryHeader", "epcpy/epc_schemes/grai.py: tag_uri, binary, BinaryHeader", "epcpy/epc_schemes/giai.py: tag_uri, binary, BinaryHeader", "epcpy/epc_schemes/gsrn.py: tag_uri, binary, BinaryHeader", "epcpy/epc_schemes/gsrnp.py: tag_uri, binary, BinaryHeader", "epcpy/epc_schemes/gdti.py: tag_uri, binary, BinaryHeader", "epcpy/epc_schemes/cpi.py: tag_uri, binary, BinaryHeader", "epcpy/epc_schemes/sgcn.py: tag_uri, binary, BinaryHeader", "epcpy/epc_schemes/itip.py: tag_uri, binary, BinaryHeader", "epcpy/epc_schemes/gid.py: tag_uri, binary, BinaryHeader", "epcpy/epc_schemes/usdod.py: tag_uri, binary, BinaryHeader", "epcpy/epc_schemes/adi.py: tag_uri, binary, BinaryHeader", "epcpy/epc_schemes/base_scheme.py: TagEncodable.hex, TagEncodable.base64", "epcpy/utils/parsers.py: tag_uri_to_tag_encodable"]}
{"id": "C85", "title": "A binary has the size of its coding scheme whatever filter value is passed", "statement": "Whatever filter value (of any class) is passed to binary, the text it returns has as many bits as with the class's own filter value 0.", "quantifier": "all objects of the 13 classes with filter values, their coding schemes, the filter values of all classes (0 to 63)", "why_tests_cant": "Tests pass filter values of the own class; the enumerations of USDOD and ADI go up to 15 and 63 and nothing checks which enumeration a value is from.", "anchors": ["epcpy/epc_schemes/sgtin.py: tag_uri, binary", "epcpy/epc_schemes/sscc.py: tag_uri, binary", "epcpy/epc_schemes/sgln.py: tag_uri, binary", "epcpy/epc_schemes/grai.py: tag_uri, binary", "epcpy/epc_schemes/giai.py: tag_uri, binary", "epcpy/epc_schemes/gsrn.py: tag_uri, binary", "epcpy/epc_schemes/gsrnp.py: tag_uri, binary", "epcpy/epc_schemes/gdti.py: tag_uri, binary", "epcpy/epc_schemes/cpi.py: tag_uri, binary", "epcpy/epc_schemes/sgcn.py: tag_uri, binary", "epcpy/epc_schemes/itip.py: tag_uri, binary", "epcpy/epc_schemes/usdod.py: tag_uri, binary", "epcpy/epc_schemes/adi.py: tag_uri, binary", "epcpy/utils/common.py: str_to_binary"]}
{"id": "C86", "title": "Every class implements the methods of its family", "statement": "Every scheme class implements each method it inherits a declaration of: calling tag_uri, binary, hex, base64, from_binary, from_hex, from_base64, gs1_element_string, from_gs1_element_string or gs1_key never ends in NotImplementedError; a class outside the family of a method raises AttributeError. issubclass tells exactly the families (tags, GS1 elements, GS1 keys), and constructing an object assigns the attributes of each base class once.", "quantifier": "all 21 scheme classes, all method names", "why_tests_cant": "Tests call the methods of the classes they know; which method runs depends on the method resolution order of multiple inheritance, and a forgotten method is found only when it is called.", "anchors": ["epcpy/epc_schemes/base_scheme.py: EPCScheme, TagEncodable, GS1Element, GS1Keyed", "epcpy/epc_schemes/adi.py", "epcpy/epc_schemes/bic.py", "epcpy/epc_schemes/cpi.py", "epcpy/epc_schemes/gdti.py", "epcpy/epc_schemes/giai.py", "epcpy/epc_schemes/gid.py", "epcpy/epc_schemes/ginc.py", "epcpy/epc_schemes/grai.py", "epcpy/epc_schemes/gsin.py", "epcpy/epc_schemes/gsrn.py", "epcpy/epc_schemes/gsrnp.py", "epcpy/epc_schemes/imovn.py", "epcpy/epc_schemes/itip.py", "epcpy/epc_schemes/lgtin.py", "epcpy/epc_schemes/pgln.py", "epcpy/epc_schemes/sgcn.py", "epcpy/epc_schemes/sgln.py", "epcpy/epc_schemes/sgtin.py", "epcpy/epc_schemes/sscc.py", "epcpy/epc_schemes/upui.py", "epcpy/epc_schemes/usdod.py"]}
{"id": "C87", "title": "EPC objects can be put into sets and used as dictionary keys", "statement": "Objects that compare equal by URI can be used as elements of a set and as keys of a dictionary: hash(x) returns a value for every EPC object.", "quantifier": "all objects of the 21 classes", "why_tests_cant": "Tests compare objects with == only.", "anchors": ["epcpy/epc_schemes/base_scheme.py: EPCScheme.__eq__"]}
{"id": "C88", "title": "Every object of the library has a URI that a scheme class accepts", "statement": "Whatever class of the library an object was constructed with, its epc_uri is accepted by one of the scheme classes.", "quantifier": "all classes of the library including the base classes EPCScheme, TagEncodable, GS1Element and GS1Keyed, all texts", "why_tests_cant": "Tests construct objects of the scheme classes; the base classes are public, have constructors and class methods, and their objects compare equal to those of the scheme classes.", "anchors": ["epcpy/epc_schemes/base_scheme.py: EPCScheme.__init__, EPCScheme.__eq__, EPCScheme.from_epc_uri, TagEncodable.from_tag_uri"]}
{"id": "C89", "title": "A number can be passed as serial to from_gtin_plus_serial", "statement": "SGTIN.from_gtin_plus_serial(gtin, k, n) with an integer k as serial returns an object exactly if k has at most 20 characters in decimal (minus sign included) and n is a company prefix length; its serial is the decimal form of k, its GTIN is the given one with the check digit put right, different numbers give different objects, and it has an SGTIN-96 tag URI exactly if 0 <= k < 2**38.", "quantifier": "all GTINs of at most 14 digits, all integers as serial, all integer prefix lengths", "why_tests_cant": "Tests pass serials as text and a few numbers; the bounds -10**19, 10**20 and 2**38 are not in the code.", "anchors": ["epcpy/epc_schemes/sgtin.py: from_gtin_plus_serial, tag_uri"]}
{"id": "C90", "title": "gtin(gtin_type=n) returns n digits or raises", "statement": "gtin and gs1_key of SGTIN and LGTIN, called with any integer n as kind of GTIN, return a text of n digits or raise ConvertException.", "quantifier": "all accepted SGTINs and LGTINs, all integers n", "why_tests_cant": "Tests use the four members of the enumeration; they are plain integers and the code computes with them.", "anchors": ["epcpy/epc_schemes/sgtin.py: gtin, gs1_key", "epcpy/epc_schemes/lgtin.py: gtin, gs1_key"]}
{"id": "C91", "title": "What the readers of the classes do, statement by statement", "statement": "Executing the statements of the source, X(u), X.from_epc_uri(u), X.from_tag_uri(t), X.from_tag_uri(t, includes_filter=b), X.from_binary(t), X.from_hex(t), X.from_base64(t), X.from_gs1_element_string(t, k) and SGTIN.from_gtin_plus_serial(g, s, k) return the object, or raise the exception, that the claims about these calls describe, and the object carries the URI they describe.", "quantifier": "all 21 classes, all texts, all numbers, both values of the flag", "why_tests_cant": "Every path through the code for every text; a test exercises a path with one text.", "anchors": ["epcpy/epc_schemes/adi.py: __init__", "epcpy/epc_schemes/bic.py: __init__", "epcpy/epc_schemes/cpi.py: __init__", "epcpy/epc_schemes/gdti.py: __init__", "epcpy/epc_schemes/giai.py: __init__", "epcpy/epc_schemes/gid.py: __init__", "epcpy/epc_schemes/ginc.py: __init__", "epcpy/epc_schemes/grai.py: __init__", "epcpy/epc_schemes/gsin.py: __init__", "epcpy/epc_schemes/gsrn.py: __init__", "epcpy/epc_schemes/gsrnp.py: __init__", "epcpy/epc_schemes/imovn.py: __init__", "epcpy/epc_schemes/itip.py: __init__", "epcpy/epc_schemes/lgtin.py: __init__", "epcpy/epc_schemes/pgln.py: __init__", "epcpy/epc_schemes/sgcn.py: __init__", "epcpy/epc_schemes/sgln.py: __init__", "epcpy/epc_schemes/sgtin.py: __init__", "epcpy/epc_schemes/sscc.py: __init__", "epcpy/epc_schemes/upui.py: __init__", "epcpy/epc_schemes/usdod.py: __init__", "epcpy/epc_schemes/adi.py: from_binary", "epcpy/epc_schemes/cpi.py: from_binary", "epcpy/epc_schemes/gdti.py: from_binary", "epcpy/epc_schemes/giai.py: from_binary", "epcpy/epc_schemes/gid.py: from_binary", "epcpy/epc_schemes/grai.py: from_binary", "epcpy/epc_schemes/gsrn.py: from_binary", "epcpy/epc_schemes/gsrnp.py: from_binary", "epcpy/epc_schemes/itip.py: from_binary", "epcpy/epc_schemes/sgcn.py: from_binary", "epcpy/epc_schemes/sgln.py: from_binary", "epcpy/epc_schemes/sgtin.py: from_binary", "epcpy/epc_schemes/sscc.py: from_binary", "epcpy/epc_schemes/usdod.py: from_binary", "epcpy/epc_schemes/base_scheme.py: from_epc_uri, from_tag_uri, from_hex, from_base64", "epcpy/epc_schemes/sgtin.py: from_gtin_plus_serial, from_gs1_element_string", "epcpy/utils/common.py: decode_partition_table, decode_string"]}
{"id": "C92", "title": "What the methods of the objects do, statement by statement", "statement": "Executing the statements of the source, tag_uri, binary, hex, base64, gs1_key, gs1_element_string, gtin and == of every EPC object return the text, or raise the exception, that the claims about these calls describe; hex and base64 ignore whatever is passed by position; comparing with something that is no EPC object gives False.", "quantifier": "all objects of all classes, all coding schemes and filter values, all kinds of GTIN", "why_tests_cant": "Every path through the code for every object.", "anchors": ["epcpy/epc_schemes/adi.py: tag_uri, binary", "epcpy/epc_schemes/cpi.py: tag_uri, binary", "epcpy/epc_schemes/gdti.py: tag_uri, binary", "epcpy/epc_schemes/giai.py: tag_uri, binary", "epcpy/epc_schemes/gid.py: tag_uri, binary", "epcpy/epc_schemes/grai.py: tag_uri, binary", "epcpy/epc_schemes/gsrn.py: tag_uri, binary", "epcpy/epc_schemes/gsrnp.py: tag_uri, binary", "epcpy/epc_schemes/itip.py: tag_uri, binary", "epcpy/epc_schemes/sgcn.py: tag_uri, binary", "epcpy/epc_schemes/sgln.py: tag_uri, binary", "epcpy/epc_schemes/sgtin.py: tag_uri, binary", "epcpy/epc_schemes/sscc.py: tag_uri, binary", "epcpy/epc_schemes/usdod.py: tag_uri, binary", "epcpy/epc_schemes/base_scheme.py: __eq__, hex, base64", "epcpy/epc_schemes/sgtin.py: gtin, gs1_key, gs1_element_string", "epcpy/utils/common.py: encode_partition_table, encode_string"]}
{"id": "C93", "title": "What the functions that parse any representation do, statement by statement", "statement": "Executing the statements of the source, the twelve functions that take an identity URI, tag URI, binary, hexadecimal or base64 text, element string or any of them (get_gs1_key) return the object or text, or raise the exception, that the claims about these calls describe.", "quantifier": "all texts, all prefix lengths or none, all kinds of GTIN or none", "why_tests_cant": "The functions choose between classes by tables computed when the module is imported, and between representations by trial; tests sample one text per class.", "anchors": ["epcpy/utils/parsers.py: epc_pure_identity_to_scheme, epc_pure_identity_to_gs1_element, epc_pure_identity_to_gs1_element_string, epc_pure_identity_to_gs1_keyed, epc_pure_identity_to_gs1_key, epc_pure_identity_to_tag_encodable, gs1_element_string_to_gs1_element, tag_uri_to_tag_encodable, binary_to_tag_encodable, hex_to_tag_encodable, base64_to_tag_encodable, get_gs1_key"]}
{"id": "C94", "title": "No call with texts as arguments ends in an internal error", "statement": "Executing the statements of the source, no constructor, reader, writer or parsing function called with texts (and, where they are expected, numbers, coding schemes of the class, filter values and kinds of GTIN) ever raises NameError, UnboundLocalError, AttributeError, NotImplementedError or RecursionError: each call returns or raises ConvertException, ValueError, KeyError, IndexError, OverflowError or TypeError.", "quantifier": "all classes, objects, texts, numbers, coding schemes and filter values", "why_tests_cant": "In a dynamic language a misspelt name or a missing attribute only shows on the path that reaches it; the claim covers all paths for all inputs.", "anchors": ["epcpy/utils/parsers.py: get_gs1_key, epc_pure_identity_to_scheme", "epcpy/epc_schemes/base_scheme.py: from_tag_uri, from_hex, from_base64, hex, base64", "epcpy/epc_schemes/adi.py: __init__, binary, from_binary", "epcpy/epc_schemes/cpi.py: __init__, binary, from_binary", "epcpy/epc_schemes/gdti.py: __init__, binary, from_binary", "epcpy/epc_schemes/giai.py: __init__, binary, from_binary", "epcpy/epc_schemes/gid.py: __init__, binary, from_binary", "epcpy/epc_schemes/grai.py: __init__, binary, from_binary", "epcpy/epc_schemes/gsrn.py: __init__, binary, from_binary", "epcpy/epc_schemes/gsrnp.py: __init__, binary, from_binary", "epcpy/epc_schemes/itip.py: __init__, binary, from_binary", "epcpy/epc_schemes/sgcn.py: __init__, binary, from_binary", "epcpy/epc_schemes/sgln.py: __init__, binary, from_binary", "epcpy/epc_schemes/sgtin.py: __init__, binary, from_binary", "epcpy/epc_schemes/sscc.py: __init__, binary, from_binary", "epcpy/epc_schemes/usdod.py: __init__, binary, from_binary"]}
{"id": "C95", "title": "Arguments by position, by keyword and left out mean the same", "statement": "Every order of tag_uri's, binary's, gtin's, gs1_key's and the readers' arguments gives the same outcome by position and by keyword (in either order), whatever values are passed, and leaving out an argument that has a default is the same as passing the default.", "quantifier": "all objects, all values whatsoever as arguments", "why_tests_cant": "The parameters of tag_uri and binary have different orders in different classes, and for ITIP even differ between the two methods.", "anchors": ["epcpy/epc_schemes/adi.py: tag_uri, binary", "epcpy/epc_schemes/cpi.py: tag_uri, binary", "epcpy/epc_schemes/gdti.py: tag_uri, binary", "epcpy/epc_schemes/giai.py: tag_uri, binary", "epcpy/epc_schemes/gid.py: tag_uri, binary", "epcpy/epc_schemes/grai.py: tag_uri, binary", "epcpy/epc_schemes/gsrn.py: tag_uri, binary", "epcpy/epc_schemes/gsrnp.py: tag_uri, binary", "epcpy/epc_schemes/itip.py: tag_uri, binary", "epcpy/epc_schemes/sgcn.py: tag_uri, binary", "epcpy/epc_schemes/sgln.py: tag_uri, binary", "epcpy/epc_schemes/sgtin.py: tag_uri, binary", "epcpy/epc_schemes/sscc.py: tag_uri, binary", "epcpy/epc_schemes/usdod.py: tag_uri, binary", "epcpy/epc_schemes/sgtin.py: gtin, gs1_key", "epcpy/epc_schemes/lgtin.py: gtin, gs1_key", "epcpy/epc_schemes/base_scheme.py: from_tag_uri, from_hex, from_base64", "epcpy/utils/parsers.py: get_gs1_key"]}
{"id": "C96", "title": "Which texts the patterns accept", "statement": "The texts of all patterns are well-formed regular expressions.  Read as such, the pattern of a class's identity URIs fully matches exactly the prefix followed by the fields of the class with dots between them; the pattern for any identity URI exactly those of the 21 classes; the pattern for tag URIs exactly a coding scheme's name, the filter value (GID has none) and the fields; the pattern for id patterns exactly the fields with wildcards in place of the last ones (in an ITIP pattern neither the last two nor all five); the patterns for element strings exactly the application identifiers with digits and characters of the documented numbers.", "quantifier": "all texts; all patterns and classes", "why_tests_cant": "The patterns are concatenated from 109 constants; a test tries a few texts against each.", "anchors": ["epcpy/utils/regex.py: EPC_URI, TAG_URI, IDPAT_URI, GS1_ELEMENT_STRING, VERIFY_GS3A3_CHARS, GS3A3_COMPONENT, CPREF_COMPONENT, NUMERIC_COMPONENT"]}
{"id": "C97", "title": "Programs that send an EPC on, executed from the source", "statement": "An object is made of a URI, written down in any of the six notations (URI, element string, tag URI, binary, hexadecimal, base64; any coding scheme and filter value for which the tag URI can be written), the text is read by the general parser of its notation, the result is written down again, and so on, any number of times.  The object that arrives is the object sent, whatever the notations, if and only if the URI meets the conditions of its class.  In every case what arrives is an object that its class makes of its own URI, or a documented exception; and that holds for everything the general parsers return.  All of this is stated about the statements of the source, executed one by one.", "quantifier": "all URIs, all 21 classes, all notations, coding schemes and filter values, chains of any length", "why_tests_cant": "Chains are unbounded, and a chain that changes an object may need a particular notation at a particular place.", "anchors": ["epcpy/utils/parsers.py: epc_pure_identity_to_scheme, gs1_element_string_to_gs1_element, tag_uri_to_tag_encodable, binary_to_tag_encodable, hex_to_tag_encodable, base64_to_tag_encodable", "epcpy/epc_schemes/base_scheme.py: epc_uri, hex, base64, from_tag_uri, from_hex, from_base64", "epcpy/epc_schemes/sgtin.py: tag_uri, binary, from_binary", "epcpy/epc_schemes/sscc.py: tag_uri, binary, from_binary", "epcpy/epc_schemes/sgln.py: tag_uri, binary, from_binary", "epcpy/epc_schemes/grai.py: tag_uri, binary, from_binary", "epcpy/epc_schemes/giai.py: tag_uri, binary, from_binary", "epcpy/epc_schemes/gsrn.py: tag_uri, binary, from_binary", "epcpy/epc_schemes/gsrnp.py: tag_uri, binary, from_binary", "epcpy/epc_schemes/gdti.py: tag_uri, binary, from_binary", "epcpy/epc_schemes/cpi.py: tag_uri, binary, from_binary", "epcpy/epc_schemes/sgcn.py: tag_uri, binary, from_binary", "epcpy/epc_schemes/itip.py: tag_uri, binary, from_binary", "epcpy/epc_schemes/gid.py: tag_uri, binary, from_binary", "epcpy/epc_schemes/usdod.py: tag_uri, binary, from_binary", "epcpy/epc_schemes/adi.py: tag_uri, binary, from_binary"]}
{"id": "C98", "title": "Members of other enumerations and plain numbers as arguments, executed from the source", "statement": "Executing the source: with a coding scheme of another class, tag_uri returns the text 'urn:epc:tag:' + value of the coding scheme + filter value + components of the object, which the class itself refuses to read with ConvertException, while binary, hex and base64 raise KeyError. With a filter value of another class, the tag URI is read back as the same object (of a GIAI: if its asset reference has no colon), and the binary is the one for filter value 0 with the filter field replaced by the number, in as many bits as the field has or as the number needs. gtin(gtin_type=n) and gs1_key(gtin_type=n) answer for every integer n: up to 14 the last n digits of the GTIN if the others are zeros, else ConvertException; from 15 to 28 the last n - 14 digits; above that the GTIN. from_gtin_plus_serial with an integer as serial does what it does with the decimal form of the integer.", "quantifier": "every class with tags and every object that can be made of a text, every coding scheme of every other class, every filter value of every class, every integer as gtin_type and as serial", "why_tests_cant": "tests pass the members and types that the annotations name; the combinations of 14 classes, 21 coding schemes and 64 filter values with all texts, and all integers, cannot be tried", "anchors": ["epcpy/epc_schemes/adi.py: tag_uri, binary, BinaryCodingScheme, BinaryHeader", "epcpy/epc_schemes/cpi.py: tag_uri, binary, BinaryCodingScheme, BinaryHeader", "epcpy/epc_schemes/gdti.py: tag_uri, binary, BinaryCodingScheme, BinaryHeader", "epcpy/epc_schemes/giai.py: tag_uri, binary, BinaryCodingScheme, BinaryHeader", "epcpy/epc_schemes/gid.py: tag_uri, binary, BinaryCodingScheme, BinaryHeader", "epcpy/epc_schemes/grai.py: tag_uri, binary, BinaryCodingScheme, BinaryHeader", "epcpy/epc_schemes/gsrn.py: tag_uri, binary, BinaryCodingScheme, BinaryHeader", "epcpy/epc_schemes/gsrnp.py: tag_uri, binary, BinaryCodingScheme, BinaryHeader", "epcpy/epc_schemes/itip.py: tag_uri, binary, BinaryCodingScheme, BinaryHeader", "epcpy/epc_schemes/sgcn.py: tag_uri, binary, BinaryCodingScheme, BinaryHeader", "epcpy/epc_schemes/sgln.py: tag_uri, binary, BinaryCodingScheme, BinaryHeader", "epcpy/epc_schemes/sgtin.py: tag_uri, binary, BinaryCodingScheme, BinaryHeader", "epcpy/epc_schemes/sscc.py: tag_uri, binary, BinaryCodingScheme, BinaryHeader", "epcpy/epc_schemes/usdod.py: tag_uri, binary, BinaryCodingScheme, BinaryHeader", "epcpy/epc_schemes/base_scheme.py: hex, base64, from_tag_uri", "epcpy/epc_schemes/sgtin.py: gtin, gs1_key", "epcpy/epc_schemes/lgtin.py: gtin, gs1_key", "epcpy/epc_schemes/sgtin.py: from_gtin_plus_serial"]}
{"id": "C99", "title": "Every way of passing arguments comes to the same, executed from the source", "statement": "Executing the source, for tag_uri, binary, gs1_key, gs1_element_string, gtin, the readers from_epc_uri, from_tag_uri, from_binary, from_hex, from_base64, from_gs1_element_string and from_gtin_plus_serial, the constructors and the functions of the package without **kwargs: whether arguments are passed by position, by name in any order, or left to the default value, the outcome is that of passing the values of all parameters by position; a call that gives a parameter no value or two, or has an argument too many or a name that is no parameter, raises TypeError. hex and base64 ignore positional arguments; the outcome is that of passing the parameters of binary by name, and TypeError if the names and values do not fit binary.", "quantifier": "every class and every object that can be made of a text, all lists of positional arguments and of keyword arguments with different names, of any values at all", "why_tests_cant": "tests call each method in one or two ways; the ways to mix positions, names and defaults, and the wrong ones, are unbounded", "anchors": ["epcpy/epc_schemes/adi.py: tag_uri, binary, from_binary", "epcpy/epc_schemes/cpi.py: tag_uri, binary, from_binary", "epcpy/epc_schemes/gdti.py: tag_uri, binary, from_binary", "epcpy/epc_schemes/giai.py: tag_uri, binary, from_binary", "epcpy/epc_schemes/gid.py: tag_uri, binary, from_binary", "epcpy/epc_schemes/grai.py: tag_uri, binary, from_binary", "epcpy/epc_schemes/gsrn.py: tag_uri, binary, from_binary", "epcpy/epc_schemes/gsrnp.py: tag_uri, binary, from_binary", "epcpy/epc_schemes/itip.py: tag_uri, binary, from_binary", "epcpy/epc_schemes/sgcn.py: tag_uri, binary, from_binary", "epcpy/epc_schemes/sgln.py: tag_uri, binary, from_binary", "epcpy/epc_schemes/sgtin.py: tag_uri, binary, from_binary", "epcpy/epc_schemes/sscc.py: tag_uri, binary, from_binary", "epcpy/epc_schemes/usdod.py: tag_uri, binary, from_binary", "epcpy/epc_schemes/base_scheme.py: hex, base64, from_epc_uri, from_tag_uri, from_hex, from_base64", "epcpy/epc_schemes/sgtin.py: gtin, gs1_key", "epcpy/epc_schemes/lgtin.py: gtin, gs1_key", "epcpy/utils/parsers.py: epc_pure_identity_to_scheme, tag_uri_to_tag_encodable, binary_to_tag_encodable, gs1_element_string_to_gs1_element"]}
{"id": "C100", "title": "Objects do not change, executed from the source", "statement": "The only statement outside of constructors that assigns to an attribute is self._tag_uri = ... in CPI.tag_uri. Executing the source, whatever that attribute of a CPI holds, the object has the same epc_uri, compares equal to the same objects, and tag_uri, binary, hex, base64, gs1_element_string, gs1_key, gtin and == return the same value or raise the same exception for the same arguments. So in every program each call has the outcome it has as the first call on its object.", "quantifier": "every statement of the source; every object that can be made of a text, every sequence of calls on any number of objects, any arguments passed in any way, whether the calls before returned or raised", "why_tests_cant": "histories are unbounded, and a test of one history says nothing about a value cached by another", "anchors": ["epcpy/epc_schemes/cpi.py: tag_uri, binary, gs1_element_string", "epcpy/epc_schemes/base_scheme.py: hex, base64, __eq__, __init__", "epcpy/utils/common.py: encode_partition_table"]}
{"id": "C101", "title": "Families of classes and base classes, executed from the source", "statement": "Executing the source: issubclass and isinstance tell exactly derivation through the base classes; all scheme classes but BIC, GINC, GSIN, IMOVN, LGTIN, PGLN and UPUI are TagEncodable, all but ADI, BIC, GID, IMOVN and USDOD are GS1Element, and of these all but CPI, ITIP and UPUI are GS1Keyed. A method of a family to which a class does not belong raises AttributeError, on objects and on the class, whatever the arguments. The four base classes make an object of any value; its output methods raise NotImplementedError, its readers of tags and element strings never return; it equals the objects of any class with the same URI. TagEncodable.from_tag_uri makes the object with the URI of the one tag_uri_to_tag_encodable makes, if told whether there is a filter value.", "quantifier": "all classes, every object that can be made of a text (of a base class: of any value), all lists of arguments passed by position and by name", "why_tests_cant": "tests construct valid objects of scheme classes and call the methods they have; what the others do, with any argument, is unbounded", "anchors": ["epcpy/epc_schemes/base_scheme.py: EPCScheme, TagEncodable, GS1Element, GS1Keyed, __eq__, __init__, from_epc_uri, tag_uri, binary, hex, base64, from_binary, from_hex, from_base64, from_tag_uri, gs1_element_string, from_gs1_element_string, gs1_key", "epcpy/utils/parsers.py: tag_uri_to_tag_encodable"]}
{"id": "C102", "title": "Threads that share objects, executed from the source", "statement": "In the source the attribute _tag_uri of a CPI is read in one place only, by the return statement of CPI.tag_uri that follows its assignment. Executing the source under every schedule of the accesses of any number of calls to this attribute: every call of another method, and every call of CPI.tag_uri on an object on which no other tag_uri call runs, has the outcome it has alone. A call of CPI.tag_uri returns what it returns alone, or what another call of tag_uri on the same object returns alone, which made its assignment between the assignment and the return of this call; this does happen. A call that raises alone raises the same under every schedule. Every call ends after at most three actions.", "quantifier": "any number of shared objects of any class made of any texts, any number of calls with any arguments, every schedule", "why_tests_cant": "the number of schedules grows exponentially with the calls, and the harmful ones are hit rarely", "anchors": ["epcpy/epc_schemes/cpi.py: tag_uri, binary, gs1_element_string", "epcpy/epc_schemes/adi.py: tag_uri, binary", "epcpy/epc_schemes/gdti.py: tag_uri, binary", "epcpy/epc_schemes/giai.py: tag_uri, binary", "epcpy/epc_schemes/gid.py: tag_uri, binary", "epcpy/epc_schemes/grai.py: tag_uri, binary", "epcpy/epc_schemes/gsrn.py: tag_uri, binary", "epcpy/epc_schemes/gsrnp.py: tag_uri, binary", "epcpy/epc_schemes/itip.py: tag_uri, binary", "epcpy/epc_schemes/sgcn.py: tag_uri, binary", "epcpy/epc_schemes/sgln.py: tag_uri, binary", "epcpy/epc_schemes/sgtin.py: tag_uri, binary", "epcpy/epc_schemes/sscc.py: tag_uri, binary", "epcpy/epc_schemes/usdod.py: tag_uri, binary", "epcpy/epc_schemes/base_scheme.py: hex, base64, __init__"]}
{"id": "C103", "title": "Keyword arguments of get_gs1_key and epc_pure_identity_to_gs1_key", "statement": "Executing the source: get_gs1_key(source, company_prefix_length=None, **kwargs) and epc_pure_identity_to_gs1_key(uri, **kwargs) take their own parameters by position or by name, in any mixture with further keyword arguments, and raise TypeError if a parameter gets no value or two. The further keyword arguments never change how the text is understood: either the call raises the same exception for all of them, or there is one object whose gs1_key, called with the same keyword arguments, gives the outcome; for epc_pure_identity_to_gs1_key it is the object that epc_pure_identity_to_gs1_keyed returns. A keyword argument other than gtin_type is never ignored: the call raises TypeError if it would return a key without it. If the text is a pure identity URI of a class other than SGTIN and LGTIN, gtin_type is refused with TypeError as well.", "quantifier": "all texts, all company prefix lengths (or None), all lists of keyword arguments with different names (gtin_type, if present, any integer or member of GTIN_TYPE), all ways of passing the parameters", "why_tests_cant": "the combinations of texts, lengths, names, values and ways of passing are unlimited", "anchors": ["epcpy/utils/parsers.py: get_gs1_key, epc_pure_identity_to_gs1_key, epc_pure_identity_to_gs1_keyed", "epcpy/epc_schemes/base_scheme.py: GS1Keyed.gs1_key", "epcpy/epc_schemes/sgtin.py: gs1_key", "epcpy/epc_schemes/lgtin.py: gs1_key", "epcpy/epc_schemes/sscc.py: gs1_key", "epcpy/epc_schemes/sgln.py: gs1_key", "epcpy/epc_schemes/grai.py: gs1_key", "epcpy/epc_schemes/giai.py: gs1_key", "epcpy/epc_schemes/gsrn.py: gs1_key", "epcpy/epc_schemes/gsrnp.py: gs1_key", "epcpy/epc_schemes/gdti.py: gs1_key", "epcpy/epc_schemes/sgcn.py: gs1_key", "epcpy/epc_schemes/ginc.py: gs1_key", "epcpy/epc_schemes/gsin.py: gs1_key", "epcpy/epc_schemes/pgln.py: gs1_key"]}
{"id": "C104", "title": "Coding schemes, filter values and kinds of GTIN given by name", "statement": "Executing the source: X.BinaryCodingScheme and XFilterValue have exactly the members of the GS1 Tag Data Standard. If x.tag_uri returns for a coding scheme and a filter value that are given by their names, the text is urn:epc:tag:<name of the coding scheme>:<number of the filter value>.<the part of the identity URI after the fourth colon, for a GIAI only up to the next colon>; if x.binary returns, its first eight bits are the header of that coding scheme and the next three (USDOD: four, ADI: six) bits are the number of the filter value. gtin and gs1_key of an SGTIN or LGTIN with GTIN_TYPE.GTINn (n = 8, 12, 13, 14) return t exactly if the GTIN-14 is t after 14 - n zeros, and raise ConvertException if there is no such t.", "quantifier": "all objects of the 13 tag classes with filter values, every coding scheme and filter value of the class by name; all SGTIN and LGTIN objects and every member of GTIN_TYPE", "why_tests_cant": "a wrong constant in an enumeration shows only for the member concerned and the objects are unlimited", "anchors": ["epcpy/epc_schemes/sgtin.py: BinaryCodingScheme, BinaryHeader, tag_uri, binary", "epcpy/epc_schemes/sscc.py: BinaryCodingScheme, BinaryHeader, tag_uri, binary", "epcpy/epc_schemes/sgln.py: BinaryCodingScheme, BinaryHeader, tag_uri, binary", "epcpy/epc_schemes/grai.py: BinaryCodingScheme, BinaryHeader, tag_uri, binary", "epcpy/epc_schemes/giai.py: BinaryCodingScheme, BinaryHeader, tag_uri, binary", "epcpy/epc_schemes/gsrn.py: BinaryCodingScheme, BinaryHeader, tag_uri, binary", "epcpy/epc_schemes/gsrnp.py: BinaryCodingScheme, BinaryHeader, tag_uri, binary", "epcpy/epc_schemes/gdti.py: BinaryCodingScheme, BinaryHeader, tag_uri, binary", "epcpy/epc_schemes/sgcn.py: BinaryCodingScheme, BinaryHeader, tag_uri, binary", "epcpy/epc_schemes/cpi.py: BinaryCodingScheme, BinaryHeader, tag_uri, binary", "epcpy/epc_schemes/itip.py: BinaryCodingScheme, BinaryHeader, tag_uri, binary", "epcpy/epc_schemes/usdod.py: BinaryCodingScheme, BinaryHeader, tag_uri, binary", "epcpy/epc_schemes/adi.py: BinaryCodingScheme, BinaryHeader, tag_uri, binary", "epcpy/epc_schemes/sgtin.py: GTIN_TYPE, gtin, gs1_key", "epcpy/epc_schemes/lgtin.py: GTIN_TYPE, gtin, gs1_key"]}
{"id": "C105", "title": "The company prefix length only decides where the URI is divided", "statement": "If from_gs1_element_string of a class accepts a string s with two company prefix lengths n and m (any integers), the two objects return the same gs1_element_string() and the same gs1_key(); get_gs1_key(s, n) and get_gs1_key(s, m) never return two different keys. The URIs of the two objects are equal exactly if n = m (for lengths that are not negative). For GIAI and GINC this is claimed for strings without a dot only; with a dot, two lengths can give two keys.", "quantifier": "all 16 classes with element strings, all strings (GIAI, GINC: without a dot), all pairs of company prefix lengths, all GTIN types", "why_tests_cant": "pairs of calls over unlimited strings and integers; a test compares a parsed string with one length only", "anchors": ["epcpy/epc_schemes/sgtin.py: from_gs1_element_string, gs1_element_string, gs1_key", "epcpy/epc_schemes/sscc.py: from_gs1_element_string, gs1_element_string, gs1_key", "epcpy/epc_schemes/sgln.py: from_gs1_element_string, gs1_element_string, gs1_key", "epcpy/epc_schemes/grai.py: from_gs1_element_string, gs1_element_string, gs1_key", "epcpy/epc_schemes/giai.py: from_gs1_element_string, gs1_element_string, gs1_key", "epcpy/epc_schemes/gsrn.py: from_gs1_element_string, gs1_element_string, gs1_key", "epcpy/epc_schemes/gsrnp.py: from_gs1_element_string, gs1_element_string, gs1_key", "epcpy/epc_schemes/gdti.py: from_gs1_element_string, gs1_element_string, gs1_key", "epcpy/epc_schemes/sgcn.py: from_gs1_element_string, gs1_element_string, gs1_key", "epcpy/epc_schemes/ginc.py: from_gs1_element_string, gs1_element_string, gs1_key", "epcpy/epc_schemes/gsin.py: from_gs1_element_string, gs1_element_string, gs1_key", "epcpy/epc_schemes/pgln.py: from_gs1_element_string, gs1_element_string, gs1_key", "epcpy/epc_schemes/lgtin.py: from_gs1_element_string, gs1_element_string, gs1_key", "epcpy/epc_schemes/cpi.py: from_gs1_element_string, gs1_element_string", "epcpy/epc_schemes/itip.py: from_gs1_element_string, gs1_element_string", "epcpy/epc_schemes/upui.py: from_gs1_element_string, gs1_element_string", "epcpy/utils/parsers.py: get_gs1_key"]}
{"id": "C106", "title": "Schemes that identify the same thing give the same key", "statement": "For a company prefix and an item reference that SGTIN accepts with some serial: LGTIN with any accepted lot returns the same gs1_key (for every GTIN type) and gtin(), and the element strings of UPUI and ITIP with any accepted rest contain exactly this 14-digit key after their application identifier. SGLN (with any extension) and PGLN of the same company prefix and location reference return the same gs1_key, GSRN and GSRNP of the same body as well; the same for get_gs1_key of the URIs. SGTIN accepts a body exactly if LGTIN does, GSRN exactly if GSRNP does, and SGLN with extension 0 exactly if PGLN does without.", "quantifier": "all company prefixes, references, serials, lots and extensions (any strings), all GTIN types", "why_tests_cant": "the classes compute their keys separately; agreement for all unlimited strings cannot be tested", "anchors": ["epcpy/epc_schemes/sgtin.py: __init__, gs1_key", "epcpy/epc_schemes/lgtin.py: __init__, gs1_key", "epcpy/epc_schemes/sgln.py: __init__, gs1_key", "epcpy/epc_schemes/pgln.py: __init__, gs1_key", "epcpy/epc_schemes/gsrn.py: __init__, gs1_key", "epcpy/epc_schemes/gsrnp.py: __init__, gs1_key", "epcpy/epc_schemes/upui.py: __init__, gs1_element_string", "epcpy/epc_schemes/itip.py: __init__, gs1_element_string", "epcpy/utils/parsers.py: get_gs1_key"]}
{"id": "C107", "title": "A mistyped digit of a key is always noticeable", "statement": "The GS1 keys (the part that ends with the check digit) of two accepted objects, of one class or of two classes with keys of the same length, never differ in exactly one digit; if they differ only in the order of two neighbouring digits, these digits differ by exactly 5. The same holds for the digits of the key in the element strings the library prints. If one digit of the key in a printed element string is replaced and from_gs1_element_string accepts the result with some company prefix length (it does not look at the check digit), then gs1_element_string() of the object returns something other than the text that was read.", "quantifier": "all pairs of accepted objects of the 11 classes with such keys (element strings: 12 classes), all texts with one changed digit, all company prefix lengths", "why_tests_cant": "all pairs of objects, all positions and all digits, with decimal digits of every script", "anchors": ["epcpy/epc_schemes/sgtin.py: __init__, gs1_key, gs1_element_string, from_gs1_element_string", "epcpy/epc_schemes/lgtin.py: __init__, gs1_key, gs1_element_string, from_gs1_element_string", "epcpy/epc_schemes/sscc.py: __init__, gs1_key, gs1_element_string, from_gs1_element_string", "epcpy/epc_schemes/sgln.py: __init__, gs1_key, gs1_element_string, from_gs1_element_string", "epcpy/epc_schemes/pgln.py: __init__, gs1_key, gs1_element_string, from_gs1_element_string", "epcpy/epc_schemes/grai.py: __init__, gs1_key, gs1_element_string, from_gs1_element_string", "epcpy/epc_schemes/gdti.py: __init__, gs1_key, gs1_element_string, from_gs1_element_string", "epcpy/epc_schemes/sgcn.py: __init__, gs1_key, gs1_element_string, from_gs1_element_string", "epcpy/epc_schemes/gsrn.py: __init__, gs1_key, gs1_element_string, from_gs1_element_string", "epcpy/epc_schemes/gsrnp.py: __init__, gs1_key, gs1_element_string, from_gs1_element_string", "epcpy/epc_schemes/gsin.py: __init__, gs1_key, gs1_element_string, from_gs1_element_string", "epcpy/epc_schemes/upui.py: gs1_element_string, from_gs1_element_string", "epcpy/utils/common.py: calculate_checksum"]}
{"id": "C108", "title": "Two URIs have the same key exactly if they consist of the same digits", "statement": "gs1_key() of two accepted objects of the same class is the same (and so is get_gs1_key of their URIs) exactly if the company prefixes followed by the references are the same string - for SGTIN, LGTIN and SSCC with the first digit of the reference moved to the front - and, for GRAI, GDTI and SGCN, whose keys contain it, the unescaped serial is the same too. If the company prefixes have the same length, the keys are the same exactly if company prefix, reference (for GIAI and GINC unescaped; for GIAI up to a colon) and that serial are the same: no two things of a company share a key.", "quantifier": "all 13 classes with a GS1 key, all pairs of accepted URIs", "why_tests_cant": "a statement about all pairs of unlimited strings; collisions cannot be excluded by examples", "anchors": ["epcpy/epc_schemes/sgtin.py: __init__, gs1_key", "epcpy/epc_schemes/lgtin.py: __init__, gs1_key", "epcpy/epc_schemes/sscc.py: __init__, gs1_key", "epcpy/epc_schemes/gsrn.py: __init__, gs1_key", "epcpy/epc_schemes/gsrnp.py: __init__, gs1_key", "epcpy/epc_schemes/gsin.py: __init__, gs1_key", "epcpy/epc_schemes/pgln.py: __init__, gs1_key", "epcpy/epc_schemes/sgln.py: __init__, gs1_key", "epcpy/epc_schemes/grai.py: __init__, gs1_key", "epcpy/epc_schemes/gdti.py: __init__, gs1_key", "epcpy/epc_schemes/sgcn.py: __init__, gs1_key", "epcpy/epc_schemes/giai.py: __init__, gs1_key", "epcpy/epc_schemes/ginc.py: __init__, gs1_key", "epcpy/utils/parsers.py: get_gs1_key"]}
{"id": "C109", "title": "More of the memory of a tag may be read than its EPC occupies", "statement": "If binary_to_tag_encodable recognises a text whose first eight bits are not the header of CPI-var or ADI-var, it returns the same object for this text followed by any characters; likewise hex_to_tag_encodable for a hexadecimal text followed by any number of hexadecimal digits. For every coding scheme, those of variable length included: a binary (or hexadecimal) form that the library has written for an object with a tag URI and from which it reads the object back is read as the same object also if anything (hexadecimal digits) follows it.", "quantifier": "all texts; all 14 tag classes, objects, coding schemes and filter values with a tag URI; all continuations", "why_tests_cant": "the memory behind an EPC can hold anything, and how much of it is read depends on the reader", "anchors": ["epcpy/utils/parsers.py: binary_to_tag_encodable, hex_to_tag_encodable", "epcpy/epc_schemes/sgtin.py: binary, from_binary", "epcpy/epc_schemes/sscc.py: binary, from_binary", "epcpy/epc_schemes/sgln.py: binary, from_binary", "epcpy/epc_schemes/grai.py: binary, from_binary", "epcpy/epc_schemes/giai.py: binary, from_binary", "epcpy/epc_schemes/gsrn.py: binary, from_binary", "epcpy/epc_schemes/gsrnp.py: binary, from_binary", "epcpy/epc_schemes/gdti.py: binary, from_binary", "epcpy/epc_schemes/cpi.py: binary, from_binary", "epcpy/epc_schemes/sgcn.py: binary, from_binary", "epcpy/epc_schemes/itip.py: binary, from_binary", "epcpy/epc_schemes/gid.py: binary, from_binary", "epcpy/epc_schemes/usdod.py: binary, from_binary", "epcpy/epc_schemes/adi.py: binary, from_binary", "epcpy/utils/common.py: parse_header_and_truncate_binary, hex_to_binary"]}
{"id": "C110", "title": "From the GTIN and the serial number of an item to its tag and its label, and back, executed from the source", "statement": "For a GTIN of at most 14 digits with the right check digit, a serial number of 1 to 20 characters of the GS1 character set 82 which the constructor accepts in escaped form, and a company prefix length from 6 to 12: SGTIN.from_gtin_plus_serial returns an object; its gtin() is the GTIN filled with zeros to 14 digits; its gs1_element_string() is (01), the GTIN, (21) and the unescaped serial number; gs1_element_string_to_gs1_element of this text and the prefix length returns the object again unless the serial number contains exactly two characters between parentheses. With every member of SGTINFilterValue and SGTIN_198, and with SGTIN_96 if the serial number is a number below 2 ** 38 without leading zeros, tag_uri, binary, hex and base64 return texts; the general parser of each notation returns the object, and get_gs1_key of the first three returns the GTIN. Two items that have a tag in common have the same GTIN of 14 digits, the same serial number and the same prefix length, whatever coding schemes and filter values were used.", "quantifier": "all GTINs, serial numbers, prefix lengths, filter values and coding schemes; all pairs of items", "why_tests_cant": "the chain passes through a dozen functions for unboundedly many items, and that no two items share a tag is a statement about pairs", "anchors": ["epcpy/epc_schemes/sgtin.py: from_gtin_plus_serial, gtin, gs1_element_string, from_gs1_element_string, tag_uri, binary, from_binary", "epcpy/utils/parsers.py: tag_uri_to_tag_encodable, binary_to_tag_encodable, hex_to_tag_encodable, base64_to_tag_encodable, gs1_element_string_to_gs1_element, get_gs1_key"]}
{"id": "C111", "title": "What is read from a label survives every chain of conversions, executed from the source", "statement": "If from_gs1_element_string of a class, or gs1_element_string_to_gs1_element, accepts a text of ASCII characters with any company prefix length, the object is written down in any of its notations (URI, element string, tag URI, binary, hexadecimal, base64; any coding scheme and filter value for which the tag URI can be written), read by the general parser of the notation, written down again, and so on any number of times, then what arrives is the object, equal in every attribute. For texts that begin with (8004) (GIAI) this is claimed if they contain neither a dot nor a colon, for texts that begin with (401) (GINC) if they contain no dot. Each of these conditions is needed: with a colon, a dot or digits of another script some chain loses the object.", "quantifier": "all ASCII texts, all company prefix lengths (any integer), all 16 classes with element strings, all chains of any length", "why_tests_cant": "texts, prefix lengths and chains are unbounded", "anchors": ["epcpy/utils/parsers.py: gs1_element_string_to_gs1_element, tag_uri_to_tag_encodable, binary_to_tag_encodable, hex_to_tag_encodable, base64_to_tag_encodable, epc_pure_identity_to_scheme", "epcpy/epc_schemes/sgtin.py: from_gs1_element_string", "epcpy/epc_schemes/lgtin.py: from_gs1_element_string", "epcpy/epc_schemes/upui.py: from_gs1_element_string", "epcpy/epc_schemes/sgln.py: from_gs1_element_string", "epcpy/epc_schemes/sscc.py: from_gs1_element_string", "epcpy/epc_schemes/gsrn.py: from_gs1_element_string", "epcpy/epc_schemes/gsrnp.py: from_gs1_element_string", "epcpy/epc_schemes/pgln.py: from_gs1_element_string", "epcpy/epc_schemes/grai.py: from_gs1_element_string", "epcpy/epc_schemes/gdti.py: from_gs1_element_string", "epcpy/epc_schemes/sgcn.py: from_gs1_element_string", "epcpy/epc_schemes/gsin.py: from_gs1_element_string", "epcpy/epc_schemes/itip.py: from_gs1_element_string", "epcpy/epc_schemes/giai.py: from_gs1_element_string", "epcpy/epc_schemes/ginc.py: from_gs1_element_string", "epcpy/epc_schemes/cpi.py: from_gs1_element_string"]}
{"id": "C112", "title": "What is read from a tag survives every chain of conversions, executed from the source", "statement": "Take an object that binary_to_tag_encodable reads from a text of 0 and 1, or hex_to_tag_encodable or base64_to_tag_encodable from any text. It is written down in any of its notations (URI, element string, tag URI, binary, hexadecimal, base64; any coding scheme and filter value for which the tag URI can be written), read by the general parser of the notation, written down again, and so on any number of times. What arrives is always the object, equal in every attribute, if and only if its URI meets these conditions: the serial number of an SGTIN, unescaped, has no two characters between parentheses, the extension of an SGLN no three; the reference of a GIAI has no colon; the part number of an ADI has no six zero bits in a row in its six-bit encoding, also together with the first five bits of the terminator. For texts of 0 and 1 and hexadecimal texts with other headers than those of SGTIN-198, SGLN-195, GIAI-202 and ADI there is no condition. Each of the conditions is needed: a tag is given that is read and that some chain loses.", "quantifier": "all bit strings of any length with any header, all texts in hexadecimal and base64, all chains of any length", "why_tests_cant": "tags may have any number of bits, and the chains are unbounded", "anchors": ["epcpy/utils/parsers.py: binary_to_tag_encodable, hex_to_tag_encodable, base64_to_tag_encodable, tag_uri_to_tag_encodable, gs1_element_string_to_gs1_element, epc_pure_identity_to_scheme", "epcpy/epc_schemes/sgtin.py: from_binary", "epcpy/epc_schemes/sgln.py: from_binary", "epcpy/epc_schemes/sscc.py: from_binary", "epcpy/epc_schemes/gsrn.py: from_binary", "epcpy/epc_schemes/gsrnp.py: from_binary", "epcpy/epc_schemes/grai.py: from_binary", "epcpy/epc_schemes/gdti.py: from_binary", "epcpy/epc_schemes/sgcn.py: from_binary", "epcpy/epc_schemes/itip.py: from_binary", "epcpy/epc_schemes/giai.py: from_binary", "epcpy/epc_schemes/cpi.py: from_binary", "epcpy/epc_schemes/gid.py: from_binary", "epcpy/epc_schemes/usdod.py: from_binary", "epcpy/epc_schemes/adi.py: from_binary"]}
