import json
P=[]
def p(id,title,statement,quantifier,why,anchors):
    P.append(dict(id=id,title=title,statement=statement,quantifier=quantifier,why_tests_cant=why,anchors=anchors))
C="epcpy/utils/common.py"; B="epcpy/epc_schemes/base_scheme.py"; R="epcpy/utils/regex.py"; PA="epcpy/utils/parsers.py"
def S(*n): return [f"epcpy/epc_schemes/{x}.py" for x in n]
p("C01","URI escaping is reversible",
  "Escaping any text with revert_uri_escapes and then unescaping it with replace_uri_escapes gives the text back; and unescaping then re-escaping a component gives the component back exactly when the component is written in the canonical escaped form (each of \" % & / < > ? written as its %XX escape and no other % sign).",
  "every string, of any length and over all of Unicode","the seven str.replace passes interact through '%'; only an induction over all strings shows no pass creates or destroys a match of another",
  [f"{C}: replace_uri_escapes, revert_uri_escapes"])
p("C02","Integers survive the bit-string encoding",
  "binary_to_int(int_to_binary(n, w)) == n for every n >= 0 and every width w; the result consists of '0'/'1' only; for w >= 1 it has exactly w characters if n < 2**w and more than w otherwise; and every non-empty bit string b is int_to_binary(binary_to_int(b), len(b)).",
  "all non-negative integers, all widths, all bit strings","unbounded integers and widths",
  [f"{C}: int_to_binary, binary_to_int, str_to_binary"])
p("C03","Hexadecimal, binary and base64 transports are lossless",
  "For every bit string whose length is a multiple of 4 and whose first nibble is non-zero, hex_to_binary(binary_to_hex(b)) == b; for every even-length hexadecimal string h, base64_to_hex(hex_to_base64(h)) == h.lower(); for every non-empty hexadecimal string, hex_to_binary(h) has 4*len(h) bits and does not depend on the letter case of h.",
  "all bit strings / hex strings of any length","unbounded lengths, padding cases of base64 interact with the extra '==' the code appends",
  [f"{C}: base64_to_hex, hex_to_base64, hex_to_binary, binary_to_hex"])
p("C04","7-bit serial codec round-trips",
  "decode_string(encode_string(s, n)) == s for every serial s in canonical escaped GS3A3 form and every n >= 7*len(unescaped s); the encoding is then exactly n bits long when 7*len <= n.",
  "all canonical serials of any length, all field widths that hold them","all lengths, all 82 characters in all positions, and the trailing padding have to be considered together",
  [f"{C}: encode_string, decode_string, decode_binary_char, ESCAPE_CHARACTERS"])
p("C05","6-bit string codec round-trips",
  "decode_string_six_bits(encode_string_six_bits(s) + tail, m) == s for every CPI/ADI component s (A-Z, 0-9, '-', %23, %2F) of at most m characters and every tail of bits: the six-bit terminator ends the field whatever follows.",
  "all components, all maximum lengths, all trailing bit strings","unbounded component and arbitrary trailing data",
  [f"{C}: encode_string_six_bits, decode_string_six_bits"])
p("C06","Partition tables round-trip for every company-prefix length",
  "For each scheme's partition table, every company prefix of each of the lengths 6..12 and every reference of the complementary length, decode_partition_table(encode_partition_table([C, D])) == C + '.' + D with leading zeros preserved, and the encoding has exactly 3+M+N bits, the same total for every row of the table.",
  "all digit strings for every row of every table","10**12 prefixes times references; the tables' bit widths must be wide enough for every value",
  [f"{C}: encode_partition_table, decode_partition_table"]+[f"{x}: PARTITION_TABLE_P, PARTITION_TABLE_L" for x in S("sgtin","sscc","sgln","grai","giai","gsrn","gsrnp","gdti","cpi","sgcn","itip")])
p("C07","Numeric-string codec keeps leading zeros",
  "decode_numeric_string(encode_numeric_string(s, w)) == s for every non-empty digit string s that encode_numeric_string accepts, and the encoding has exactly w bits; every serial of at most 12 digits is accepted for w = 41.",
  "all strings of ASCII digits, all widths","leading zeros and the length bound",
  [f"{C}: encode_numeric_string, decode_numeric_string"])
p("C08","Fixed-width piece/total codec round-trips",
  "decode_fixed_width_integer(encode_fixed_width_integer(s, 7)) == s for every two-digit piece/total number s.",
  "all two-digit strings","a table of 100 values where the boundary 99 is never tested",
  [f"{C}: encode_fixed_width_integer, decode_fixed_width_integer"])
p("C09","GS1 check digit is correct and catches errors",
  "calculate_checksum(d) is a single digit such that the GS1 weighted sum (weights 1,3,1,3,... from the right) of d followed by it is a multiple of 10; it is the only such digit; changing any one digit of a digit string changes the check digit; swapping two adjacent digits changes the check digit unless they differ by exactly 5 or 0.",
  "strings of ASCII digits of every length, every position, every replacement digit","unbounded length and all positions",
  [f"{C}: calculate_checksum"])
p("C10","GSIN check digit follows the GS1 algorithm",
  "The separate check-digit routine used by GSIN gives the standard GS1 check digit for every 16-digit GSIN body (and for every digit string of even length).",
  "all digit strings of even length","10**16 bodies",
  [f"{S('gsin')[0]}: calculate_checksum", f"{C}: calculate_checksum"])
p("C11","An accepted pure identity is kept verbatim",
  "For each of the 21 schemes: if the constructor (or from_epc_uri) accepts a URI, the object's epc_uri equals that URI, character for character, and the URI is exactly the scheme prefix followed by the object's components joined with '.'.",
  "all strings, all 21 schemes","all inputs; components are recovered by nested split(':')/split('.') which only agree with the regex on some inputs",
  [f"{x}: __init__" for x in S("adi","bic","cpi","gdti","giai","gid","ginc","grai","gsin","gsrn","gsrnp","imovn","itip","lgtin","pgln","sgcn","sgln","sgtin","sscc","upui","usdod")])
p("C12","Digit-only schemes accept exactly the documented URIs",
  "SSCC, GSRN, GSRNP, GSIN, PGLN, SGCN, CPI, GID, USDOD, ADI, BIC and IMOVN constructors succeed on a string if and only if it is the scheme's prefix followed by components of the documented alphabets and lengths (company prefix 6-12 digits, complementary lengths, numeric ranges).",
  "all strings","acceptance and rejection of every string",
  [f"{x}: __init__" for x in S("sscc","gsrn","gsrnp","gsin","pgln","sgcn","cpi","gid","usdod","adi","bic","imovn")]+[R])
p("C13","Constructors reject bad input with ConvertException only",
  "Whatever string is passed to a constructor, the only exception it raises is ConvertException.",
  "all strings, all schemes","needs every rejected input, including malformed percent escapes",
  [f"{C}: verify_gs3a3_component, ConvertException"]+[f"{x}: __init__" for x in S("sgtin","giai","gid")])
p("C14","Accepted numeric components are ASCII digits",
  "Any company prefix, reference or piece number of an accepted pure identity URI consists of the ASCII digits 0-9.",
  "all strings","the alphabet of \\d is all of Unicode",
  [f"{R}: PADDED_NUMERIC_COMPONENT, NUMERIC_COMPONENT"])
p("C15","Every TDS-conformant serial is accepted",
  "Every URI whose serial/lot/TPX/asset/consignment component is in canonical escaped form with an admissible length is accepted by the constructor.",
  "all canonical serials","positions of escapes within the serial matter",
  [f"{C}: verify_gs3a3_component"]+[f"{x}: __init__" for x in S("sgtin","sgln","grai","gdti","giai","itip","upui","lgtin","ginc")])
p("C16","Tag URIs round-trip",
  "For every TagEncodable object x, coding scheme and filter value for which x.tag_uri(...) returns, from_tag_uri(x.tag_uri(...)) returns an object equal to x (same class, same URI, same components).",
  "all accepted URIs, all coding schemes, all filter values","unbounded inputs; serials may contain '.', ':' and '-' on which from_tag_uri splits",
  [f"{B}: TagEncodable.from_tag_uri"]+[f"{x}: tag_uri" for x in S("sgtin","sscc","sgln","grai","giai","gsrn","gsrnp","gdti","cpi","sgcn","itip","gid","usdod","adi")])
p("C17","The 96/110-bit coding schemes are offered exactly for representable serials",
  "x.tag_uri(<96/110-bit scheme>, f) raises ConvertException exactly when the serial is not a decimal number without superfluous leading zero or does not fit the bit field (2**38, 2**41, 2**N, 2**31); otherwise it returns.",
  "all accepted URIs, all filter values","numeric boundary over unbounded digit strings",
  [f"{x}: tag_uri" for x in S("sgtin","sgln","grai","giai","gdti","cpi","itip")])
p("C18","A tag URI of another scheme is rejected",
  "C.from_tag_uri(t) never returns an object when t's scheme name (before the '-') is not C's; and tag_uri_to_tag_encodable only ever returns an object of the class named in the URI.",
  "all strings, all classes","all strings",
  [f"{B}: TagEncodable.from_tag_uri", f"{PA}: tag_uri_to_tag_encodable"])
p("C19","Decoding ignores filter value and coding scheme",
  "The object decoded from x.binary(scheme, f) (or from the tag URI) is the same for every filter value f and every coding scheme for which x.tag_uri succeeds; the binaries for two filter values differ only in the filter field.",
  "all objects, all pairs of filter values and schemes","all inputs",
  [f"{x}: binary, from_binary" for x in S("sgtin","sscc","sgln","grai","giai","gsrn","gsrnp","gdti","cpi","sgcn","itip","usdod")])
p("C20","Binary encodings have the size their scheme names",
  "Whenever x.tag_uri(scheme, f) returns, x.binary(scheme, f) has exactly the number of bits in the scheme's name (96, 110, 113, 170, 174, 195, 198, 202, 212), starts with the scheme's 8-bit header followed by the filter value, and contains only 0 and 1.",
  "all objects, schemes, filter values","all inputs; every field must fit its width",
  [f"{x}: binary" for x in S("sgtin","sscc","sgln","grai","giai","gsrn","gsrnp","gdti","cpi","sgcn","itip","gid","usdod")])
p("C21","Binary round-trip of the fixed numeric encodings",
  "For SGTIN-96, SSCC-96, SGLN-96, GRAI-96, GIAI-96, GSRN-96, GSRNP-96, GDTI-96, CPI-96, SGCN-96, ITIP-110, GID-96 and USDOD-96: whenever x.tag_uri(scheme, f) returns, from_binary(x.binary(scheme, f)) == x.",
  "all accepted URIs with representable serials, all filter values","2**88 values per scheme",
  [f"{x}: binary, from_binary" for x in S("sgtin","sscc","sgln","grai","giai","gsrn","gsrnp","gdti","cpi","sgcn","itip","gid","usdod")])
p("C22","Binary round-trip of the alphanumeric encodings",
  "For SGTIN-198, SGLN-195, GRAI-170, GIAI-202, GDTI-174 and ITIP-212: from_binary(x.binary(scheme, f)) == x for every accepted x whose serial is in canonical escaped form.",
  "all accepted URIs with canonical serials, all filter values","all alphanumeric serials",
  [f"{x}: binary, from_binary" for x in S("sgtin","sgln","grai","giai","gdti","itip")])
p("C23","Binary round-trip of the variable-length encodings",
  "For CPI-var and ADI-var: from_binary(x.binary(scheme, f)) == x for every accepted x, also when the binary is followed by zero padding.",
  "all accepted URIs, all filter values, any amount of zero padding","terminator detection over all bit patterns",
  [f"{x}: binary, from_binary" for x in S("cpi","adi")])
p("C24","Encoding is injective",
  "Two accepted objects of one class (with canonical components, and for which tag_uri returns) that have the same binary, hex or base64 under the same coding scheme have the same URI.",
  "all pairs of objects","pairs of unbounded inputs",
  [f"{x}: binary" for x in S("sgtin","sscc","sgln","grai","giai","gsrn","gsrnp","gdti","cpi","sgcn","itip","gid","usdod")])
p("C25","Hex form is word aligned and round-trips",
  "x.hex(...) is the uppercase hexadecimal form of x.binary(...) zero-padded on the right to a multiple of 16 bits: it has exactly ceil(len/16)*4 digits (no leading digit is lost) and from_hex(x.hex(...)) == x whenever from_binary on the padded binary gives x.",
  "all objects, schemes, filter values","all inputs; int formatting drops leading zeros",
  [f"{B}: TagEncodable.hex, TagEncodable.from_hex"])
p("C26","Base64 form round-trips",
  "from_base64(x.base64(...)) == x for every object, scheme and filter for which tag_uri returns and the hex form round-trips; padding characters at the end of the base64 text may be dropped.",
  "all objects, schemes, filter values","three alignment classes times all contents",
  [f"{B}: TagEncodable.base64, TagEncodable.from_base64"])
p("C27","Trailing bits after a fixed-size encoding are ignored",
  "For every fixed-size coding scheme, from_binary(b + extra) behaves exactly like from_binary(b) whenever b is at least as long as the scheme's size.",
  "all strings b and extra","all strings",
  [f"{C}: parse_header_and_truncate_binary"])
p("C28","Too-short binaries are rejected with ConvertException",
  "from_binary on a string that starts with one of the class's fixed-size headers but is shorter than the scheme's size raises ConvertException.",
  "all strings","all strings",
  [f"{C}: parse_header_and_truncate_binary"])
p("C29","Unknown headers are rejected with ConvertException",
  "binary_to_tag_encodable raises ConvertException for every string whose first eight characters are not a known header; so do the classes' from_binary methods.",
  "all strings","all strings",
  [f"{PA}: binary_to_tag_encodable", f"{C}: parse_header_and_truncate_binary"])
p("C30","Decoding then encoding reproduces the bits",
  "For the 96-bit numeric schemes, if from_binary(b) returns x then x.binary(scheme, filter bits of b) equals the first 96 bits of b (with the reserved bits of SSCC/GSRN/GSRNP zeroed).",
  "all bit strings","2**96 strings",
  [f"{x}: from_binary, binary" for x in S("sgtin","sscc","sgln","grai","giai","gsrn","gsrnp","gdti","cpi","sgcn","gid")])
p("C31","Reserved partition values are rejected",
  "A bit string whose 3-bit partition value is 7 is rejected with ConvertException by every partition-table scheme, and a company prefix or (padded) reference field holding a number too large for its digit count is rejected with ConvertException.",
  "all bit strings","there are 2^96 to 2^212 bit strings of each kind, and tags in the field carry any of them; examples only show single ones",
  [f"{C}: decode_partition_table"])
p("C32","GS1 element strings round-trip",
  "from_gs1_element_string(x.gs1_element_string(), len(company prefix)) == x for every accepted x with canonical components.",
  "all accepted URIs with canonical components","unbounded inputs; parsing re-splits on parenthesised application identifiers",
  [f"{x}: gs1_element_string, from_gs1_element_string" for x in S("sgtin","sscc","sgln","grai","giai","gsrn","gsrnp","gdti","cpi","sgcn","ginc","gsin","itip","upui","pgln","lgtin")])
p("C33","GS1 keys have the right length and a valid check digit",
  "For accepted x: the key of SGTIN/LGTIN is 14 digits, SSCC/GSRN/GSRNP 18, GSIN 17, SGLN/PGLN 13, and the numeric part of GRAI/GDTI/SGCN keys is 13 digits; each ends (its numeric part) with the check digit that makes the GS1 weighted sum a multiple of 10, and the key contains the company prefix.",
  "all accepted URIs","all inputs",
  [f"{x}: gs1_key" for x in S("sgtin","lgtin","sscc","gsrn","gsrnp","gsin","sgln","pgln","grai","gdti","sgcn")])
p("C34","Shorter GTINs are returned exactly when they exist",
  "gs1_key(gtin_type=GTIN8/12/13) returns the last 8/12/13 digits of the GTIN-14 if the dropped leading digits are all zero, and raises ConvertException otherwise; padding the result back with zeros gives the GTIN-14.",
  "all accepted SGTINs and LGTINs","all inputs",
  [f"{x}: gtin, gs1_key" for x in S("sgtin","lgtin")])
p("C35","SGTIN from GTIN plus serial",
  "SGTIN.from_gtin_plus_serial(x.gtin(), serial of x, len(company prefix)) == x for every accepted x; and if from_gtin_plus_serial(g, s, n) returns y for a 14-digit g, then y.gtin() agrees with g in all digits but the last, which is the correct check digit.",
  "all accepted SGTINs; all GTIN strings, serials and prefix lengths","all inputs",
  [f"{S('sgtin')[0]}: from_gtin_plus_serial, gtin"])
p("C36","Element strings with a wrong check digit",
  "from_gs1_element_string rejects an element string whose check digit is wrong; i.e. if it returns x then x.gs1_element_string() is the string that was parsed.",
  "all element strings, all prefix lengths","all strings",
  [f"{x}: from_gs1_element_string" for x in S("sgtin","sscc","sgln","gsrn","gsrnp","pgln","gsin")])
p("C37","A GS1 element string is claimed by at most one scheme",
  "No string matches the element-string patterns of two schemes, so the dispatch of gs1_element_string_to_gs1_element does not depend on the order of its table; and every x.gs1_element_string() is dispatched back to x's own class.",
  "all strings","all strings",
  [f"{R}: *_GS1_ELEMENT_STRING", f"{PA}: gs1_element_string_to_gs1_element"])
p("C38","Pure identity dispatch",
  "epc_pure_identity_to_scheme(u) returns exactly what the class named in the URI's scheme field returns for u, it returns an object with epc_uri == u for every u accepted by any class, and raises ConvertException for unknown scheme names; the gs1_element/gs1_keyed/tag_encodable variants return the same object or raise ConvertException.",
  "all strings","all strings",
  [f"{PA}: epc_pure_identity_to_*"])
p("C39","Binary, hex and base64 dispatch",
  "The 8-bit headers of all coding schemes are pairwise distinct, so for every TagEncodable x, binary_to_tag_encodable(x.binary(...)), hex_to_tag_encodable(x.hex(...)) and base64_to_tag_encodable(x.base64(...)) are what x's own class returns.",
  "all objects, schemes and filter values","all inputs",
  [f"{PA}: binary_to_tag_encodable, hex_to_tag_encodable, base64_to_tag_encodable, TAG_ENCODABLE_BINARY_HEADERS"])
p("C40","get_gs1_key agrees over all representations",
  "For every GS1-keyed object x: get_gs1_key of x's pure identity URI, tag URI, binary, hex and GS1 element string (with the company prefix length) all equal x.gs1_key() whenever these representations exist and round-trip.",
  "all accepted URIs, coding schemes, filter values","five parsers and their precedence on all inputs",
  [f"{PA}: get_gs1_key"])
p("C41","get_gs1_key of an id pattern is the key of its members",
  "For an SGTIN or SGLN pattern with a wildcard serial, get_gs1_key(pattern) equals get_gs1_key(u) for every URI u of the pattern; patterns with two or more wildcards raise ConvertException; for GRAI and GDTI the key of a pattern is the key of its members too.",
  "all patterns and members","all pairs of pattern and member",
  [f"{PA}: _idpat_to_gs1_keyed_scheme, get_gs1_key"])
p("C42","get_gs1_key refuses sources without a GS1 key",
  "For every accepted ADI, BIC, CPI, GID, IMOVN, ITIP, UPUI and USDOD URI, get_gs1_key raises ConvertException.",
  "all accepted URIs of these schemes","all inputs",
  [f"{PA}: get_gs1_key"])
p("C43","Equality of EPC objects",
  "x == y holds exactly when both are EPC schemes with the same epc_uri; it is an equivalence relation; equal objects accepted by constructors are of the same class and have equal components, keys and encodings.",
  "all pairs and triples of objects of all 21 classes","all pairs",
  [f"{B}: EPCScheme.__eq__"])
p("C44","Hexadecimal input is case-insensitive",
  "from_hex(h), hex_to_tag_encodable(h) and get_gs1_key(h) give the same result for h in upper, lower or mixed case.",
  "all hex strings","all strings",
  [f"{B}: TagEncodable.from_hex", f"{PA}: hex_to_tag_encodable, get_gs1_key"])
p("C45","GS1 keys do not depend on the serial",
  "Two accepted SGTINs (LGTINs, SGLNs) with the same company prefix and reference have the same GS1 key; conversely equal keys and equal company-prefix length imply equal company prefix and reference.",
  "all pairs","pairs of unbounded inputs",
  [f"{x}: gs1_key" for x in S("sgtin","lgtin","sgln")])
p("C46","gs1_element_string is available for every accepted object",
  "For every accepted object of a GS1Element class, gs1_element_string() returns (does not raise) and the result matches the class's own element-string pattern.",
  "all accepted URIs of the 16 GS1Element classes","all inputs, including degenerate component lengths",
  [f"{x}: gs1_element_string" for x in S("sgtin","sscc","sgln","grai","giai","gsrn","gsrnp","gdti","cpi","sgcn","ginc","gsin","itip","upui","pgln","lgtin")])
p("C47","The long coding schemes are always available",
  "x.tag_uri(c, f) returns, for every accepted object x, every filter value f and c one of sgtin-198, sgln-195, grai-170, giai-202, gdti-174, cpi-var, itip-212, and the only coding scheme of SSCC, GSRN, GSRNP, SGCN, GID, USDOD and ADI; the result is urn:epc:tag:<c>:<f>.<components of x>.",
  "all accepted URIs, all filter values","unbounded inputs: no length or character check of tag_uri may refuse what the constructor accepts",
  [f"{x}: tag_uri" for x in S("sgtin","sgln","grai","giai","gdti","cpi","itip","sscc","gsrn","gsrnp","sgcn","gid","usdod","adi")])
p("C48","Exactly which free-form serials the constructors accept",
  "For SGTIN, LGTIN, SGLN, GRAI, GDTI, UPUI, ITIP, GINC and GIAI: a URI whose serial is the escaped form of a text over the GS1 character set is accepted if and only if the numeric components consist of digits and have the documented lengths, the text is non-empty, has no more characters than documented (for GRAI, GDTI and GIAI the limit counts the escaped form) and no escape that contains a letter is followed by further text before the next escape of two decimal digits. Everything accepted has the prefix of its class, numeric components of digits, and a serial of allowed characters in which a hexadecimal digit follows every percent sign.",
  "all strings","all strings of every length; exact acceptance condition in both directions",
  [f"{x}: __init__" for x in S("sgtin","lgtin","sgln","grai","gdti","upui","itip","ginc","giai")]+[f"{C}: verify_gs3a3_component, replace_uri_escapes"])
p("C49","Binaries with character-string serials have the documented size whenever they are returned",
  "If binary() with sgtin-198, sgln-195, grai-170, giai-202, gdti-174 or itip-212 returns for an accepted URI, the result consists of '0' and '1' only and has exactly 198, 195, 170, 202, 174 or 212 characters, whatever the serial is.",
  "all accepted URIs, all filter values","serials with arbitrary, also ill-formed, escapes",
  [f"{x}: binary" for x in S("sgtin","sgln","grai","giai","gdti","itip")]+[f"{C}: encode_string, encode_partition_table"])
p("C50","Escaping and unescaping work in a single pass on every string",
  "replace_uri_escapes(s) equals reading s once from left to right and replacing %25 %3F %3E %3C %2F %26 %22 by % ? > < / & double-quote; revert_uri_escapes(s) equals replacing each of these characters of s by its escape; nothing is replaced twice and nothing else is changed.",
  "all strings, not only serials of accepted URIs","all strings; the order of the successive replacements matters",
  [f"{C}: replace_uri_escapes, revert_uri_escapes"])
p("C51","binary() refuses what tag_uri() refuses",
  "If tag_uri(c, f) raises ConvertException for an accepted object because its serial does not fit coding scheme c, then binary(c, f) raises as well.",
  "all accepted URIs, c one of sgtin-96, sgln-96, grai-96, gdti-96, giai-96, cpi-96, itip-110","all serials",
  [f"{x}: tag_uri, binary" for x in S("sgtin","sgln","grai","gdti","giai","cpi","itip")]+[f"{C}: str_to_binary"])
p("C52","Decoding of numeric encodings is completely specified",
  "For every bit string that begins with the header of SGTIN-96, SSCC-96, SGLN-96, GRAI-96, GIAI-96, GID-96, GSRN-96, GSRNP-96, GDTI-96, CPI-96, SGCN-96, ITIP-110 or USDOD-96 and has at least the size of the encoding: if the numbers in the fields of the standard's layout have no more digits than the partition allows, from_binary returns the EPC whose components are exactly these numbers (company prefix and reference padded with zeros, serial without); otherwise it raises ConvertException.",
  "all bit strings","all 2^96 (and longer) bit strings",
  [f"{x}: from_binary" for x in S("sgtin","sscc","sgln","grai","giai","gid","gsrn","gsrnp","gdti","cpi","sgcn","itip","usdod")]+[f"{C}: decode_partition_table, decode_numeric_string, decode_fixed_width_integer, decode_cage_code"])
p("C53","Decoding of encodings with text is completely specified",
  "For every bit string that begins with the header of SGTIN-198, SGLN-195, GRAI-170, GDTI-174, ITIP-212 or GIAI-202 and has at least the size of the encoding: if the numeric fields are in range and the seven-bit groups hold a non-empty text over the GS1 character set, not too long, in which no character escaped with a letter stands at the start or after a character escaped with two digits unless followed by another such, from_binary returns the EPC with these components; a text with other characters, an empty or too long text, or a numeric field out of range raises ConvertException; a text that breaks only the last rule raises ConvertException, ValueError or OverflowError.",
  "all bit strings","there are 2^96 to 2^212 bit strings of each kind, and tags in the field carry any of them; examples only show single ones",
  [f"{x}: from_binary" for x in S("sgtin","sgln","grai","gdti","itip","giai")]+[f"{C}: decode_string, decode_partition_table, verify_gs3a3_component"])
p("C54","Decoding of CPI-var is completely specified",
  "For every bit string that begins with the header of CPI-var and reaches to the end of the company prefix: let the text be what the six-bit groups after the company prefix spell up to six zeros or the end, and the serial be the number in the (at most 40) bits after the six zeros. If the company prefix has no more digits than the partition allows, the text after escaping is that of a non-empty part reference, it is not longer than the partition allows, company prefix and reference have at most 30 characters and the serial at most 12 digits, from_binary returns the EPC with exactly these components; otherwise it raises ConvertException. A tag cut off before the serial is read with serial 0.",
  "all bit strings","bit strings of every length and content; examples only show single ones",
  [f"{x}: from_binary" for x in S("cpi")]+[f"{C}: decode_partition_table, decode_string_six_bits"])
p("C55","Decoding of ADI-var is completely specified",
  "For every bit string of at least 50 bits that begins with the header of ADI-var: the part number is the text in the six-bit groups from bit 50 to the first six consecutive zeros (aligned or not), the serial number the text in the groups behind them that do not reach into the last six bits. If bits 14 to 49 hold a CAGE code and both texts are, escaped, those of a part number and a serial number of permitted length, from_binary returns the EPC with exactly these components; otherwise, also when there are no six zeros, it raises ConvertException.",
  "all bit strings","bit strings of every length and content; examples only show single ones",
  [f"{x}: from_binary" for x in S("adi")]+[f"{C}: decode_cage_code_six_bits, decode_string_six_bits"])
p("C56","Encoding is completely specified",
  "For every accepted URI made of ASCII characters, every coding scheme and every filter value: if the tag URI of that coding scheme exists (for the encodings with a text: if the serial number is the escaped form of a text over the GS1 character set), binary returns exactly the header, the filter value, the partition value 12 - (length of the company prefix), the company prefix, the reference and the serial number of the identifier, as numbers with the most significant bit first in the widths of the TDS coding tables; a text as seven-bit codes (six-bit for CPI-var and ADI-var, eight-bit for a CAGE code in USDOD-96, which is aligned to the right with a space), then zeros up to the width of the field or a terminator of six zeros; SSCC, GSRN and GSRNP end in 24 zeros; an SGCN serial number is written with a leading 1.",
  "all accepted ASCII URIs, all coding schemes, all filter values","the set of identifiers is far too large to enumerate; a round trip through decode would hide an encoding that is wrong in the same way on both sides",
  [f"{x}: binary" for x in S("sgtin","sscc","sgln","grai","giai","gsrn","gsrnp","gdti","sgcn","itip","cpi","gid","usdod","adi")]+[f"{C}: encode_partition_table, encode_string, encode_string_six_bits, encode_fixed_width_integer, encode_numeric_string, encode_cage_code, encode_cage_code_six_bits"])
p("C57","A tag URI determines the tag",
  "For every accepted URI: whenever tag_uri(coding scheme, filter) returns t, the generic parser applied to t returns that very object (same class, same attributes), and no other object of that class, coding scheme or filter value has the tag URI t.",
  "all accepted URIs, all coding schemes, all filter values","pairs of identifiers colliding on one tag URI cannot be searched by tests",
  [f"{x}: tag_uri, from_tag_uri" for x in S("sgtin","sscc","sgln","grai","giai","gsrn","gsrnp","gdti","sgcn","itip","cpi","gid","usdod","adi")]+[f"{PA}: tag_uri_to_tag_encodable"])
p("C58","The bits of a tag determine class, coding scheme and filter value",
  "If two objects of a class give the same binary string, they were encoded with the same coding scheme and the same filter value, and the first eight bits of the binary string are a header of that class and of no other class.",
  "all pairs of objects, coding schemes and filter values","quantifies over all pairs of encodings",
  [f"{x}: binary, BinaryHeader" for x in S("sgtin","sscc","sgln","grai","giai","gsrn","gsrnp","gdti","sgcn","itip","cpi","gid","usdod","adi")])
p("C59","Parsing element strings is completely specified",
  "For every string s and every company prefix length n: from_gs1_element_string(s, n) returns an object exactly if s is the application identifier, the right number of digits and a serial part over the class's character set and length, and 6 <= n <= 12 (UPUI: 1 <= n <= 12); the object is the one whose URI has the first n digits (behind the indicator or extension digit) as company prefix, the remaining digits without the check digit as reference and the escaped serial part. Every other input raises ConvertException, except serial parts with a parenthesised group (SGTIN, LGTIN, SGLN: ValueError) and serial parts whose escapes are misread (ConvertException, ValueError or OverflowError). Negative n count from the end of the digits. (GIAI, GINC: strings without a dot among the first n characters; GIAI: without colon.)",
  "all strings, all company prefix lengths","the set of strings is infinite, and rejection can only be proved, not tested",
  [f"{x}: from_gs1_element_string" for x in S("sgtin","sscc","sgln","grai","giai","gsrn","gsrnp","gdti","sgcn","itip","cpi","ginc","gsin","lgtin","pgln","upui")]+[f"{R}: *_GS1_ELEMENT_STRING"])
p("C60","Parsers raise only the listed exceptions",
  "For every string: a constructor raises nothing but ConvertException, ValueError or OverflowError (ConvertException only for ADI, BIC, CPI, GID, GSIN, GSRN, GSRNP, IMOVN, PGLN, SGCN, SSCC, USDOD; all three occur for the other classes); so do from_tag_uri, from_gs1_element_string, from_gtin_plus_serial, binary_/hex_/base64_to_tag_encodable, gs1_element_string_to_gs1_element and get_gs1_key without gtin_type. from_binary raises KeyError in addition, exactly if the first eight characters are no header of the class; epc_pure_identity_to_scheme and tag_uri_to_tag_encodable raise IndexError in addition, exactly if there are fewer than three colons; get_gs1_key with gtin_type raises TypeError in addition, exactly for objects with a key that are neither SGTIN nor LGTIN.",
  "all classes, all strings (decimal numerals of at most 4300 digits), all company prefix lengths","a caller's except clause must cover every exception; no set of test inputs shows that another exception never occurs",
  [f"{PA}: get_gs1_key, epc_pure_identity_to_scheme, tag_uri_to_tag_encodable, binary_to_tag_encodable, hex_to_tag_encodable, base64_to_tag_encodable, gs1_element_string_to_gs1_element"]+[f"{x}: __init__, from_tag_uri, from_binary, from_gs1_element_string" for x in S("sgtin","sscc","sgln","grai","giai","gsrn","gsrnp","gdti","sgcn","itip","cpi","ginc","gsin","lgtin","pgln","upui","adi","bic","gid","imovn","usdod")])
p("C61","get_gs1_key answers exactly for strings that denote an object with a key",
  "get_gs1_key(s, n, gtin_type) returns k exactly if s is a pure identity URI, a GS1 element string (with a non-zero company prefix length n), a tag URI, a pure identity pattern (a pure identity URI with idpat in the place of id), a binary or a hexadecimal encoding of an object of a class with GS1 keys, and k is the key of that object. The string has at most one key. Every object returned by from_tag_uri, from_binary or from_gs1_element_string equals the object constructed from its own pure identity URI and has the class that was asked. The retry of a pattern with a dummy serial never changes a result.",
  "all strings, all company prefix lengths, all GTIN types","both directions quantify over all strings: that nothing else is given a key cannot be tested",
  [f"{PA}: get_gs1_key, idpat_to_gs1_keyed_scheme"])
p("C62","Element strings have the text GS1 prescribes",
  "For every accepted object of a class with an element string, gs1_element_string() is, character by character, the application identifier of the class, the key (indicator or extension digit if there is one, company prefix, reference, check digit), the second application identifier if there is one, and the serial of the URI with the seven escapes of TDS replaced (for GIAI only up to the first colon; for CPI the reference with %23 and %2F replaced). Two objects of a class whose company prefixes (ITIP: and pieces and totals) have the same length and whose element strings are equal have the same company prefix, reference and unescaped serial (ITIP: and piece and total).",
  "all accepted URIs of SGTIN, LGTIN, UPUI, ITIP, SSCC, GSRN, GSRNP, PGLN, GSIN, SGLN, GRAI, GDTI, SGCN, GIAI, GINC, CPI","the text must be right for every prefix length, digit and serial; that no two serials collide quantifies over pairs",
  [f"{x}: gs1_element_string" for x in S("sgtin","lgtin","upui","itip","sscc","gsrn","gsrnp","pgln","gsin","sgln","grai","gdti","sgcn","giai","ginc","cpi")])
p("C63","Digits of other scripts mean what the ASCII digits mean",
  "The constructors accept decimal digits of every script in numeric components. If a URI is accepted and every decimal digit in it is rewritten as the ASCII digit of the same value, the result consists of ASCII characters and is accepted; the attributes, the GS1 key, the element string and the tag URI (for every coding scheme and filter value, including whether it raises) of the new object are those of the old one rewritten in the same way, and the binary encoding is the same (or raises the same exception). ADI, BIC and IMOVN accept only ASCII characters.",
  "all accepted URIs of all 21 classes, all coding schemes, all filter values","there are 65 scripts with decimal digits and every position of every component may use any of them",
  [f"{x}: __init__, tag_uri, binary, gs1_element_string, gs1_key" for x in S("sgtin","sscc","sgln","grai","gdti","giai","gsrn","gsrnp","sgcn","itip","cpi","gid","usdod","pgln","gsin","ginc","lgtin","upui","adi","bic","imovn")])

p("C64", "What was read from a tag can be written again",
  "If a binary decodes to an object x, then x.tag_uri(c, f) and x.binary(c, f), for the coding scheme c and the filter value f of that binary, return, and decoding them yields x again. Exceptions: a GIAI-202 whose reference contains ':' comes back as another object; an ITIP with piece or total 99 has no binary; the tag URI of a CPI-96 is refused if company prefix and part reference exceed 15 digits (the decoder reads such tags); an ADI comes back exactly if the bits of its part number in the six-bit code, with the first five bits of the terminator, contain no six zeros in a row.",
  "all bit strings that are accepted, all 21 encodings",
  "all bit strings: stray bits, empty seven-bit groups and unaligned terminators are read as well, and the object made from them need not be one the encoder can write",
  [f"{x}: from_binary, binary, from_tag_uri, tag_uri" for x in S("sgtin","sscc","sgln","grai","gdti","giai","gsrn","gsrnp","sgcn","itip","cpi","gid","usdod","adi")])

p("C65", "from_gtin_plus_serial is completely specified",
  "SGTIN.from_gtin_plus_serial(gtin, serial, n) for a gtin of digits fills it with zeros to 14 digits and returns (or raises) exactly what SGTIN(uri) does for the URI with the n digits after the first as company prefix, the first digit and the digits up to the last but one as item reference, and the serial as it is given. The last character of the gtin is not looked at: neither its value nor whether it is a digit makes a difference. A gtin of more than 14 characters, with a non-digit before the last character, or a length that is neither in 6..12 nor in -8..-2 raises ConvertException whatever the serial. A negative length -k means 14-k.",
  "all gtin texts without a dot, all serials, all integer prefix lengths (dots: by example, they move the borders)",
  "all GTIN texts of all lengths and all prefix lengths",
  [f"{x}: from_gtin_plus_serial" for x in S("sgtin")])

p("C66", "The helper codecs for characters, CAGE codes and part references are specified",
  "encode_cage_code writes every character with a code below 256 in eight bits, and decode_cage_code reads any bit string in groups of eight bits, a shorter last group as the number it is, and drops blanks; decoding what was encoded gives the text without its blanks. encode_cage_code_six_bits writes every CAGE code (five or six characters) in 36 bits, with a blank before one of five characters, and decode_cage_code_six_bits gives it back. decode_binary_char of seven bits is the character with that number, in its escaped form if it has one, and nothing for seven zeros. revert_cpi_escapes writes # and / of any text as escapes and nothing else, and replace_cpi_escapes gives back every text without a percent sign.",
  "all texts of characters below 256; all bit strings; all CAGE codes; all seven-bit strings; all texts",
  "texts and bit strings of every length",
  [f"{C}: encode_cage_code, decode_cage_code, encode_cage_code_six_bits, decode_cage_code_six_bits, decode_binary_char"] + [f"{x}: replace_cpi_escapes, revert_cpi_escapes" for x in S("cpi")])

p("C67", "Which strings the constructors with a free-form serial accept, and which exception the others raise",
  "For every string u, the constructors of SGTIN, LGTIN, SGLN, GRAI, GDTI, GIAI, GINC, UPUI and ITIP return an object exactly if u is the URI of the scheme with digit components of the documented lengths and a serial over the permitted characters, with a hexadecimal digit after every percent sign, not too long, and whose percent signs make sense in the following way: cut the serial before and after every %dd (two decimal digits); every piece that starts with a percent sign is as a whole the hexadecimal code, in Python's number notation, of a character of the GS1 set 82. They raise ValueError exactly if, in a u of that form, the first piece that is not the code of any character is not a hexadecimal number below 2**31, OverflowError exactly if it is a number of 2**31 or more, and ConvertException for every other string.",
  "all strings, all nine schemes",
  "all strings; which of three exceptions is raised depends on the whole serial",
  [f"{x}: __init__" for x in S("sgtin","lgtin","sgln","grai","gdti","giai","ginc","upui","itip")] + [f"{C}: verify_gs3a3_component"])

p("C68", "Round trips and injectivity of the encodings for digits of any script",
  "The constructors accept decimal digits of every script. For every accepted object x whose tag_uri(c, f) returns (for the coding schemes with a text: whose serial is in canonical escaped form; ITIP: with two-digit piece and total below 99): binary, hex and base64 return, and reading them (the binary also with anything appended) gives the object whose URI is that of x with every digit written as the ASCII digit of the same value (GIAI: and with the asset reference cut at the first colon). Two such objects have the same binary, the same hex or the same base64 form exactly if their URIs agree up to the script of the digits (GIAI: company prefix and asset reference agree) and the filter values are equal.",
  "all accepted URIs, with digits of any script; all coding schemes but ADI-var (ADI accepts ASCII only), all filter values, all trailing bits",
  "digits of some 60 scripts in every position, and pairs of objects colliding on one encoding",
  [f"{x}: binary, from_binary, hex, base64" for x in S("sgtin","sscc","sgln","grai","giai","gsrn","gsrnp","gdti","cpi","sgcn","itip","gid","usdod")] + [f"{C}: encode_partition_table, str_to_binary"])

p("C69", "binary() is specified for every object, also when the coding scheme cannot express it",
  "binary(c, f) does not check that the coding scheme c can express the object; this is what it does in every case. Numeric coding schemes read the serial (GIAI-96: the asset reference; CPI-96: the part reference) as a Python integer: if it is one (perhaps a sign, digits, single underscores between them) the field is its binary form, filled with zeros to the width of the field - longer if the number is too large, with a minus sign among the bits if it is negative; otherwise binary raises ValueError. Coding schemes with a text cut the serial before and after each percent sign with two hexadecimal digits; a piece that starts with a percent sign is encoded as one hexadecimal number, the other pieces character by character in seven bits, and the field is filled with zeros on the right; binary raises ValueError exactly if such a piece is no hexadecimal number. ITIP raises ConvertException exactly if piece or total is 99 or more. The other coding schemes always return, and the bits are listed.",
  "all accepted URIs, with digits of any script; all coding schemes and filter values; all serials, canonical or not",
  "the serials a scheme cannot express are the rare ones: signs, underscores, escapes glued to letters, huge numbers",
  [f"{x}: binary" for x in S("sgtin","sscc","sgln","grai","giai","gsrn","gsrnp","gdti","cpi","sgcn","itip","gid","usdod")] + [f"{C}: str_to_binary, encode_string, encode_fixed_width_integer, encode_partition_table"])
p("C70", "Exactly when parsing raises an exception other than ConvertException",
 "from_tag_uri raises ValueError or OverflowError exactly if the string is a tag URI of the class (a documented size, a numeric filter) whose pure identity URI makes the constructor raise that exception (see C67); the classes without a free-form serial raise only ConvertException. from_binary of SGTIN-198, SGLN-195, GRAI-170, GDTI-174, GIAI-202 and ITIP-212 raises ValueError or OverflowError exactly if the numeric fields are in range, the text is non-empty and over the GS1 set 82 and the percent signs of its escaped form do not make sense in the way of C67 (GIAI: the text up to the first colon, if not too long). from_gs1_element_string raises ValueError exactly for well-formed element strings whose serial contains a parenthesised group (SGTIN, LGTIN, SGLN) or, with a sensible company prefix length, percent signs that do not make sense in this way, and OverflowError likewise; for GIAI and GINC it does whatever the constructor does with the URI that has a dot behind the first n characters.",
 "all strings and bit strings, all company prefix lengths n >= 0, all classes",
 "The exceptions depend on how the escapes of a serial are glued to the characters behind them, for serials of every length; and an exception type outside the documented one escapes any caller that catches ConvertException only.",
 [f"{x}: __init__, from_gs1_element_string, from_binary" for x in S("sgtin","lgtin","sgln","grai","gdti","giai","ginc","upui","itip")] + [f"{C}: verify_gs3a3_component, revert_uri_escapes, decode_string", "epcpy/epc_schemes/base_scheme.py: from_tag_uri"])
p("C71", "Reading a tag and writing it again changes only unused bits",
 "If from_binary decodes a bit string to an object, binary() of that object, for the coding scheme of the header and the filter value found in the bits, returns the same bits up to the size of the encoding, except: the bits of the reference are zero if the company prefix has twelve digits and the reference of the scheme then has none (SGLN, GRAI, GDTI, SGCN); the text of a serial number is moved to the front of its field if groups of seven zeros stand before or inside it; a CAGE code is moved to the right end of its field, without the blanks inside it; a GIAI reference ends before its first colon; what follows a CPI-var or ADI-var is dropped; a CPI-var that ends before its serial number does is completed. The text stays as it is exactly if no group of zeros is followed by a non-zero group, the key fields exactly if the unused bits are zero. An ITIP with piece and total below 99 is meant; for 99 see C64.",
 "all bit strings that decode, of any length, for SGLN-96/195, GRAI-96/170, GDTI-96/174, SGCN-96, SGTIN-198, ITIP-110/212, GIAI-202, USDOD-96, CPI-var and ADI-var; the other encodings are in C30",
 "A reader that rewrites tags must know which bits it may destroy; which bits are ignored depends on the partition value and on where zeros stand in up to 168 bits of text.",
 [f"{x}: from_binary, binary" for x in S("sgln","grai","gdti","sgcn","sgtin","itip","giai","usdod","cpi","adi")] + [f"{C}: decode_partition_table, encode_partition_table, decode_string, encode_string, decode_cage_code, encode_cage_code"])
p("C72", "hex, base64, from_hex and from_base64 are specified for every object and every text",
  "from_hex(s) is from_binary of the bits of s, four per digit, if s consists of hexadecimal digits (either case, decimal digits of any script); for every other s it raises ValueError or KeyError - blanks, signs, underscores and a prefix 0x, which Python's int accepts, never lead to an object. from_base64(s) ignores characters outside the base64 alphabet and any pad characters at the end and is from_binary of the bits of the others, six per character, up to the last whole byte; it raises ValueError if the number of these characters is zero or one more than a multiple of four, or if s is not ASCII; a pad character in the middle ends the text if it completes a group of four and otherwise does not count. hex() and base64() raise ValueError exactly if binary() returns something that is not a bit string (a minus sign in it), and the exception of binary() if it raises one.",
  "all strings; all objects, coding schemes and filter values of the 14 classes with a binary form",
  "Every string is an input; the fallback paths of int() and of the base64 decoder accept far more than what the encoder writes.",
  [f"{B}: TagEncodable.from_hex, TagEncodable.from_base64, TagEncodable.hex, TagEncodable.base64", f"{C}: hex_to_binary, base64_to_hex, hex_to_base64, binary_to_hex"])
p("C73", "The outcome of a call does not depend on the calls made before",
  "Whatever sequence of tag_uri, binary, hex, base64, gs1_key and gs1_element_string calls a program makes on any number of objects, each call returns the value or raises the exception it would as the only call ever made on its object; exceptions in between change nothing.",
  "all finite sequences of calls, all objects of the 21 classes, all arguments",
  "Objects carry slots for remembered results; a stale one shows only after particular histories, of which there are infinitely many.",
  [f"{x}: tag_uri, binary" for x in S("sgtin","sscc","sgln","grai","giai","gid","gsrn","gsrnp","gdti","cpi","sgcn","usdod","adi","itip")] + [f"{B}: hex, base64, TagEncodable.__init__"])
p("C74", "Threads that share objects do not disturb each other",
  "If several threads call tag_uri, binary, hex, base64, gs1_key and gs1_element_string on shared objects, then for every interleaving of their attribute accesses each call returns the value or raises the exception it would as the only call ever made on its object, and ends after a bounded number of its own steps.",
  "all numbers of threads and objects, all lists of calls per thread, all schedules",
  "A race shows only under particular interleavings, which tests cannot enumerate or reproduce.",
  [f"{x}: tag_uri, binary" for x in S("sgtin","sscc","sgln","grai","giai","gid","gsrn","gsrnp","gdti","cpi","sgcn","usdod","adi","itip")] + [f"{B}: hex, base64, TagEncodable.__init__"])
p("C75", "from_binary takes strings of zeros and ones only",
  "If from_binary of any of the 14 tag classes returns an object, the text it was given consists of the characters 0 and 1.",
  "all texts, all 14 classes",
  "The texts over all characters are infinitely many, and the odd ones that slip through are those nobody thinks of writing down.",
  [f"{x}: from_binary" for x in S("sgtin","sscc","sgln","grai","giai","gid","gsrn","gsrnp","gdti","cpi","sgcn","usdod","adi","itip")] + [f"{C}: binary_to_int, decode_partition_table, decode_fixed_width_integer, decode_numeric_string"])
p("C76", "hex and base64 take the arguments of binary, however they are passed",
  "For every object of the 14 tag classes and every way of passing a coding scheme and a filter value, by position, by name or by default: hex(...) and base64(...) are the hexadecimal and base64 forms of what binary(...) returns for the same arguments, and raise what it raises.",
  "all objects, all lists of positional arguments, all lists of keyword arguments",
  "Every test calls hex and base64 one way only; the ways to pass the arguments are as many as the argument lists.",
  [f"{B}: TagEncodable.hex, TagEncodable.base64"] + [f"{x}: binary" for x in S("sgtin","sscc","sgln","grai","giai","gid","gsrn","gsrnp","gdti","cpi","sgcn","usdod","adi","itip")])
p("C77", "tag_uri and binary take the same arguments in the same order",
  "For every tag class, object and way of passing a coding scheme and a filter value: if the call gives tag_uri a scheme and a filter, then tag_uri answers for them and binary called the same way answers for the same two; if it does not, both raise TypeError.",
  "all objects, all lists of positional arguments, all lists of keyword arguments",
  "As C76: each class has its own order and defaults, and tests use one call form per class.",
  [f"{x}: tag_uri, binary" for x in S("sgtin","sscc","sgln","grai","giai","gid","gsrn","gsrnp","gdti","cpi","sgcn","usdod","adi","itip")])
p("C78", "Which objects survive every chain of conversions",
  "An accepted object that is written out in any of its six notations (pure identity URI, GS1 element string, tag URI, binary, hexadecimal, base64), read with the general parser of that notation, written out in another notation, and so on any number of times, always arrives, and as the equal object, exactly if it meets the condition of its class: always for PGLN, GSIN, BIC and IMOVN; for the others that its digits are ASCII and its serial part is written canonically, plus the per-class exceptions (no serial that looks like an application identifier for SGTIN, SGLN and LGTIN; no colon for GIAI; two-digit piece and total for ITIP; no early terminator for ADI).",
  "all accepted objects of all 21 classes, all chains of conversions of any length, all coding schemes and filter values",
  "The chains are infinitely many and each step branches over notations, coding schemes and filter values; a test follows a few fixed paths.",
  [f"{PA}: epc_pure_identity_to_scheme, gs1_element_string_to_gs1_element, tag_uri_to_tag_encodable, binary_to_tag_encodable, hex_to_tag_encodable, base64_to_tag_encodable"] + [f"{x}: tag_uri, binary" for x in S("sgtin","sscc","sgln","grai","giai","gid","gsrn","gsrnp","gdti","cpi","sgcn","usdod","adi","itip")] + [f"{x}: gs1_element_string, from_gs1_element_string" for x in S("lgtin","upui","ginc","pgln","gsin")])
p("C79", "from_tag_uri with includes_filter=False reads tag URIs without a filter value",
  "For each of the 13 tag classes with filter values: if X(urn:epc:id:NAME:BODY) is accepted, then X.from_tag_uri(urn:epc:tag:NAME-SIZE:BODY, includes_filter=False) is that object, for each size of the class.",
  "all accepted bodies, all sizes of the 13 classes",
  "No test passes the flag at all; whether the text fits depends on every component of the body.",
  [f"{B}: TagEncodable.from_tag_uri", f"{R}: TAG_URI"])
p("C80", "from_tag_uri with the wrong includes_filter returns nothing",
  "If tag_uri of an accepted object wrote t, then from_tag_uri(t) with the flag includes_filter the wrong way round (False for the 13 classes with filter values, True for GID) raises an exception; it never returns another object.",
  "all accepted objects, coding schemes and filter values of all 14 tag classes",
  "A misread object would look plausible; that none exists has to be excluded for every serial, including those with dots and colons.",
  [f"{B}: TagEncodable.from_tag_uri"] + [f"{x}: tag_uri" for x in S("sgtin","sscc","sgln","grai","giai","gsrn","gsrnp","gdti","cpi","sgcn","usdod","adi","itip")] + [f"{x}: tag_uri, from_tag_uri" for x in S("gid")])
p("C81", "Interpreter limits on decimal conversions change no result",
  "On an interpreter that refuses decimal numerals of more than L digits (L at least 640, the least CPython allows), GID(u) and USDOD(u) accept exactly the same strings and yield the same objects as without the limit, directly and from tag URIs; the only difference is ValueError instead of ConvertException, for exactly the well-formed URIs in which the first component that is out of range has more than L digits. In the objects of every other class each attribute that is converted to a number is so short that no limit matters.",
  "all strings, all limits of at least 640 digits, all accepted objects of the tag classes",
  "The tests run on one interpreter with one limit and with numerals of a few digits.",
  [f"{x}: __init__, from_tag_uri" for x in S("gid", "usdod")] + [f"{x}: __init__, tag_uri, binary" for x in S("sgtin","sscc","sgln","grai","giai","gsrn","gsrnp","gdti","cpi","sgcn","itip")])
p("C82", "Checking a text takes time linear in its length",
  "No text, however crafted, makes a format check run away: a backtracking regular-expression engine decides whether a text is a pure identity of a given class, an identity, a tag URI or a pattern URI of any class, and whether a serial number or an ADI tag image is acceptable, in a number of steps that is at most a fixed multiple of the length of the text plus one, and whether it is an element string in a number of steps below a fixed bound, and its verdict is the one the other properties are about.",
  "all texts of all lengths; the patterns of all 21 classes and of the generic parsers",
  "A test measures the time for chosen texts; that no text causes catastrophic backtracking is a statement about all texts of all lengths.",
  [f"{R}: SGTIN_URI, SSCC_URI, SGLN_URI, GRAI_URI, GIAI_URI, GSRN_URI, GSRNP_URI, GDTI_URI, CPI_URI, SGCN_URI, GINC_URI, GSIN_URI, ITIP_URI, UPUI_URI, PGLN_URI, GID_URI, USDOD_URI, ADI_URI, BIC_URI, IMOVN_URI, LGTIN_CLASS, EPC_URI, IDPAT_URI, TAG_URI, GS1_ELEMENT_STRING, VERIFY_GS3A3_CHARS", f"{B}: from_tag_uri", f"{C}: verify_gs3a3_component"] + [f"{x}: from_binary" for x in S("adi")])
p("C83", "The texts of each class have a known shortest and longest length",
  "For every class there is an exact range for the number of characters of the EPC URIs its constructor accepts, of the tag URIs its objects write and of the element strings its objects write: no such text is shorter or longer, and both ends are attained (SGTIN: 33 to 92, 39 to 99 and 23 to 42 characters; ADI URIs go up to 209, UPUI URIs up to 115). GIAI is the exception: arbitrarily long URIs are accepted, because what follows a colon is left unread, while its tag URIs have 30 to 54 characters and its element strings 13 to 36.",
  "all texts; all 21 classes, their coding schemes and filter values",
  "A test measures the texts it contains; that no accepted text is longer than the column reserved for it is a statement about all of them.",
  [f"{x}: __init__, tag_uri, gs1_element_string" for x in S("sgtin", "sscc", "sgln", "grai", "giai", "gsrn", "gsrnp", "gdti", "cpi", "sgcn", "itip")] + [f"{x}: __init__, gs1_element_string" for x in S("pgln", "gsin", "ginc", "upui", "lgtin")] + [f"{x}: __init__, tag_uri" for x in S("gid", "usdod", "adi")] + [f"{x}: __init__" for x in S("bic", "imovn")])
p("C84", "A coding scheme of another class is refused",
  "Whatever EPC object is written with a coding scheme that does not belong to its class (say an SSCC with the coding scheme of GSRN), neither tag_uri nor binary returns a text.",
  "all objects of the 14 tag-encodable classes, all coding schemes of the other classes, all filter values",
  "Tests pass each class its own coding schemes; Python does not check the annotations, and the other combinations are 14 x 13 families of calls.",
  [f"{x}: tag_uri, binary, BinaryHeader" for x in S("sgtin", "sscc", "sgln", "grai", "giai", "gsrn", "gsrnp", "gdti", "cpi", "sgcn", "itip", "gid", "usdod", "adi")] + [f"{B}: TagEncodable.hex, TagEncodable.base64", f"{PA}: tag_uri_to_tag_encodable"])
p("C85", "A binary has the size of its coding scheme whatever filter value is passed",
  "Whatever filter value (of any class) is passed to binary, the text it returns has as many bits as with the class's own filter value 0.",
  "all objects of the 13 classes with filter values, their coding schemes, the filter values of all classes (0 to 63)",
  "Tests pass filter values of the own class; the enumerations of USDOD and ADI go up to 15 and 63 and nothing checks which enumeration a value is from.",
  [f"{x}: tag_uri, binary" for x in S("sgtin", "sscc", "sgln", "grai", "giai", "gsrn", "gsrnp", "gdti", "cpi", "sgcn", "itip", "usdod", "adi")] + [f"{C}: str_to_binary"])
p("C86", "Every class implements the methods of its family",
  "Every scheme class implements each method it inherits a declaration of: calling tag_uri, binary, hex, base64, from_binary, from_hex, from_base64, gs1_element_string, from_gs1_element_string or gs1_key never ends in NotImplementedError; a class outside the family of a method raises AttributeError. issubclass tells exactly the families (tags, GS1 elements, GS1 keys), and constructing an object assigns the attributes of each base class once.",
  "all 21 scheme classes, all method names",
  "Tests call the methods of the classes they know; which method runs depends on the method resolution order of multiple inheritance, and a forgotten method is found only when it is called.",
  [f"{B}: EPCScheme, TagEncodable, GS1Element, GS1Keyed"] + S("adi", "bic", "cpi", "gdti", "giai", "gid", "ginc", "grai", "gsin", "gsrn", "gsrnp", "imovn", "itip", "lgtin", "pgln", "sgcn", "sgln", "sgtin", "sscc", "upui", "usdod"))
p("C87", "EPC objects can be put into sets and used as dictionary keys",
  "Objects that compare equal by URI can be used as elements of a set and as keys of a dictionary: hash(x) returns a value for every EPC object.",
  "all objects of the 21 classes",
  "Tests compare objects with == only.",
  [f"{B}: EPCScheme.__eq__"])
p("C88", "Every object of the library has a URI that a scheme class accepts",
  "Whatever class of the library an object was constructed with, its epc_uri is accepted by one of the scheme classes.",
  "all classes of the library including the base classes EPCScheme, TagEncodable, GS1Element and GS1Keyed, all texts",
  "Tests construct objects of the scheme classes; the base classes are public, have constructors and class methods, and their objects compare equal to those of the scheme classes.",
  [f"{B}: EPCScheme.__init__, EPCScheme.__eq__, EPCScheme.from_epc_uri, TagEncodable.from_tag_uri"])
p("C89", "A number can be passed as serial to from_gtin_plus_serial",
  "SGTIN.from_gtin_plus_serial(gtin, k, n) with an integer k as serial returns an object exactly if k has at most 20 characters in decimal (minus sign included) and n is a company prefix length; its serial is the decimal form of k, its GTIN is the given one with the check digit put right, different numbers give different objects, and it has an SGTIN-96 tag URI exactly if 0 <= k < 2**38.",
  "all GTINs of at most 14 digits, all integers as serial, all integer prefix lengths",
  "Tests pass serials as text and a few numbers; the bounds -10**19, 10**20 and 2**38 are not in the code.",
  ["epcpy/epc_schemes/sgtin.py: from_gtin_plus_serial, tag_uri"])
p("C90", "gtin(gtin_type=n) returns n digits or raises",
  "gtin and gs1_key of SGTIN and LGTIN, called with any integer n as kind of GTIN, return a text of n digits or raise ConvertException.",
  "all accepted SGTINs and LGTINs, all integers n",
  "Tests use the four members of the enumeration; they are plain integers and the code computes with them.",
  ["epcpy/epc_schemes/sgtin.py: gtin, gs1_key", "epcpy/epc_schemes/lgtin.py: gtin, gs1_key"])
ALLS=S("adi","bic","cpi","gdti","giai","gid","ginc","grai","gsin","gsrn","gsrnp","imovn","itip","lgtin","pgln","sgcn","sgln","sgtin","sscc","upui","usdod")
TAGS=S("adi","cpi","gdti","giai","gid","grai","gsrn","gsrnp","itip","sgcn","sgln","sgtin","sscc","usdod")
p("C91", "What the readers of the classes do, statement by statement",
  "Executing the statements of the source, X(u), X.from_epc_uri(u), X.from_tag_uri(t), X.from_tag_uri(t, includes_filter=b), X.from_binary(t), X.from_hex(t), X.from_base64(t), X.from_gs1_element_string(t, k) and SGTIN.from_gtin_plus_serial(g, s, k) return the object, or raise the exception, that the claims about these calls describe, and the object carries the URI they describe.",
  "all 21 classes, all texts, all numbers, both values of the flag",
  "Every path through the code for every text; a test exercises a path with one text.",
  [f"{x}: __init__" for x in ALLS]+[f"{x}: from_binary" for x in TAGS]+[f"{B}: from_epc_uri, from_tag_uri, from_hex, from_base64", f"{S('sgtin')[0]}: from_gtin_plus_serial, from_gs1_element_string", f"{C}: decode_partition_table, decode_string"])
p("C92", "What the methods of the objects do, statement by statement",
  "Executing the statements of the source, tag_uri, binary, hex, base64, gs1_key, gs1_element_string, gtin and == of every EPC object return the text, or raise the exception, that the claims about these calls describe; hex and base64 ignore whatever is passed by position; comparing with something that is no EPC object gives False.",
  "all objects of all classes, all coding schemes and filter values, all kinds of GTIN",
  "Every path through the code for every object.",
  [f"{x}: tag_uri, binary" for x in TAGS]+[f"{B}: __eq__, hex, base64", f"{S('sgtin')[0]}: gtin, gs1_key, gs1_element_string", f"{C}: encode_partition_table, encode_string"])
p("C93", "What the functions that parse any representation do, statement by statement",
  "Executing the statements of the source, the twelve functions that take an identity URI, tag URI, binary, hexadecimal or base64 text, element string or any of them (get_gs1_key) return the object or text, or raise the exception, that the claims about these calls describe.",
  "all texts, all prefix lengths or none, all kinds of GTIN or none",
  "The functions choose between classes by tables computed when the module is imported, and between representations by trial; tests sample one text per class.",
  [f"{PA}: epc_pure_identity_to_scheme, epc_pure_identity_to_gs1_element, epc_pure_identity_to_gs1_element_string, epc_pure_identity_to_gs1_keyed, epc_pure_identity_to_gs1_key, epc_pure_identity_to_tag_encodable, gs1_element_string_to_gs1_element, tag_uri_to_tag_encodable, binary_to_tag_encodable, hex_to_tag_encodable, base64_to_tag_encodable, get_gs1_key"])
p("C94", "No call with texts as arguments ends in an internal error",
  "Executing the statements of the source, no constructor, reader, writer or parsing function called with texts (and, where they are expected, numbers, coding schemes of the class, filter values and kinds of GTIN) ever raises NameError, UnboundLocalError, AttributeError, NotImplementedError or RecursionError: each call returns or raises ConvertException, ValueError, KeyError, IndexError, OverflowError or TypeError.",
  "all classes, objects, texts, numbers, coding schemes and filter values",
  "In a dynamic language a misspelt name or a missing attribute only shows on the path that reaches it; the claim covers all paths for all inputs.",
  [f"{PA}: get_gs1_key, epc_pure_identity_to_scheme", f"{B}: from_tag_uri, from_hex, from_base64, hex, base64"]+[f"{x}: __init__, binary, from_binary" for x in TAGS])
p("C95", "Arguments by position, by keyword and left out mean the same",
  "Every order of tag_uri's, binary's, gtin's, gs1_key's and the readers' arguments gives the same outcome by position and by keyword (in either order), whatever values are passed, and leaving out an argument that has a default is the same as passing the default.",
  "all objects, all values whatsoever as arguments",
  "The parameters of tag_uri and binary have different orders in different classes, and for ITIP even differ between the two methods.",
  [f"{x}: tag_uri, binary" for x in TAGS]+[f"{S('sgtin')[0]}: gtin, gs1_key", f"{S('lgtin')[0]}: gtin, gs1_key", f"{B}: from_tag_uri, from_hex, from_base64", f"{PA}: get_gs1_key"])
p("C96", "Which texts the patterns accept",
  "The texts of all patterns are well-formed regular expressions.  Read as such, the pattern of a class's identity URIs fully matches exactly the prefix followed by the fields of the class with dots between them; the pattern for any identity URI exactly those of the 21 classes; the pattern for tag URIs exactly a coding scheme's name, the filter value (GID has none) and the fields; the pattern for id patterns exactly the fields with wildcards in place of the last ones (in an ITIP pattern neither the last two nor all five); the patterns for element strings exactly the application identifiers with digits and characters of the documented numbers.",
  "all texts; all patterns and classes",
  "The patterns are concatenated from 109 constants; a test tries a few texts against each.",
  [f"{R}: EPC_URI, TAG_URI, IDPAT_URI, GS1_ELEMENT_STRING, VERIFY_GS3A3_CHARS, GS3A3_COMPONENT, CPREF_COMPONENT, NUMERIC_COMPONENT"])
p("C97", "Programs that send an EPC on, executed from the source",
  "An object is made of a URI, written down in any of the six notations (URI, element string, tag URI, binary, hexadecimal, base64; any coding scheme and filter value for which the tag URI can be written), the text is read by the general parser of its notation, the result is written down again, and so on, any number of times.  The object that arrives is the object sent, whatever the notations, if and only if the URI meets the conditions of its class.  In every case what arrives is an object that its class makes of its own URI, or a documented exception; and that holds for everything the general parsers return.  All of this is stated about the statements of the source, executed one by one.",
  "all URIs, all 21 classes, all notations, coding schemes and filter values, chains of any length",
  "Chains are unbounded, and a chain that changes an object may need a particular notation at a particular place.",
  [f"{PA}: epc_pure_identity_to_scheme, gs1_element_string_to_gs1_element, tag_uri_to_tag_encodable, binary_to_tag_encodable, hex_to_tag_encodable, base64_to_tag_encodable", f"{B}: epc_uri, hex, base64, from_tag_uri, from_hex, from_base64"] + [f"{x}: tag_uri, binary, from_binary" for x in S("sgtin","sscc","sgln","grai","giai","gsrn","gsrnp","gdti","cpi","sgcn","itip","gid","usdod","adi")])

p("C98", "Members of other enumerations and plain numbers as arguments, executed from the source",
  "Executing the source: with a coding scheme of another class, tag_uri returns the text 'urn:epc:tag:' + value of the coding scheme + filter value + components of the object, which the class itself refuses to read with ConvertException, while binary, hex and base64 raise KeyError. With a filter value of another class, the tag URI is read back as the same object (of a GIAI: if its asset reference has no colon), and the binary is the one for filter value 0 with the filter field replaced by the number, in as many bits as the field has or as the number needs. gtin(gtin_type=n) and gs1_key(gtin_type=n) answer for every integer n: up to 14 the last n digits of the GTIN if the others are zeros, else ConvertException; from 15 to 28 the last n - 14 digits; above that the GTIN. from_gtin_plus_serial with an integer as serial does what it does with the decimal form of the integer.",
  "every class with tags and every object that can be made of a text, every coding scheme of every other class, every filter value of every class, every integer as gtin_type and as serial",
  "tests pass the members and types that the annotations name; the combinations of 14 classes, 21 coding schemes and 64 filter values with all texts, and all integers, cannot be tried",
  [f"{x}: tag_uri, binary, BinaryCodingScheme, BinaryHeader" for x in TAGS] + [f"{B}: hex, base64, from_tag_uri"] + [f"{x}: gtin, gs1_key" for x in S("sgtin", "lgtin")] + [f"{x}: from_gtin_plus_serial" for x in S("sgtin")])

p("C99", "Every way of passing arguments comes to the same, executed from the source",
  "Executing the source, for tag_uri, binary, gs1_key, gs1_element_string, gtin, the readers from_epc_uri, from_tag_uri, from_binary, from_hex, from_base64, from_gs1_element_string and from_gtin_plus_serial, the constructors and the functions of the package without **kwargs: whether arguments are passed by position, by name in any order, or left to the default value, the outcome is that of passing the values of all parameters by position; a call that gives a parameter no value or two, or has an argument too many or a name that is no parameter, raises TypeError. hex and base64 ignore positional arguments; the outcome is that of passing the parameters of binary by name, and TypeError if the names and values do not fit binary.",
  "every class and every object that can be made of a text, all lists of positional arguments and of keyword arguments with different names, of any values at all",
  "tests call each method in one or two ways; the ways to mix positions, names and defaults, and the wrong ones, are unbounded",
  [f"{x}: tag_uri, binary, from_binary" for x in TAGS] + [f"{B}: hex, base64, from_epc_uri, from_tag_uri, from_hex, from_base64"] + [f"{x}: gtin, gs1_key" for x in S("sgtin", "lgtin")] + [f"{PA}: epc_pure_identity_to_scheme, tag_uri_to_tag_encodable, binary_to_tag_encodable, gs1_element_string_to_gs1_element"])
p("C100", "Objects do not change, executed from the source",
  "The only statement outside of constructors that assigns to an attribute is self._tag_uri = ... in CPI.tag_uri. Executing the source, whatever that attribute of a CPI holds, the object has the same epc_uri, compares equal to the same objects, and tag_uri, binary, hex, base64, gs1_element_string, gs1_key, gtin and == return the same value or raise the same exception for the same arguments. So in every program each call has the outcome it has as the first call on its object.",
  "every statement of the source; every object that can be made of a text, every sequence of calls on any number of objects, any arguments passed in any way, whether the calls before returned or raised",
  "histories are unbounded, and a test of one history says nothing about a value cached by another",
  [f"{x}: tag_uri, binary, gs1_element_string" for x in S("cpi")] + [f"{B}: hex, base64, __eq__, __init__"] + [f"{C}: encode_partition_table"])

p("C101", "Families of classes and base classes, executed from the source",
  "Executing the source: issubclass and isinstance tell exactly derivation through the base classes; all scheme classes but BIC, GINC, GSIN, IMOVN, LGTIN, PGLN and UPUI are TagEncodable, all but ADI, BIC, GID, IMOVN and USDOD are GS1Element, and of these all but CPI, ITIP and UPUI are GS1Keyed. A method of a family to which a class does not belong raises AttributeError, on objects and on the class, whatever the arguments. The four base classes make an object of any value; its output methods raise NotImplementedError, its readers of tags and element strings never return; it equals the objects of any class with the same URI. TagEncodable.from_tag_uri makes the object with the URI of the one tag_uri_to_tag_encodable makes, if told whether there is a filter value.",
  "all classes, every object that can be made of a text (of a base class: of any value), all lists of arguments passed by position and by name",
  "tests construct valid objects of scheme classes and call the methods they have; what the others do, with any argument, is unbounded",
  [f"{B}: EPCScheme, TagEncodable, GS1Element, GS1Keyed, __eq__, __init__, from_epc_uri, tag_uri, binary, hex, base64, from_binary, from_hex, from_base64, from_tag_uri, gs1_element_string, from_gs1_element_string, gs1_key", f"{PA}: tag_uri_to_tag_encodable"])

p("C102", "Threads that share objects, executed from the source",
  "In the source the attribute _tag_uri of a CPI is read in one place only, by the return statement of CPI.tag_uri that follows its assignment. Executing the source under every schedule of the accesses of any number of calls to this attribute: every call of another method, and every call of CPI.tag_uri on an object on which no other tag_uri call runs, has the outcome it has alone. A call of CPI.tag_uri returns what it returns alone, or what another call of tag_uri on the same object returns alone, which made its assignment between the assignment and the return of this call; this does happen. A call that raises alone raises the same under every schedule. Every call ends after at most three actions.",
  "any number of shared objects of any class made of any texts, any number of calls with any arguments, every schedule",
  "the number of schedules grows exponentially with the calls, and the harmful ones are hit rarely",
  [f"{x}: tag_uri, binary, gs1_element_string" for x in S("cpi")] + [f"{x}: tag_uri, binary" for x in TAGS if "cpi" not in x] + [f"{B}: hex, base64, __init__"])

p("C103", "Keyword arguments of get_gs1_key and epc_pure_identity_to_gs1_key",
  "Executing the source: get_gs1_key(source, company_prefix_length=None, **kwargs) and epc_pure_identity_to_gs1_key(uri, **kwargs) take their own parameters by position or by name, in any mixture with further keyword arguments, and raise TypeError if a parameter gets no value or two. The further keyword arguments never change how the text is understood: either the call raises the same exception for all of them, or there is one object whose gs1_key, called with the same keyword arguments, gives the outcome; for epc_pure_identity_to_gs1_key it is the object that epc_pure_identity_to_gs1_keyed returns. A keyword argument other than gtin_type is never ignored: the call raises TypeError if it would return a key without it. If the text is a pure identity URI of a class other than SGTIN and LGTIN, gtin_type is refused with TypeError as well.",
  "all texts, all company prefix lengths (or None), all lists of keyword arguments with different names (gtin_type, if present, any integer or member of GTIN_TYPE), all ways of passing the parameters",
  "the combinations of texts, lengths, names, values and ways of passing are unlimited",
  [f"{PA}: get_gs1_key, epc_pure_identity_to_gs1_key, epc_pure_identity_to_gs1_keyed", f"{B}: GS1Keyed.gs1_key"] + [f"{x}: gs1_key" for x in S("sgtin", "lgtin", "sscc", "sgln", "grai", "giai", "gsrn", "gsrnp", "gdti", "sgcn", "ginc", "gsin", "pgln")])

p("C104", "Coding schemes, filter values and kinds of GTIN given by name",
  "Executing the source: X.BinaryCodingScheme and XFilterValue have exactly the members of the GS1 Tag Data Standard. If x.tag_uri returns for a coding scheme and a filter value that are given by their names, the text is urn:epc:tag:<name of the coding scheme>:<number of the filter value>.<the part of the identity URI after the fourth colon, for a GIAI only up to the next colon>; if x.binary returns, its first eight bits are the header of that coding scheme and the next three (USDOD: four, ADI: six) bits are the number of the filter value. gtin and gs1_key of an SGTIN or LGTIN with GTIN_TYPE.GTINn (n = 8, 12, 13, 14) return t exactly if the GTIN-14 is t after 14 - n zeros, and raise ConvertException if there is no such t.",
  "all objects of the 13 tag classes with filter values, every coding scheme and filter value of the class by name; all SGTIN and LGTIN objects and every member of GTIN_TYPE",
  "a wrong constant in an enumeration shows only for the member concerned and the objects are unlimited",
  [f"{x}: BinaryCodingScheme, BinaryHeader, tag_uri, binary" for x in S("sgtin", "sscc", "sgln", "grai", "giai", "gsrn", "gsrnp", "gdti", "sgcn", "cpi", "itip", "usdod", "adi")] + [f"{x}: GTIN_TYPE, gtin, gs1_key" for x in S("sgtin", "lgtin")])

p("C105", "The company prefix length only decides where the URI is divided",
  "If from_gs1_element_string of a class accepts a string s with two company prefix lengths n and m (any integers), the two objects return the same gs1_element_string() and the same gs1_key(); get_gs1_key(s, n) and get_gs1_key(s, m) never return two different keys. The URIs of the two objects are equal exactly if n = m (for lengths that are not negative). For GIAI and GINC this is claimed for strings without a dot only; with a dot, two lengths can give two keys.",
  "all 16 classes with element strings, all strings (GIAI, GINC: without a dot), all pairs of company prefix lengths, all GTIN types",
  "pairs of calls over unlimited strings and integers; a test compares a parsed string with one length only",
  [f"{x}: from_gs1_element_string, gs1_element_string, gs1_key" for x in S("sgtin", "sscc", "sgln", "grai", "giai", "gsrn", "gsrnp", "gdti", "sgcn", "ginc", "gsin", "pgln", "lgtin")] + [f"{x}: from_gs1_element_string, gs1_element_string" for x in S("cpi", "itip", "upui")] + [f"{PA}: get_gs1_key"])

p("C106", "Schemes that identify the same thing give the same key",
  "For a company prefix and an item reference that SGTIN accepts with some serial: LGTIN with any accepted lot returns the same gs1_key (for every GTIN type) and gtin(), and the element strings of UPUI and ITIP with any accepted rest contain exactly this 14-digit key after their application identifier. SGLN (with any extension) and PGLN of the same company prefix and location reference return the same gs1_key, GSRN and GSRNP of the same body as well; the same for get_gs1_key of the URIs. SGTIN accepts a body exactly if LGTIN does, GSRN exactly if GSRNP does, and SGLN with extension 0 exactly if PGLN does without.",
  "all company prefixes, references, serials, lots and extensions (any strings), all GTIN types",
  "the classes compute their keys separately; agreement for all unlimited strings cannot be tested",
  [f"{x}: __init__, gs1_key" for x in S("sgtin", "lgtin", "sgln", "pgln", "gsrn", "gsrnp")] + [f"{x}: __init__, gs1_element_string" for x in S("upui", "itip")] + [f"{PA}: get_gs1_key"])

p("C107", "A mistyped digit of a key is always noticeable",
  "The GS1 keys (the part that ends with the check digit) of two accepted objects, of one class or of two classes with keys of the same length, never differ in exactly one digit; if they differ only in the order of two neighbouring digits, these digits differ by exactly 5. The same holds for the digits of the key in the element strings the library prints. If one digit of the key in a printed element string is replaced and from_gs1_element_string accepts the result with some company prefix length (it does not look at the check digit), then gs1_element_string() of the object returns something other than the text that was read.",
  "all pairs of accepted objects of the 11 classes with such keys (element strings: 12 classes), all texts with one changed digit, all company prefix lengths",
  "all pairs of objects, all positions and all digits, with decimal digits of every script",
  [f"{x}: __init__, gs1_key, gs1_element_string, from_gs1_element_string" for x in S("sgtin", "lgtin", "sscc", "sgln", "pgln", "grai", "gdti", "sgcn", "gsrn", "gsrnp", "gsin")] + [f"{x}: gs1_element_string, from_gs1_element_string" for x in S("upui")] + [f"{C}: calculate_checksum"])

p("C108", "Two URIs have the same key exactly if they consist of the same digits",
  "gs1_key() of two accepted objects of the same class is the same (and so is get_gs1_key of their URIs) exactly if the company prefixes followed by the references are the same string - for SGTIN, LGTIN and SSCC with the first digit of the reference moved to the front - and, for GRAI, GDTI and SGCN, whose keys contain it, the unescaped serial is the same too. If the company prefixes have the same length, the keys are the same exactly if company prefix, reference (for GIAI and GINC unescaped; for GIAI up to a colon) and that serial are the same: no two things of a company share a key.",
  "all 13 classes with a GS1 key, all pairs of accepted URIs",
  "a statement about all pairs of unlimited strings; collisions cannot be excluded by examples",
  [f"{x}: __init__, gs1_key" for x in S("sgtin", "lgtin", "sscc", "gsrn", "gsrnp", "gsin", "pgln", "sgln", "grai", "gdti", "sgcn", "giai", "ginc")] + [f"{PA}: get_gs1_key"])

p("C109", "More of the memory of a tag may be read than its EPC occupies",
  "If binary_to_tag_encodable recognises a text whose first eight bits are not the header of CPI-var or ADI-var, it returns the same object for this text followed by any characters; likewise hex_to_tag_encodable for a hexadecimal text followed by any number of hexadecimal digits. For every coding scheme, those of variable length included: a binary (or hexadecimal) form that the library has written for an object with a tag URI and from which it reads the object back is read as the same object also if anything (hexadecimal digits) follows it.",
  "all texts; all 14 tag classes, objects, coding schemes and filter values with a tag URI; all continuations",
  "the memory behind an EPC can hold anything, and how much of it is read depends on the reader",
  [f"{PA}: binary_to_tag_encodable, hex_to_tag_encodable"] + [f"{x}: binary, from_binary" for x in S("sgtin", "sscc", "sgln", "grai", "giai", "gsrn", "gsrnp", "gdti", "cpi", "sgcn", "itip", "gid", "usdod", "adi")] + [f"{C}: parse_header_and_truncate_binary, hex_to_binary"])

p("C110", "From the GTIN and the serial number of an item to its tag and its label, and back, executed from the source",
  "For a GTIN of at most 14 digits with the right check digit, a serial number of 1 to 20 characters of the GS1 character set 82 which the constructor accepts in escaped form, and a company prefix length from 6 to 12: SGTIN.from_gtin_plus_serial returns an object; its gtin() is the GTIN filled with zeros to 14 digits; its gs1_element_string() is (01), the GTIN, (21) and the unescaped serial number; gs1_element_string_to_gs1_element of this text and the prefix length returns the object again unless the serial number contains exactly two characters between parentheses. With every member of SGTINFilterValue and SGTIN_198, and with SGTIN_96 if the serial number is a number below 2 ** 38 without leading zeros, tag_uri, binary, hex and base64 return texts; the general parser of each notation returns the object, and get_gs1_key of the first three returns the GTIN. Two items that have a tag in common have the same GTIN of 14 digits, the same serial number and the same prefix length, whatever coding schemes and filter values were used.",
  "all GTINs, serial numbers, prefix lengths, filter values and coding schemes; all pairs of items",
  "the chain passes through a dozen functions for unboundedly many items, and that no two items share a tag is a statement about pairs",
  [f"{x}: from_gtin_plus_serial, gtin, gs1_element_string, from_gs1_element_string, tag_uri, binary, from_binary" for x in S("sgtin")] + [f"{PA}: tag_uri_to_tag_encodable, binary_to_tag_encodable, hex_to_tag_encodable, base64_to_tag_encodable, gs1_element_string_to_gs1_element, get_gs1_key"])

p("C111", "What is read from a label survives every chain of conversions, executed from the source",
  "If from_gs1_element_string of a class, or gs1_element_string_to_gs1_element, accepts a text of ASCII characters with any company prefix length, the object is written down in any of its notations (URI, element string, tag URI, binary, hexadecimal, base64; any coding scheme and filter value for which the tag URI can be written), read by the general parser of the notation, written down again, and so on any number of times, then what arrives is the object, equal in every attribute. For texts that begin with (8004) (GIAI) this is claimed if they contain neither a dot nor a colon, for texts that begin with (401) (GINC) if they contain no dot. Each of these conditions is needed: with a colon, a dot or digits of another script some chain loses the object.",
  "all ASCII texts, all company prefix lengths (any integer), all 16 classes with element strings, all chains of any length",
  "texts, prefix lengths and chains are unbounded",
  [f"{PA}: gs1_element_string_to_gs1_element, tag_uri_to_tag_encodable, binary_to_tag_encodable, hex_to_tag_encodable, base64_to_tag_encodable, epc_pure_identity_to_scheme"] + [f"{x}: from_gs1_element_string" for x in S("sgtin", "lgtin", "upui", "sgln", "sscc", "gsrn", "gsrnp", "pgln", "grai", "gdti", "sgcn", "gsin", "itip", "giai", "ginc", "cpi")])

p("C112", "What is read from a tag survives every chain of conversions, executed from the source",
  "Take an object that binary_to_tag_encodable reads from a text of 0 and 1, or hex_to_tag_encodable or base64_to_tag_encodable from any text. It is written down in any of its notations (URI, element string, tag URI, binary, hexadecimal, base64; any coding scheme and filter value for which the tag URI can be written), read by the general parser of the notation, written down again, and so on any number of times. What arrives is always the object, equal in every attribute, if and only if its URI meets these conditions: the serial number of an SGTIN, unescaped, has no two characters between parentheses, the extension of an SGLN no three; the reference of a GIAI has no colon; the part number of an ADI has no six zero bits in a row in its six-bit encoding, also together with the first five bits of the terminator. For texts of 0 and 1 and hexadecimal texts with other headers than those of SGTIN-198, SGLN-195, GIAI-202 and ADI there is no condition. Each of the conditions is needed: a tag is given that is read and that some chain loses.",
  "all bit strings of any length with any header, all texts in hexadecimal and base64, all chains of any length",
  "tags may have any number of bits, and the chains are unbounded",
  [f"{PA}: binary_to_tag_encodable, hex_to_tag_encodable, base64_to_tag_encodable, tag_uri_to_tag_encodable, gs1_element_string_to_gs1_element, epc_pure_identity_to_scheme"] + [f"{x}: from_binary" for x in S("sgtin", "sgln", "sscc", "gsrn", "gsrnp", "grai", "gdti", "sgcn", "itip", "giai", "cpi", "gid", "usdod", "adi")])
with open('/verif/properties.jsonl','w') as f:
    for x in P: f.write(json.dumps(x)+"\n")
print(len(P))
