{
 "C02": {
  "note": "Widths are positive (format width 0 prints at least one digit)."
 },
 "C07": {
  "note": "The empty string is accepted by the encoder but refused by the decoder; round trip stated for non-empty strings."
 },
 "C08": {
  "status": "partial",
  "note": "The claim is false: encode_fixed_width_integer refuses \"99\" (C08_counterexample_99, C08_claim_false). C08_fixed_width_partial proves it for every other two-digit string."
 },
 "C11": {
  "status": "partial",
  "note": "False for GIAI: an asset reference containing ':' is accepted but the giai attribute keeps only the part before the colon (C11_giai_claim_false). Proved for the other 20 schemes, and for GIAI with the exact truncation (C11_giai_partial) and without colon (C11_giai_nocolon_partial)."
 },
 "C12": {
  "note": "General form: digits of any script (as the code accepts); the _ascii theorems specialise to URIs of ASCII characters."
 },
 "C13": {
  "status": "partial",
  "note": "False: serials such as %2Fxyz raise ValueError and %2F0000000 raises OverflowError (C13_claim_false, C13_overflow_witness). Proved for the 12 schemes without a free-form serial; for the other 9: no exceptions but these three, and ConvertException only for strings without percent sign (_partial). C67 gives the exact condition of each exception."
 },
 "C14": {
  "status": "partial",
  "note": "False: the regular expressions accept decimal digits of every script (C14_claim_false). Proved: digits of some script for every string, ASCII digits for every ASCII string."
 },
 "C15": {
  "status": "partial",
  "note": "False: %2Fxyz is refused (C15_claim_false). The _partial theorems give, for all nine schemes, the exact set of canonical serials of admissible length that is accepted (LoneLetterEscapes)."
 },
 "C16": {
  "status": "partial",
  "note": "False for GIAI when the asset reference contains ':' (C16_giai_claim_false): tag_uri drops the rest. Proved for the other 13 schemes, for GIAI without colon (C16_giai_partial), and for GIAI in general up to the recorded URI (C16_giai_components_partial)."
 },
 "C17": {
  "note": "Exact condition and exact result for SGTIN, SGLN, GRAI, GDTI, ITIP, GIAI and CPI, the classes whose tag_uri has a condition. No restriction to ASCII is needed: the serials are ASCII by construction, and the CPI serial is read as a number in any script."
 },
 "C18": {
  "note": "Per class: exact set of accepted tag URIs and the object returned. C18_rejects_others/C18_unique/C18_parser quantify over all classes. GID ignores everything after a further colon."
 },
 "C19": {
  "status": "partial",
  "note": "Proved for every class and digits of every script; false for ITIP with piece/total not of two digits (C19_itip_claim_false), so C19_itip_partial assumes two digits. The filter-field half (C19_filter_*) holds for every object and scheme."
 },
 "C20": {
  "status": "partial",
  "note": "False for alphanumeric schemes with non-canonical serials: tag_uri returns and binary raises ValueError (C20_claim_false), and for ITIP piece/total 99 (C20_itip_99). Proved for all numeric and variable schemes, and for canonical serials (_partial), for digits of every script."
 },
 "C21": {
  "status": "partial",
  "note": "Proved for 11 of 13 schemes for all accepted ASCII URIs. False for GIAI references containing ':' (C21_giai_claim_false) and ITIP piece/total 99 or not of two digits (C21_itip_claim_false, C21_itip_lengths_counterexample); _partial theorems exclude exactly those. For digits of other scripts the object with ASCII digits comes back (C68)."
 },
 "C22": {
  "status": "partial",
  "note": "Proved for SGTIN-198, SGLN-195, GRAI-170, GDTI-174. GIAI-202 without ':' and ITIP-212 with two-digit piece/total below 99 as _partial; C22_giai_claim_false shows the colon case is false."
 },
 "C23": {
  "status": "partial",
  "note": "CPI-var proved in full (any tail). ADI-var is false (C23_adi_claim_false): from_binary finds the part-number terminator at any bit offset. C23_adi_partial and C23_adi_fails together give the exact condition."
 },
 "C24": {
  "status": "partial",
  "note": "Proved for all schemes, ADI-var in full; GIAI without ':' (false otherwise: C24_giai_claim_false) and ITIP with two-digit piece/total below 99 (false otherwise: C24_itip_lengths_counterexample) as _partial."
 },
 "C25": {
  "status": "proved",
  "note": "C25_<class>: hex is the word-aligned upper-case form of every binary made of bits and from_hex equals from_binary on the padded binary (no other hypothesis). C25_<scheme>: round trips under the hypotheses of C21-C23."
 },
 "C26": {
  "status": "proved",
  "note": "C26_<class>: from_base64 of the base64 text, with any number of pad characters dropped, equals from_binary of the padded binary. C26_<scheme>: round trips under the hypotheses of C21-C23."
 },
 "C27": {
  "status": "proved",
  "note": "One theorem per fixed-size coding; no condition on the characters of the string."
 },
 "C28": {
  "status": "proved",
  "note": "One theorem per fixed-size coding."
 },
 "C29": {
  "status": "partial",
  "note": "True for binary_to_tag_encodable (C29_parser_partial). False for the class methods, which raise KeyError: C29_<class>_key states what they do, C29_claim_false refutes the claim."
 },
 "C30": {
  "status": "partial",
  "note": "Holds for every bit string for SGTIN, SSCC, GIAI, GSRN, GSRNP, CPI and GID. For SGLN, GRAI, GDTI and SGCN the decoder ignores the reference field when the partition value is 0 (C30_claim_false); the _partial theorems ask that this field is zero in that case."
 },
 "C31": {
  "status": "partial",
  "note": "Partition value 7 and too large company prefixes: all 18 codings with a partition table, no condition on the length except for CPI-var. Too large references: all padded codings; for SGLN, GRAI, GDTI and SGCN except when the partition value is 0, where the field is ignored (C31_claim_false)."
 },
 "C32": {
  "status": "partial",
  "note": "False as stated for SGTIN, LGTIN (serial or lot with a parenthesised group of two characters), SGLN (group of three), ITIP (piece or total not of two digits) and GIAI (colon in the asset reference): C32_*_claim_false. Proved for every accepted object with canonical components outside these cases; for SGTIN, LGTIN and SGLN also that exactly these cases raise ValueError."
 },
 "C36": {
  "status": "partial",
  "note": "False as stated: the check digit is never looked at (C36_*_claim_false with a wrong check digit); GIAI and GINC move the prefix boundary at a dot. Proved: for every ASCII string and every integer prefix length the object prints the parsed string with the check digit put right, and exactly the parsed string if the check digit was right; CPI exact."
 },
 "C46": {
  "status": "partial",
  "note": "False for UPUI with empty item reference (IndexError, C46_upui_index) and SGCN with non-ASCII digits. Proved for all other classes in full and for these two under the missing hypothesis."
 },
 "C41": {
  "status": "partial",
  "note": "Proved for SGTIN and SGLN, and that two or more wildcards are refused (every scheme). The GRAI/GDTI part is false (C41_grai_claim_false, C41_gdti_claim_false): their key contains the serial, so the pattern's key ends in '*'. Proved instead: the thirteen digits are those of every member, followed by '*'."
 },
 "C49": {
  "status": "partial",
  "note": "Proved for SGTIN, SGLN, GRAI, GDTI and GIAI. False for ITIP (C49_itip_claim_false: one-digit piece and total leave room for an item reference that overflows its field); proved for ITIP with two-digit piece and total."
 },
 "C51": {
  "status": "partial",
  "note": "False for all seven coding schemes (C51_x_claim_false): binary() does not look at the serial; leading zeros are lost (C51_x_alias). Proved for SGTIN, SGLN, GRAI, GDTI: a serial with a character other than digits, '_', '+', '-' raises ValueError."
 },
 "C57": {
  "status": "partial",
  "note": "False for GIAI asset references containing ':' (C57_giai_claim_false): the parser cuts them at the colon. Proved completely for the other 13 classes and for GIAI without colon (C57_giai); with colon the coding scheme, filter value, company prefix and asset reference are still determined (C57_giai_partial)."
 },
 "C38": {
  "note": "A string with fewer than three colons raises IndexError (C38_no_name)."
 },
 "C60": {
  "note": "The model has no limit on the length of decimal numerals. With the limit of 4300 digits that recent CPython versions set by default, the constructors of GID and USDOD raise ValueError instead of ConvertException for longer numerals (see C81)."
 },
 "C68": {
  "status": "proved",
  "note": "C68_<scheme>: round trips; C68_<scheme>_inj: equality of encodings as an equivalence."
 },
 "C69": {
  "status": "proved",
  "note": "C69_<scheme>: the result or the exception for every accepted object; ADI-var always returns and is C56_adi_var. C69_minus_sign: a witness of a result that is no bit string."
 },
 "C72": {
  "status": "proved",
  "note": "C72_<class>_from_hex, _from_base64, _write for the 14 classes; C72_pad for pad characters in the middle of a base64 text."
 },
 "C74": {
  "status": "partial",
  "note": "False for CPI.tag_uri, which stores its result in the object and returns what the object then holds (C74_claim_false). Proved for all other methods (C74_other_methods), for CPI.tag_uri without competitors asking with other arguments (C74_unshared), in general up to the answer of a competitor (C74_tag_uri_partial), and termination (C74_finishes)."
 },
 "C75": {
  "status": "partial",
  "note": "False for every class (C75_*_claim_false): the fields are read by int(text, 2), which also takes signs, blanks, underscores, the prefix 0b and digits of other scripts. Proved instead: a numeric field is seen only through its number, so from_binary answers as for the text in which each non-negative number is written in bits of the same width (C75_*_partial, all 21 encodings), and that text is a bit string when every field is such a number (C75_bits_partial)."
 },
 "C76": {
  "status": "partial",
  "note": "False for every class (C76_*_claim_false): hex and base64 accept positional arguments and drop them. Eleven classes then raise TypeError for want of arguments; GSRN and GSRNP, whose parameters all have default values, answer for filter value 0 whatever was passed (C76_gsrn_silent, C76_gsrnp_silent); GID answers even for two arguments, which binary refuses. Proved instead: whatever the positional arguments, the answer is that of the keyword arguments alone (C76_*_partial)."
 },
 "C77": {
  "status": "partial",
  "note": "Proved for 13 of the 14 classes (C77_*). False for ITIP (C77_itip_claim_false): tag_uri takes the coding scheme first and binary the filter value, so a positional call right for one raises KeyError in the other. For ITIP: each method in its own order, and the two agree when the arguments are passed by name (C77_itip_partial)."
 },
 "C79": {
  "status": "partial",
  "note": "False for every one of the 13 classes (C79_*_claim_false): TAG_URI demands a filter value whatever the flag, so such a tag URI raises ConvertException (unless the serial has so many dots that the company prefix passes for a filter value). Proved instead: if an object is returned, it is the one the text names (C79_*_partial)."
 },
 "C84": {
  "status": "partial",
  "note": "False for every class (C84_*_claim_false): tag_uri does not look at the class of the coding scheme and returns 'urn:epc:tag:' + its value + the components of the object. Proved instead: binary, hex and base64 always raise KeyError; tag_uri returns exactly that text; the object's own from_tag_uri refuses it with ConvertException; and if tag_uri_to_tag_encodable accepts it, the object it returns is of the class of the coding scheme (an SSCC comes back as a GSRN)."
 },
 "C85": {
  "status": "partial",
  "note": "False for every class but ADI (C85_*_claim_false). Proved instead: values that fit the filter field behave as the class's own; for the others binary returns the bits with the filter field widened to the w bits of the number, so that everything after it is shifted and the text is w - 3 (USDOD: w - 4) bits too long; tag_uri carries the number and from_tag_uri returns the same object (of a GIAI without colon in its asset reference)."
 },
 "C87": {
  "status": "partial",
  "note": "False (C87_claim_false): the base class defines __eq__ without __hash__, so hash(x) raises TypeError for every object of every class. Proved instead (C87_partial): that, and that membership in a list is decided by the URI."
 },
 "C88": {
  "status": "partial",
  "note": "False (C88_claim_false): the base classes check nothing. Proved instead: exactly the scheme classes have the property (C88_partial); equality across all classes is equality of URIs (C88_equality), so that an unvalidated object equals the validated one (C88_equals_valid); TagEncodable.from_tag_uri agrees with tag_uri_to_tag_encodable wherever the latter accepts, provided that it is told that GID has no filter value (C88_from_tag_uri)."
 },
 "C90": {
  "status": "partial",
  "note": "False for n > 14 (C90_*_claim_false): gtin_type=15 returns the last digit. Proved instead, for every integer n: up to 14 the last n digits if all others are zero, else ConvertException; from 15 to 28 the last n - 14 digits; above all 14."
 }
}