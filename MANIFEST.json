{
 "claims": [
  {
   "property": "C01",
   "status": "proved",
   "theorems": [
    "Epc.C01_unescape_escape",
    "Epc.C01_escape_unescape_iff",
    "Epc.C01_escape_injective",
    "Epc.C01_escape_clean"
   ],
   "note": ""
  },
  {
   "property": "C02",
   "status": "proved",
   "theorems": [
    "Epc.C02_int_roundtrip",
    "Epc.C02_int_bits",
    "Epc.C02_int_length",
    "Epc.C02_int_overflow",
    "Epc.C02_bits_roundtrip",
    "Epc.C02_str_to_binary",
    "Epc.C02_int_injective"
   ],
   "note": "Widths are positive (format width 0 prints at least one digit)."
  },
  {
   "property": "C03",
   "status": "proved",
   "theorems": [
    "Epc.C03_binary_hex_binary",
    "Epc.C03_hex_base64_hex",
    "Epc.C03_hex_binary_length",
    "Epc.C03_hex_case",
    "Epc.C03_base64_padding"
   ],
   "note": ""
  },
  {
   "property": "C04",
   "status": "proved",
   "theorems": [
    "Epc.C04_seven_bit_roundtrip",
    "Epc.C04_seven_bit_injective"
   ],
   "note": ""
  },
  {
   "property": "C05",
   "status": "proved",
   "theorems": [
    "Epc.C05_six_bit_roundtrip",
    "Epc.C05_six_bit_too_long"
   ],
   "note": ""
  },
  {
   "property": "C06",
   "status": "proved",
   "theorems": [
    "Epc.C06_table_shape",
    "Epc.C06_partition_roundtrip",
    "Epc.C06_partition_roundtrip_lengths",
    "Epc.C06_unpadded_roundtrip",
    "Epc.C06_string_roundtrip",
    "Epc.C06_six_bit_roundtrip",
    "Epc.C06_other_shapes"
   ],
   "note": ""
  },
  {
   "property": "C07",
   "status": "proved",
   "theorems": [
    "Epc.C07_numeric_string_roundtrip",
    "Epc.C07_numeric_string_accepts",
    "Epc.C07_numeric_string_12",
    "Epc.C07_numeric_string_rejects"
   ],
   "note": "The empty string is accepted by the encoder but refused by the decoder; round trip stated for non-empty strings."
  },
  {
   "property": "C08",
   "status": "partial",
   "theorems": [
    "Epc.C08_counterexample_99",
    "Epc.C08_claim_false",
    "Epc.C08_fixed_width_partial",
    "Epc.C08_decode_range"
   ],
   "note": "The claim is false: encode_fixed_width_integer refuses \"99\" (C08_counterexample_99, C08_claim_false). C08_fixed_width_partial proves it for every other two-digit string."
  },
  {
   "property": "C09",
   "status": "proved",
   "theorems": [
    "Epc.C09_check_digit",
    "Epc.C09_check_digit_string",
    "Epc.C09_detects_single_change",
    "Epc.C09_detects_adjacent_swap",
    "Epc.C09_rejects_non_digit"
   ],
   "note": ""
  },
  {
   "property": "C10",
   "status": "proved",
   "theorems": [
    "Epc.C10_gsin_check_digit",
    "Epc.C10_gsin_agrees"
   ],
   "note": ""
  },
  {
   "property": "C11",
   "status": "partial",
   "theorems": [
    "Epc.C11_sgtin",
    "Epc.C11_sscc",
    "Epc.C11_sgln",
    "Epc.C11_grai",
    "Epc.C11_gdti",
    "Epc.C11_gsrn",
    "Epc.C11_gsrnp",
    "Epc.C11_cpi",
    "Epc.C11_sgcn",
    "Epc.C11_itip",
    "Epc.C11_gid",
    "Epc.C11_usdod",
    "Epc.C11_adi",
    "Epc.C11_gsin",
    "Epc.C11_pgln",
    "Epc.C11_bic",
    "Epc.C11_imovn",
    "Epc.C11_upui",
    "Epc.C11_lgtin",
    "Epc.C11_ginc",
    "Epc.C11_giai_partial",
    "Epc.C11_giai_nocolon_partial",
    "Epc.C11_giai_claim_false"
   ],
   "note": "False for GIAI: an asset reference containing ':' is accepted but the giai attribute keeps only the part before the colon (C11_giai_claim_false). Proved for the other 20 schemes, and for GIAI with the exact truncation (C11_giai_partial) and without colon (C11_giai_nocolon_partial)."
  },
  {
   "property": "C12",
   "status": "proved",
   "theorems": [
    "Epc.C12_sscc",
    "Epc.C12_sscc_ascii",
    "Epc.C12_gsrn",
    "Epc.C12_gsrn_ascii",
    "Epc.C12_gsrnp",
    "Epc.C12_gsrnp_ascii",
    "Epc.C12_gsin",
    "Epc.C12_gsin_ascii",
    "Epc.C12_pgln",
    "Epc.C12_pgln_ascii",
    "Epc.C12_sgcn",
    "Epc.C12_sgcn_ascii",
    "Epc.C12_cpi",
    "Epc.C12_cpi_ascii",
    "Epc.C12_gid",
    "Epc.C12_gid_ascii",
    "Epc.C12_usdod",
    "Epc.C12_usdod_ascii",
    "Epc.C12_adi",
    "Epc.C12_bic",
    "Epc.C12_imovn"
   ],
   "note": "General form: digits of any script (as the code accepts); the _ascii theorems specialise to URIs of ASCII characters."
  },
  {
   "property": "C13",
   "status": "partial",
   "theorems": [
    "Epc.C13_sscc",
    "Epc.C13_gsrn",
    "Epc.C13_gsrnp",
    "Epc.C13_gsin",
    "Epc.C13_pgln",
    "Epc.C13_sgcn",
    "Epc.C13_cpi",
    "Epc.C13_gid",
    "Epc.C13_usdod",
    "Epc.C13_adi",
    "Epc.C13_bic",
    "Epc.C13_imovn",
    "Epc.C13_claim_false",
    "Epc.C13_overflow_witness",
    "Epc.C13_sgtin_exceptions_partial",
    "Epc.C13_sgtin_partial",
    "Epc.C13_sgln_exceptions_partial",
    "Epc.C13_sgln_partial",
    "Epc.C13_grai_exceptions_partial",
    "Epc.C13_grai_partial",
    "Epc.C13_gdti_exceptions_partial",
    "Epc.C13_gdti_partial",
    "Epc.C13_giai_exceptions_partial",
    "Epc.C13_giai_partial",
    "Epc.C13_ginc_exceptions_partial",
    "Epc.C13_ginc_partial",
    "Epc.C13_upui_exceptions_partial",
    "Epc.C13_upui_partial",
    "Epc.C13_lgtin_exceptions_partial",
    "Epc.C13_lgtin_partial",
    "Epc.C13_itip_exceptions_partial",
    "Epc.C13_itip_partial"
   ],
   "note": "False: serials such as %2Fxyz raise ValueError and %2F0000000 raises OverflowError (C13_claim_false, C13_overflow_witness). Proved for the 12 schemes without a free-form serial; for the other 9: no exceptions but these three, and ConvertException only for strings without percent sign (_partial). C67 gives the exact condition of each exception."
  },
  {
   "property": "C14",
   "status": "partial",
   "theorems": [
    "Epc.C14_claim_false",
    "Epc.C14_sgtin_partial",
    "Epc.C14_sgtin_ascii_partial",
    "Epc.C14_sscc_partial",
    "Epc.C14_sscc_ascii_partial",
    "Epc.C14_sgln_partial",
    "Epc.C14_sgln_ascii_partial",
    "Epc.C14_grai_partial",
    "Epc.C14_grai_ascii_partial",
    "Epc.C14_gdti_partial",
    "Epc.C14_gdti_ascii_partial",
    "Epc.C14_giai_partial",
    "Epc.C14_giai_ascii_partial",
    "Epc.C14_gsrn_partial",
    "Epc.C14_gsrn_ascii_partial",
    "Epc.C14_gsrnp_partial",
    "Epc.C14_gsrnp_ascii_partial",
    "Epc.C14_gsin_partial",
    "Epc.C14_gsin_ascii_partial",
    "Epc.C14_pgln_partial",
    "Epc.C14_pgln_ascii_partial",
    "Epc.C14_sgcn_partial",
    "Epc.C14_sgcn_ascii_partial",
    "Epc.C14_cpi_partial",
    "Epc.C14_cpi_ascii_partial",
    "Epc.C14_upui_partial",
    "Epc.C14_upui_ascii_partial",
    "Epc.C14_lgtin_partial",
    "Epc.C14_lgtin_ascii_partial",
    "Epc.C14_itip_partial",
    "Epc.C14_itip_ascii_partial",
    "Epc.C14_gid_partial",
    "Epc.C14_gid_ascii_partial",
    "Epc.C14_usdod_partial",
    "Epc.C14_usdod_ascii_partial",
    "Epc.C14_bic",
    "Epc.C14_imovn"
   ],
   "note": "False: the regular expressions accept decimal digits of every script (C14_claim_false). Proved: digits of some script for every string, ASCII digits for every ASCII string."
  },
  {
   "property": "C15",
   "status": "partial",
   "theorems": [
    "Epc.C15_claim_false",
    "Epc.C15_condition_plain",
    "Epc.C15_sgtin_partial",
    "Epc.C15_lgtin_partial",
    "Epc.C15_sgln_partial",
    "Epc.C15_grai_partial",
    "Epc.C15_gdti_partial",
    "Epc.C15_upui_partial",
    "Epc.C15_itip_partial",
    "Epc.C15_ginc_partial",
    "Epc.C15_giai_partial"
   ],
   "note": "False: %2Fxyz is refused (C15_claim_false). The _partial theorems give, for all nine schemes, the exact set of canonical serials of admissible length that is accepted (LoneLetterEscapes)."
  },
  {
   "property": "C16",
   "status": "partial",
   "theorems": [
    "Epc.C16_sgtin",
    "Epc.C16_sscc",
    "Epc.C16_sgln",
    "Epc.C16_grai",
    "Epc.C16_gsrn",
    "Epc.C16_gsrnp",
    "Epc.C16_gdti",
    "Epc.C16_cpi",
    "Epc.C16_sgcn",
    "Epc.C16_itip",
    "Epc.C16_usdod",
    "Epc.C16_adi",
    "Epc.C16_gid",
    "Epc.C16_giai_claim_false",
    "Epc.C16_giai_partial",
    "Epc.C16_giai_components_partial"
   ],
   "note": "False for GIAI when the asset reference contains ':' (C16_giai_claim_false): tag_uri drops the rest. Proved for the other 13 schemes, for GIAI without colon (C16_giai_partial), and for GIAI in general up to the recorded URI (C16_giai_components_partial)."
  },
  {
   "property": "C17",
   "status": "proved",
   "theorems": [
    "Epc.C17_sgtin",
    "Epc.C17_sgln",
    "Epc.C17_grai",
    "Epc.C17_gdti",
    "Epc.C17_itip",
    "Epc.C17_giai",
    "Epc.C17_cpi"
   ],
   "note": "Exact condition and exact result for SGTIN, SGLN, GRAI, GDTI, ITIP, GIAI and CPI, the classes whose tag_uri has a condition. No restriction to ASCII is needed: the serials are ASCII by construction, and the CPI serial is read as a number in any script."
  },
  {
   "property": "C18",
   "status": "proved",
   "theorems": [
    "Epc.C18_sgtin",
    "Epc.C18_sscc",
    "Epc.C18_sgln",
    "Epc.C18_grai",
    "Epc.C18_giai",
    "Epc.C18_gsrn",
    "Epc.C18_gsrnp",
    "Epc.C18_gdti",
    "Epc.C18_cpi",
    "Epc.C18_sgcn",
    "Epc.C18_itip",
    "Epc.C18_usdod",
    "Epc.C18_adi",
    "Epc.C18_gid",
    "Epc.C18_rejects_others",
    "Epc.C18_unique",
    "Epc.C18_parser_iff",
    "Epc.C18_parser"
   ],
   "note": "Per class: exact set of accepted tag URIs and the object returned. C18_rejects_others/C18_unique/C18_parser quantify over all classes. GID ignores everything after a further colon."
  },
  {
   "property": "C19",
   "status": "partial",
   "theorems": [
    "Epc.C19_filter_sgtin",
    "Epc.C19_sgtin",
    "Epc.C19_filter_sscc",
    "Epc.C19_sscc",
    "Epc.C19_filter_sgln",
    "Epc.C19_sgln",
    "Epc.C19_filter_grai",
    "Epc.C19_grai",
    "Epc.C19_filter_giai",
    "Epc.C19_giai",
    "Epc.C19_filter_gsrn",
    "Epc.C19_gsrn",
    "Epc.C19_filter_gsrnp",
    "Epc.C19_gsrnp",
    "Epc.C19_filter_gdti",
    "Epc.C19_gdti",
    "Epc.C19_filter_cpi",
    "Epc.C19_cpi",
    "Epc.C19_filter_sgcn",
    "Epc.C19_sgcn",
    "Epc.C19_filter_itip",
    "Epc.C19_itip_partial",
    "Epc.C19_gid",
    "Epc.C19_filter_usdod",
    "Epc.C19_usdod",
    "Epc.C19_filter_adi",
    "Epc.C19_adi",
    "Epc.C19_itip_claim_false"
   ],
   "note": "Proved for every class and digits of every script; false for ITIP with piece/total not of two digits (C19_itip_claim_false), so C19_itip_partial assumes two digits. The filter-field half (C19_filter_*) holds for every object and scheme."
  },
  {
   "property": "C20",
   "status": "partial",
   "theorems": [
    "Epc.C20_sgtin96",
    "Epc.C20_sgtin198_partial",
    "Epc.C20_sscc96",
    "Epc.C20_sgln96",
    "Epc.C20_sgln195_partial",
    "Epc.C20_grai96",
    "Epc.C20_grai170_partial",
    "Epc.C20_giai96",
    "Epc.C20_giai202_partial",
    "Epc.C20_gsrn96",
    "Epc.C20_gsrnp96",
    "Epc.C20_gdti96",
    "Epc.C20_gdti174_partial",
    "Epc.C20_cpi96",
    "Epc.C20_cpi_var",
    "Epc.C20_sgcn96",
    "Epc.C20_itip110_partial",
    "Epc.C20_itip212_partial",
    "Epc.C20_gid96",
    "Epc.C20_usdod96",
    "Epc.C20_adi_var",
    "Epc.C20_claim_false",
    "Epc.C20_itip_99"
   ],
   "note": "False for alphanumeric schemes with non-canonical serials: tag_uri returns and binary raises ValueError (C20_claim_false), and for ITIP piece/total 99 (C20_itip_99). Proved for all numeric and variable schemes, and for canonical serials (_partial), for digits of every script."
  },
  {
   "property": "C21",
   "status": "partial",
   "theorems": [
    "Epc.C21_sgtin96",
    "Epc.C21_sscc96",
    "Epc.C21_sgln96",
    "Epc.C21_grai96",
    "Epc.C21_giai96_partial",
    "Epc.C21_gsrn96",
    "Epc.C21_gsrnp96",
    "Epc.C21_gdti96",
    "Epc.C21_cpi96",
    "Epc.C21_sgcn96",
    "Epc.C21_itip110_partial",
    "Epc.C21_gid96",
    "Epc.C21_usdod96",
    "Epc.C21_giai_claim_false",
    "Epc.C21_itip_claim_false",
    "Epc.C21_itip_lengths_counterexample"
   ],
   "note": "Proved for 11 of 13 schemes for all accepted ASCII URIs. False for GIAI references containing ':' (C21_giai_claim_false) and ITIP piece/total 99 or not of two digits (C21_itip_claim_false, C21_itip_lengths_counterexample); _partial theorems exclude exactly those. For digits of other scripts the object with ASCII digits comes back (C68)."
  },
  {
   "property": "C22",
   "status": "partial",
   "theorems": [
    "Epc.C22_sgtin198",
    "Epc.C22_sgln195",
    "Epc.C22_grai170",
    "Epc.C22_giai202_partial",
    "Epc.C22_gdti174",
    "Epc.C22_itip212_partial",
    "Epc.C22_giai_claim_false",
    "Epc.C22_canonical_counterexample"
   ],
   "note": "Proved for SGTIN-198, SGLN-195, GRAI-170, GDTI-174. GIAI-202 without ':' and ITIP-212 with two-digit piece/total below 99 as _partial; C22_giai_claim_false shows the colon case is false."
  },
  {
   "property": "C23",
   "status": "partial",
   "theorems": [
    "Epc.C23_cpi",
    "Epc.C23_cpi_any",
    "Epc.C23_adi_partial",
    "Epc.C23_adi_fails",
    "Epc.C23_adi_part",
    "Epc.C23_adi_claim_false"
   ],
   "note": "CPI-var proved in full (any tail). ADI-var is false (C23_adi_claim_false): from_binary finds the part-number terminator at any bit offset. C23_adi_partial and C23_adi_fails together give the exact condition."
  },
  {
   "property": "C24",
   "status": "partial",
   "theorems": [
    "Epc.C24_sgtin96",
    "Epc.C24_sgtin198",
    "Epc.C24_sscc96",
    "Epc.C24_sgln96",
    "Epc.C24_sgln195",
    "Epc.C24_grai96",
    "Epc.C24_grai170",
    "Epc.C24_giai96_partial",
    "Epc.C24_giai202_partial",
    "Epc.C24_gsrn96",
    "Epc.C24_gsrnp96",
    "Epc.C24_gdti96",
    "Epc.C24_gdti174",
    "Epc.C24_cpi96",
    "Epc.C24_cpi_var",
    "Epc.C24_sgcn96",
    "Epc.C24_itip110_partial",
    "Epc.C24_itip212_partial",
    "Epc.C24_gid96",
    "Epc.C24_usdod96",
    "Epc.C24_adi_var",
    "Epc.C24_giai_claim_false",
    "Epc.C24_itip_lengths_counterexample"
   ],
   "note": "Proved for all schemes, ADI-var in full; GIAI without ':' (false otherwise: C24_giai_claim_false) and ITIP with two-digit piece/total below 99 (false otherwise: C24_itip_lengths_counterexample) as _partial."
  },
  {
   "property": "C25",
   "status": "proved",
   "theorems": [
    "Epc.C25_sgtin",
    "Epc.C25_sgtin96",
    "Epc.C25_sgtin198",
    "Epc.C25_sscc",
    "Epc.C25_sscc96",
    "Epc.C25_sgln",
    "Epc.C25_sgln96",
    "Epc.C25_sgln195",
    "Epc.C25_grai",
    "Epc.C25_grai96",
    "Epc.C25_grai170",
    "Epc.C25_giai",
    "Epc.C25_giai96_partial",
    "Epc.C25_giai202_partial",
    "Epc.C25_gsrn",
    "Epc.C25_gsrn96",
    "Epc.C25_gsrnp",
    "Epc.C25_gsrnp96",
    "Epc.C25_gdti",
    "Epc.C25_gdti96",
    "Epc.C25_gdti174",
    "Epc.C25_cpi",
    "Epc.C25_cpi96",
    "Epc.C25_cpi_var",
    "Epc.C25_sgcn",
    "Epc.C25_sgcn96",
    "Epc.C25_itip",
    "Epc.C25_itip110_partial",
    "Epc.C25_itip212_partial",
    "Epc.C25_gid",
    "Epc.C25_gid96",
    "Epc.C25_usdod",
    "Epc.C25_usdod96",
    "Epc.C25_adi",
    "Epc.C25_adi_var_partial"
   ],
   "note": "C25_<class>: hex is the word-aligned upper-case form of every binary made of bits and from_hex equals from_binary on the padded binary (no other hypothesis). C25_<scheme>: round trips under the hypotheses of C21-C23."
  },
  {
   "property": "C26",
   "status": "proved",
   "theorems": [
    "Epc.C26_sgtin",
    "Epc.C26_sgtin96",
    "Epc.C26_sgtin198",
    "Epc.C26_sscc",
    "Epc.C26_sscc96",
    "Epc.C26_sgln",
    "Epc.C26_sgln96",
    "Epc.C26_sgln195",
    "Epc.C26_grai",
    "Epc.C26_grai96",
    "Epc.C26_grai170",
    "Epc.C26_giai",
    "Epc.C26_giai96_partial",
    "Epc.C26_giai202_partial",
    "Epc.C26_gsrn",
    "Epc.C26_gsrn96",
    "Epc.C26_gsrnp",
    "Epc.C26_gsrnp96",
    "Epc.C26_gdti",
    "Epc.C26_gdti96",
    "Epc.C26_gdti174",
    "Epc.C26_cpi",
    "Epc.C26_cpi96",
    "Epc.C26_cpi_var",
    "Epc.C26_sgcn",
    "Epc.C26_sgcn96",
    "Epc.C26_itip",
    "Epc.C26_itip110_partial",
    "Epc.C26_itip212_partial",
    "Epc.C26_gid",
    "Epc.C26_gid96",
    "Epc.C26_usdod",
    "Epc.C26_usdod96",
    "Epc.C26_adi",
    "Epc.C26_adi_var_partial"
   ],
   "note": "C26_<class>: from_base64 of the base64 text, with any number of pad characters dropped, equals from_binary of the padded binary. C26_<scheme>: round trips under the hypotheses of C21-C23."
  },
  {
   "property": "C27",
   "status": "proved",
   "theorems": [
    "Epc.C27_sgtin96",
    "Epc.C27_sgtin198",
    "Epc.C27_sscc96",
    "Epc.C27_sgln96",
    "Epc.C27_sgln195",
    "Epc.C27_grai96",
    "Epc.C27_grai170",
    "Epc.C27_giai96",
    "Epc.C27_giai202",
    "Epc.C27_gsrn96",
    "Epc.C27_gsrnp96",
    "Epc.C27_gdti96",
    "Epc.C27_gdti174",
    "Epc.C27_cpi96",
    "Epc.C27_sgcn96",
    "Epc.C27_itip110",
    "Epc.C27_itip212",
    "Epc.C27_gid96",
    "Epc.C27_usdod96"
   ],
   "note": "One theorem per fixed-size coding; no condition on the characters of the string."
  },
  {
   "property": "C28",
   "status": "proved",
   "theorems": [
    "Epc.C28_sgtin96",
    "Epc.C28_sgtin198",
    "Epc.C28_sscc96",
    "Epc.C28_sgln96",
    "Epc.C28_sgln195",
    "Epc.C28_grai96",
    "Epc.C28_grai170",
    "Epc.C28_giai96",
    "Epc.C28_giai202",
    "Epc.C28_gsrn96",
    "Epc.C28_gsrnp96",
    "Epc.C28_gdti96",
    "Epc.C28_gdti174",
    "Epc.C28_cpi96",
    "Epc.C28_sgcn96",
    "Epc.C28_itip110",
    "Epc.C28_itip212",
    "Epc.C28_gid96",
    "Epc.C28_usdod96"
   ],
   "note": "One theorem per fixed-size coding."
  },
  {
   "property": "C29",
   "status": "partial",
   "theorems": [
    "Epc.C29_parser_partial",
    "Epc.C29_claim_false",
    "Epc.C29_sgtin_key",
    "Epc.C29_sscc_key",
    "Epc.C29_sgln_key",
    "Epc.C29_grai_key",
    "Epc.C29_giai_key",
    "Epc.C29_gsrn_key",
    "Epc.C29_gsrnp_key",
    "Epc.C29_gdti_key",
    "Epc.C29_cpi_key",
    "Epc.C29_sgcn_key",
    "Epc.C29_itip_key",
    "Epc.C29_gid_key",
    "Epc.C29_usdod_key",
    "Epc.C29_adi_key"
   ],
   "note": "True for binary_to_tag_encodable (C29_parser_partial). False for the class methods, which raise KeyError: C29_<class>_key states what they do, C29_claim_false refutes the claim."
  },
  {
   "property": "C30",
   "status": "partial",
   "theorems": [
    "Epc.C30_sgtin96",
    "Epc.C30_sscc96",
    "Epc.C30_sgln96_partial",
    "Epc.C30_grai96_partial",
    "Epc.C30_giai96",
    "Epc.C30_gsrn96",
    "Epc.C30_gsrnp96",
    "Epc.C30_gdti96_partial",
    "Epc.C30_cpi96",
    "Epc.C30_sgcn96_partial",
    "Epc.C30_gid96",
    "Epc.C30_claim_false"
   ],
   "note": "Holds for every bit string for SGTIN, SSCC, GIAI, GSRN, GSRNP, CPI and GID. For SGLN, GRAI, GDTI and SGCN the decoder ignores the reference field when the partition value is 0 (C30_claim_false); the _partial theorems ask that this field is zero in that case."
  },
  {
   "property": "C31",
   "status": "partial",
   "theorems": [
    "Epc.C31_sgtin96",
    "Epc.C31_sgtin198",
    "Epc.C31_sscc96",
    "Epc.C31_sgln96_partial",
    "Epc.C31_sgln195_partial",
    "Epc.C31_grai96_partial",
    "Epc.C31_grai170_partial",
    "Epc.C31_giai96",
    "Epc.C31_giai202",
    "Epc.C31_gsrn96",
    "Epc.C31_gsrnp96",
    "Epc.C31_gdti96_partial",
    "Epc.C31_gdti174_partial",
    "Epc.C31_cpi96",
    "Epc.C31_sgcn96_partial",
    "Epc.C31_itip110",
    "Epc.C31_itip212",
    "Epc.C31_cpiVar",
    "Epc.C31_claim_false"
   ],
   "note": "Partition value 7 and too large company prefixes: all 18 codings with a partition table, no condition on the length except for CPI-var. Too large references: all padded codings; for SGLN, GRAI, GDTI and SGCN except when the partition value is 0, where the field is ignored (C31_claim_false)."
  },
  {
   "property": "C32",
   "status": "partial",
   "theorems": [
    "Epc.C32_sgtin_partial",
    "Epc.C32_lgtin_partial",
    "Epc.C32_upui_partial",
    "Epc.C32_itip_partial",
    "Epc.C32_sgln_partial",
    "Epc.C32_sscc",
    "Epc.C32_gsrn",
    "Epc.C32_gsrnp",
    "Epc.C32_pgln",
    "Epc.C32_gsin",
    "Epc.C32_grai",
    "Epc.C32_gdti",
    "Epc.C32_sgcn",
    "Epc.C32_giai_partial",
    "Epc.C32_ginc",
    "Epc.C32_cpi",
    "Epc.C32_sgtin_claim_false",
    "Epc.C32_sgln_claim_false",
    "Epc.C32_itip_claim_false",
    "Epc.C32_lgtin_claim_false",
    "Epc.C32_giai_claim_false"
   ],
   "note": "False as stated for SGTIN, LGTIN (serial or lot with a parenthesised group of two characters), SGLN (group of three), ITIP (piece or total not of two digits) and GIAI (colon in the asset reference): C32_*_claim_false. Proved for every accepted object with canonical components outside these cases; for SGTIN, LGTIN and SGLN also that exactly these cases raise ValueError."
  },
  {
   "property": "C33",
   "status": "proved",
   "theorems": [
    "Epc.C33_sgtin",
    "Epc.C33_lgtin",
    "Epc.C33_sscc",
    "Epc.C33_gsrn",
    "Epc.C33_gsrnp",
    "Epc.C33_gsin",
    "Epc.C33_pgln",
    "Epc.C33_sgln",
    "Epc.C33_grai",
    "Epc.C33_gdti",
    "Epc.C33_sgcn",
    "Epc.C33_giai",
    "Epc.C33_ginc"
   ],
   "note": ""
  },
  {
   "property": "C34",
   "status": "proved",
   "theorems": [
    "Epc.C34_sgtin",
    "Epc.C34_lgtin"
   ],
   "note": ""
  },
  {
   "property": "C35",
   "status": "proved",
   "theorems": [
    "Epc.C35_rebuild",
    "Epc.C35_gtin"
   ],
   "note": ""
  },
  {
   "property": "C36",
   "status": "partial",
   "theorems": [
    "Epc.C36_sgtin_partial",
    "Epc.C36_sgtin_claim_false",
    "Epc.C36_lgtin_partial",
    "Epc.C36_lgtin_claim_false",
    "Epc.C36_upui_partial",
    "Epc.C36_upui_claim_false",
    "Epc.C36_itip_partial",
    "Epc.C36_itip_claim_false",
    "Epc.C36_sscc_partial",
    "Epc.C36_sscc_claim_false",
    "Epc.C36_gsrn_partial",
    "Epc.C36_gsrn_claim_false",
    "Epc.C36_gsrnp_partial",
    "Epc.C36_gsrnp_claim_false",
    "Epc.C36_pgln_partial",
    "Epc.C36_pgln_claim_false",
    "Epc.C36_gsin_partial",
    "Epc.C36_gsin_claim_false",
    "Epc.C36_sgln_partial",
    "Epc.C36_sgln_claim_false",
    "Epc.C36_grai_partial",
    "Epc.C36_grai_claim_false",
    "Epc.C36_gdti_partial",
    "Epc.C36_gdti_claim_false",
    "Epc.C36_sgcn_partial",
    "Epc.C36_sgcn_claim_false",
    "Epc.C36_giai_partial",
    "Epc.C36_giai_claim_false",
    "Epc.C36_ginc_partial",
    "Epc.C36_ginc_claim_false",
    "Epc.C36_cpi"
   ],
   "note": "False as stated: the check digit is never looked at (C36_*_claim_false with a wrong check digit); GIAI and GINC move the prefix boundary at a dot. Proved: for every ASCII string and every integer prefix length the object prints the parsed string with the check digit put right, and exactly the parsed string if the check digit was right; CPI exact."
  },
  {
   "property": "C37",
   "status": "proved",
   "theorems": [
    "Epc.C37_disjoint",
    "Epc.C37_classes",
    "Epc.C37_matched",
    "Epc.C37_unmatched",
    "Epc.C37_order",
    "Epc.C37_dispatch_class",
    "Epc.C37_dispatch"
   ],
   "note": ""
  },
  {
   "property": "C38",
   "status": "proved",
   "theorems": [
    "Epc.C38_dispatch",
    "Epc.C38_unknown",
    "Epc.C38_no_name",
    "Epc.C38_cases",
    "Epc.C38_accepted",
    "Epc.C38_returns",
    "Epc.C38_variants",
    "Epc.C38_strings",
    "Epc.C38_classes"
   ],
   "note": "A string with fewer than three colons raises IndexError (C38_no_name)."
  },
  {
   "property": "C39",
   "status": "proved",
   "theorems": [
    "Epc.C39_headers_distinct",
    "Epc.C39_headers_complete",
    "Epc.C39_table",
    "Epc.C39_unknown",
    "Epc.C39_sgtin",
    "Epc.C39_sscc",
    "Epc.C39_sgln",
    "Epc.C39_grai",
    "Epc.C39_giai",
    "Epc.C39_gsrn",
    "Epc.C39_gsrnp",
    "Epc.C39_gdti",
    "Epc.C39_cpi",
    "Epc.C39_sgcn",
    "Epc.C39_itip",
    "Epc.C39_gid",
    "Epc.C39_usdod",
    "Epc.C39_adi"
   ],
   "note": ""
  },
  {
   "property": "C40",
   "status": "proved",
   "theorems": [
    "Epc.C40_uri",
    "Epc.C40_element_string",
    "Epc.C40_element_string_without_length",
    "Epc.C40_tag_uri",
    "Epc.C40_sgtin",
    "Epc.C40_sscc",
    "Epc.C40_sgln",
    "Epc.C40_grai",
    "Epc.C40_giai",
    "Epc.C40_gsrn",
    "Epc.C40_gsrnp",
    "Epc.C40_gdti",
    "Epc.C40_sgcn"
   ],
   "note": ""
  },
  {
   "property": "C41",
   "status": "partial",
   "theorems": [
    "Epc.C41_sgtin",
    "Epc.C41_sgln",
    "Epc.C41_grai_claim_false",
    "Epc.C41_grai_partial",
    "Epc.C41_gdti_claim_false",
    "Epc.C41_gdti_partial",
    "Epc.C41_sgtin_two_wildcards",
    "Epc.C41_sgln_two_wildcards",
    "Epc.C41_grai_two_wildcards",
    "Epc.C41_gdti_two_wildcards",
    "Epc.C41_sgcn_two_wildcards",
    "Epc.C41_two_of_two",
    "Epc.C41_other_schemes"
   ],
   "note": "Proved for SGTIN and SGLN, and that two or more wildcards are refused (every scheme). The GRAI/GDTI part is false (C41_grai_claim_false, C41_gdti_claim_false): their key contains the serial, so the pattern's key ends in '*'. Proved instead: the thirteen digits are those of every member, followed by '*'."
  },
  {
   "property": "C42",
   "status": "proved",
   "theorems": [
    "Epc.C42_refused"
   ],
   "note": ""
  },
  {
   "property": "C43",
   "status": "proved",
   "theorems": [
    "Epc.C43_iff",
    "Epc.C43_object",
    "Epc.C43_equivalence",
    "Epc.C43_accepted",
    "Epc.C43_observations",
    "Epc.C43_distinct_uris"
   ],
   "note": ""
  },
  {
   "property": "C44",
   "status": "proved",
   "theorems": [
    "Epc.C44_hex_to_tag_encodable",
    "Epc.C44_sgtin",
    "Epc.C44_sscc",
    "Epc.C44_sgln",
    "Epc.C44_grai",
    "Epc.C44_giai",
    "Epc.C44_gid",
    "Epc.C44_gsrn",
    "Epc.C44_gsrnp",
    "Epc.C44_gdti",
    "Epc.C44_cpi",
    "Epc.C44_sgcn",
    "Epc.C44_usdod",
    "Epc.C44_adi",
    "Epc.C44_itip",
    "Epc.C44_get_gs1_key"
   ],
   "note": ""
  },
  {
   "property": "C45",
   "status": "proved",
   "theorems": [
    "Epc.C45_sgtin",
    "Epc.C45_sgtin_conv",
    "Epc.C45_lgtin",
    "Epc.C45_lgtin_conv",
    "Epc.C45_sgln",
    "Epc.C45_sgln_conv"
   ],
   "note": ""
  },
  {
   "property": "C46",
   "status": "partial",
   "theorems": [
    "Epc.C46_sgtin",
    "Epc.C46_lgtin",
    "Epc.C46_upui_partial",
    "Epc.C46_upui_index",
    "Epc.C46_upui_claim_false",
    "Epc.C46_itip",
    "Epc.C46_sscc",
    "Epc.C46_gsrn",
    "Epc.C46_gsrnp",
    "Epc.C46_pgln",
    "Epc.C46_gsin",
    "Epc.C46_sgln",
    "Epc.C46_grai",
    "Epc.C46_gdti",
    "Epc.C46_sgcn_partial",
    "Epc.C46_sgcn_claim_false",
    "Epc.C46_giai",
    "Epc.C46_ginc",
    "Epc.C46_cpi"
   ],
   "note": "False for UPUI with empty item reference (IndexError, C46_upui_index) and SGCN with non-ASCII digits. Proved for all other classes in full and for these two under the missing hypothesis."
  },
  {
   "property": "C47",
   "status": "proved",
   "theorems": [
    "Epc.C47_sgtin",
    "Epc.C47_sgln",
    "Epc.C47_grai",
    "Epc.C47_gdti",
    "Epc.C47_itip",
    "Epc.C47_giai",
    "Epc.C47_cpi",
    "Epc.C47_sscc",
    "Epc.C47_gsrn",
    "Epc.C47_gsrnp",
    "Epc.C47_sgcn",
    "Epc.C47_usdod",
    "Epc.C47_adi",
    "Epc.C47_gid"
   ],
   "note": ""
  },
  {
   "property": "C48",
   "status": "proved",
   "theorems": [
    "Epc.C48_sgtin",
    "Epc.C48_sgtin_form",
    "Epc.C48_lgtin",
    "Epc.C48_lgtin_form",
    "Epc.C48_sgln",
    "Epc.C48_sgln_form",
    "Epc.C48_grai",
    "Epc.C48_grai_form",
    "Epc.C48_gdti",
    "Epc.C48_gdti_form",
    "Epc.C48_upui",
    "Epc.C48_upui_form",
    "Epc.C48_itip",
    "Epc.C48_itip_form",
    "Epc.C48_ginc",
    "Epc.C48_ginc_form",
    "Epc.C48_giai",
    "Epc.C48_giai_form"
   ],
   "note": ""
  },
  {
   "property": "C49",
   "status": "partial",
   "theorems": [
    "Epc.C49_sgtin",
    "Epc.C49_sgln",
    "Epc.C49_grai",
    "Epc.C49_gdti",
    "Epc.C49_giai",
    "Epc.C49_itip_partial",
    "Epc.C49_itip_claim_false"
   ],
   "note": "Proved for SGTIN, SGLN, GRAI, GDTI and GIAI. False for ITIP (C49_itip_claim_false: one-digit piece and total leave room for an item reference that overflows its field); proved for ITIP with two-digit piece and total."
  },
  {
   "property": "C50",
   "status": "proved",
   "theorems": [
    "Epc.C50_unescape",
    "Epc.C50_escape",
    "Epc.C50_untouched"
   ],
   "note": ""
  },
  {
   "property": "C51",
   "status": "partial",
   "theorems": [
    "Epc.C51_sgtin_claim_false",
    "Epc.C51_sgtin_alias",
    "Epc.C51_sgtin_partial",
    "Epc.C51_sgln_claim_false",
    "Epc.C51_sgln_alias",
    "Epc.C51_sgln_partial",
    "Epc.C51_grai_claim_false",
    "Epc.C51_grai_alias",
    "Epc.C51_grai_partial",
    "Epc.C51_gdti_claim_false",
    "Epc.C51_gdti_alias",
    "Epc.C51_gdti_partial",
    "Epc.C51_itip_claim_false",
    "Epc.C51_itip_alias",
    "Epc.C51_giai_claim_false",
    "Epc.C51_cpi_claim_false",
    "Epc.C51_sgtin_wrong_binaries"
   ],
   "note": "False for all seven coding schemes (C51_x_claim_false): binary() does not look at the serial; leading zeros are lost (C51_x_alias). Proved for SGTIN, SGLN, GRAI, GDTI: a serial with a character other than digits, '_', '+', '-' raises ValueError."
  },
  {
   "property": "C52",
   "status": "proved",
   "theorems": [
    "Epc.C52_fields_unique",
    "Epc.C52_sgtin96",
    "Epc.C52_sgln96",
    "Epc.C52_grai96",
    "Epc.C52_gdti96",
    "Epc.C52_sscc96",
    "Epc.C52_gsrn96",
    "Epc.C52_gsrnp96",
    "Epc.C52_sgcn96",
    "Epc.C52_itip110",
    "Epc.C52_giai96",
    "Epc.C52_cpi96",
    "Epc.C52_gid96",
    "Epc.C52_usdod96"
   ],
   "note": ""
  },
  {
   "property": "C53",
   "status": "proved",
   "theorems": [
    "Epc.C53_sgtin198",
    "Epc.C53_sgln195",
    "Epc.C53_grai170",
    "Epc.C53_gdti174",
    "Epc.C53_itip212",
    "Epc.C53_giai202"
   ],
   "note": ""
  },
  {
   "property": "C54",
   "status": "proved",
   "theorems": [
    "Epc.C54_cpi_var",
    "Epc.C54_cut_off"
   ],
   "note": ""
  },
  {
   "property": "C55",
   "status": "proved",
   "theorems": [
    "Epc.C55_adi_var"
   ],
   "note": ""
  },
  {
   "property": "C56",
   "status": "proved",
   "theorems": [
    "Epc.C56_sgtin96",
    "Epc.C56_sgtin198",
    "Epc.C56_sscc96",
    "Epc.C56_sgln96",
    "Epc.C56_sgln195",
    "Epc.C56_grai96",
    "Epc.C56_grai170",
    "Epc.C56_giai96",
    "Epc.C56_giai202",
    "Epc.C56_gsrn96",
    "Epc.C56_gsrnp96",
    "Epc.C56_gdti96",
    "Epc.C56_gdti174",
    "Epc.C56_sgcn96",
    "Epc.C56_itip110",
    "Epc.C56_itip212",
    "Epc.C56_cpi96",
    "Epc.C56_cpi_var",
    "Epc.C56_gid96",
    "Epc.C56_usdod96",
    "Epc.C56_adi_var"
   ],
   "note": ""
  },
  {
   "property": "C57",
   "status": "partial",
   "theorems": [
    "Epc.C57_sgtin",
    "Epc.C57_sscc",
    "Epc.C57_sgln",
    "Epc.C57_grai",
    "Epc.C57_gsrn",
    "Epc.C57_gsrnp",
    "Epc.C57_gdti",
    "Epc.C57_cpi",
    "Epc.C57_sgcn",
    "Epc.C57_itip",
    "Epc.C57_usdod",
    "Epc.C57_adi",
    "Epc.C57_gid",
    "Epc.C57_giai",
    "Epc.C57_giai_partial",
    "Epc.C57_giai_claim_false"
   ],
   "note": "False for GIAI asset references containing ':' (C57_giai_claim_false): the parser cuts them at the colon. Proved completely for the other 13 classes and for GIAI without colon (C57_giai); with colon the coding scheme, filter value, company prefix and asset reference are still determined (C57_giai_partial)."
  },
  {
   "property": "C58",
   "status": "proved",
   "theorems": [
    "Epc.C58_sgtin",
    "Epc.C58_sscc",
    "Epc.C58_sgln",
    "Epc.C58_grai",
    "Epc.C58_giai",
    "Epc.C58_gsrn",
    "Epc.C58_gsrnp",
    "Epc.C58_gdti",
    "Epc.C58_cpi",
    "Epc.C58_sgcn",
    "Epc.C58_itip",
    "Epc.C58_usdod",
    "Epc.C58_adi",
    "Epc.C58_gid"
   ],
   "note": ""
  },
  {
   "property": "C59",
   "status": "proved",
   "theorems": [
    "Epc.C59_sgtin",
    "Epc.C59_lgtin",
    "Epc.C59_upui",
    "Epc.C59_sgln",
    "Epc.C59_grai",
    "Epc.C59_gdti",
    "Epc.C59_itip",
    "Epc.C59_sscc",
    "Epc.C59_gsrn",
    "Epc.C59_gsrnp",
    "Epc.C59_pgln",
    "Epc.C59_gsin",
    "Epc.C59_sgcn",
    "Epc.C59_giai",
    "Epc.C59_ginc",
    "Epc.C59_cpi",
    "Epc.C59_sgtin_negative",
    "Epc.C59_lgtin_negative",
    "Epc.C59_upui_negative",
    "Epc.C59_sgln_negative",
    "Epc.C59_grai_negative",
    "Epc.C59_gdti_negative",
    "Epc.C59_itip_negative",
    "Epc.C59_sgcn_negative",
    "Epc.C59_sscc_negative",
    "Epc.C59_gsrn_negative",
    "Epc.C59_gsrnp_negative",
    "Epc.C59_pgln_negative",
    "Epc.C59_gsin_negative",
    "Epc.C59_giai_negative",
    "Epc.C59_ginc_negative",
    "Epc.C59_cpi_negative"
   ],
   "note": ""
  },
  {
   "property": "C60",
   "status": "proved",
   "theorems": [
    "Epc.C60_constructor",
    "Epc.C60_constructor_convert",
    "Epc.C60_constructor_other",
    "Epc.C60_tag_uri",
    "Epc.C60_element_string",
    "Epc.C60_gtin_plus_serial",
    "Epc.C60_binary",
    "Epc.C60_encoded",
    "Epc.C60_element_string_parser",
    "Epc.C60_uri_parsers",
    "Epc.C60_get_gs1_key",
    "Epc.C60_get_gs1_key_typed",
    "Epc.C60_get_gs1_key_documentation_incomplete"
   ],
   "note": "The model has no limit on the length of decimal numerals. With the limit of 4300 digits that recent CPython versions set by default, the constructors of GID and USDOD raise ValueError instead of ConvertException for longer numerals (see C81)."
  },
  {
   "property": "C61",
   "status": "proved",
   "theorems": [
    "Epc.C61_object",
    "Epc.C61_denotes",
    "Epc.C61_get_gs1_key",
    "Epc.C61_key_unique",
    "Epc.C61_dummy_serial_useless"
   ],
   "note": ""
  },
  {
   "property": "C62",
   "status": "proved",
   "theorems": [
    "Epc.C62_sgtin",
    "Epc.C62_sgtin_determines",
    "Epc.C62_lgtin",
    "Epc.C62_lgtin_determines",
    "Epc.C62_upui",
    "Epc.C62_upui_determines",
    "Epc.C62_itip",
    "Epc.C62_itip_determines",
    "Epc.C62_sscc",
    "Epc.C62_sscc_determines",
    "Epc.C62_gsrn",
    "Epc.C62_gsrn_determines",
    "Epc.C62_gsrnp",
    "Epc.C62_gsrnp_determines",
    "Epc.C62_pgln",
    "Epc.C62_pgln_determines",
    "Epc.C62_gsin",
    "Epc.C62_gsin_determines",
    "Epc.C62_sgln",
    "Epc.C62_sgln_determines",
    "Epc.C62_grai",
    "Epc.C62_grai_determines",
    "Epc.C62_gdti",
    "Epc.C62_gdti_determines",
    "Epc.C62_sgcn",
    "Epc.C62_sgcn_determines",
    "Epc.C62_giai",
    "Epc.C62_giai_determines",
    "Epc.C62_ginc",
    "Epc.C62_ginc_determines",
    "Epc.C62_cpi",
    "Epc.C62_cpi_determines"
   ],
   "note": ""
  },
  {
   "property": "C63",
   "status": "proved",
   "theorems": [
    "Epc.C63_sgtin",
    "Epc.C63_sscc",
    "Epc.C63_sgln",
    "Epc.C63_grai",
    "Epc.C63_gdti",
    "Epc.C63_giai",
    "Epc.C63_gsrn",
    "Epc.C63_gsrnp",
    "Epc.C63_sgcn",
    "Epc.C63_itip",
    "Epc.C63_cpi",
    "Epc.C63_gid",
    "Epc.C63_usdod",
    "Epc.C63_pgln",
    "Epc.C63_gsin",
    "Epc.C63_ginc",
    "Epc.C63_lgtin",
    "Epc.C63_upui",
    "Epc.C63_ascii_only"
   ],
   "note": ""
  },
  {
   "property": "C64",
   "status": "proved",
   "theorems": [
    "Epc.C64_sgtin96",
    "Epc.C64_sgln96",
    "Epc.C64_grai96",
    "Epc.C64_gdti96",
    "Epc.C64_sgtin198",
    "Epc.C64_sgln195",
    "Epc.C64_grai170",
    "Epc.C64_gdti174",
    "Epc.C64_sscc96",
    "Epc.C64_gsrn96",
    "Epc.C64_gsrnp96",
    "Epc.C64_sgcn96",
    "Epc.C64_itip110",
    "Epc.C64_itip212",
    "Epc.C64_giai96",
    "Epc.C64_giai202",
    "Epc.C64_cpi96",
    "Epc.C64_cpi96_no_tag_uri",
    "Epc.C64_gid96",
    "Epc.C64_usdod96",
    "Epc.C64_cpiVar",
    "Epc.C64_adiVar"
   ],
   "note": ""
  },
  {
   "property": "C65",
   "status": "proved",
   "theorems": [
    "Epc.C65_returns",
    "Epc.C65_refused",
    "Epc.C65_last_ignored",
    "Epc.C65_negative"
   ],
   "note": ""
  },
  {
   "property": "C66",
   "status": "proved",
   "theorems": [
    "Epc.C66_cage_encode",
    "Epc.C66_cage_decode",
    "Epc.C66_cage_roundtrip",
    "Epc.C66_cage_six_bits",
    "Epc.C66_binary_char",
    "Epc.C66_cpi_escapes"
   ],
   "note": ""
  },
  {
   "property": "C67",
   "status": "proved",
   "theorems": [
    "Epc.C67_sgtin",
    "Epc.C67_lgtin",
    "Epc.C67_sgln",
    "Epc.C67_grai",
    "Epc.C67_gdti",
    "Epc.C67_ginc",
    "Epc.C67_giai",
    "Epc.C67_upui",
    "Epc.C67_itip"
   ],
   "note": ""
  },
  {
   "property": "C68",
   "status": "proved",
   "theorems": [
    "Epc.C68_sgtin96",
    "Epc.C68_sgtin96_inj",
    "Epc.C68_sgtin198",
    "Epc.C68_sgtin198_inj",
    "Epc.C68_sscc96",
    "Epc.C68_sscc96_inj",
    "Epc.C68_sgln96",
    "Epc.C68_sgln96_inj",
    "Epc.C68_sgln195",
    "Epc.C68_sgln195_inj",
    "Epc.C68_grai96",
    "Epc.C68_grai96_inj",
    "Epc.C68_grai170",
    "Epc.C68_grai170_inj",
    "Epc.C68_giai96",
    "Epc.C68_giai96_inj",
    "Epc.C68_giai202",
    "Epc.C68_giai202_inj",
    "Epc.C68_gsrn96",
    "Epc.C68_gsrn96_inj",
    "Epc.C68_gsrnp96",
    "Epc.C68_gsrnp96_inj",
    "Epc.C68_gdti96",
    "Epc.C68_gdti96_inj",
    "Epc.C68_gdti174",
    "Epc.C68_gdti174_inj",
    "Epc.C68_cpi96",
    "Epc.C68_cpi96_inj",
    "Epc.C68_cpi_var",
    "Epc.C68_cpi_var_inj",
    "Epc.C68_sgcn96",
    "Epc.C68_sgcn96_inj",
    "Epc.C68_itip110",
    "Epc.C68_itip110_inj",
    "Epc.C68_itip212",
    "Epc.C68_itip212_inj",
    "Epc.C68_gid96",
    "Epc.C68_gid96_inj",
    "Epc.C68_usdod96",
    "Epc.C68_usdod96_inj"
   ],
   "note": "C68_<scheme>: round trips; C68_<scheme>_inj: equality of encodings as an equivalence."
  },
  {
   "property": "C69",
   "status": "proved",
   "theorems": [
    "Epc.C69_sgtin96",
    "Epc.C69_sgtin198",
    "Epc.C69_sgln96",
    "Epc.C69_sgln195",
    "Epc.C69_grai96",
    "Epc.C69_grai170",
    "Epc.C69_gdti96",
    "Epc.C69_gdti174",
    "Epc.C69_giai96",
    "Epc.C69_giai202",
    "Epc.C69_itip110",
    "Epc.C69_itip212",
    "Epc.C69_cpi96",
    "Epc.C69_sscc96",
    "Epc.C69_gsrn96",
    "Epc.C69_gsrnp96",
    "Epc.C69_sgcn96",
    "Epc.C69_gid96",
    "Epc.C69_usdod96",
    "Epc.C69_cpi_var",
    "Epc.C69_minus_sign"
   ],
   "note": "C69_<scheme>: the result or the exception for every accepted object; ADI-var always returns and is C56_adi_var. C69_minus_sign: a witness of a result that is no bit string."
  },
  {
   "property": "C70",
   "status": "proved",
   "theorems": [
    "Epc.C70_sgtin_tag",
    "Epc.C70_sgln_tag",
    "Epc.C70_grai_tag",
    "Epc.C70_giai_tag",
    "Epc.C70_gdti_tag",
    "Epc.C70_itip_tag",
    "Epc.C70_other_tags",
    "Epc.C70_sgtin198",
    "Epc.C70_sgln195",
    "Epc.C70_grai170",
    "Epc.C70_gdti174",
    "Epc.C70_itip212",
    "Epc.C70_giai202",
    "Epc.C70_sgtin_element",
    "Epc.C70_lgtin_element",
    "Epc.C70_upui_element",
    "Epc.C70_sgln_element",
    "Epc.C70_grai_element",
    "Epc.C70_gdti_element",
    "Epc.C70_itip_element",
    "Epc.C70_giai_element",
    "Epc.C70_ginc_element"
   ],
   "note": ""
  },
  {
   "property": "C71",
   "status": "proved",
   "theorems": [
    "Epc.C71_text",
    "Epc.C71_key",
    "Epc.C71_sgln96",
    "Epc.C71_grai96",
    "Epc.C71_gdti96",
    "Epc.C71_sgtin198",
    "Epc.C71_sgln195",
    "Epc.C71_grai170",
    "Epc.C71_gdti174",
    "Epc.C71_sgcn96",
    "Epc.C71_itip110",
    "Epc.C71_itip212",
    "Epc.C71_usdod96",
    "Epc.C71_giai202",
    "Epc.C71_cpiVar",
    "Epc.C71_cpiVar_same",
    "Epc.C71_adiVar",
    "Epc.C71_adiVar_same"
   ],
   "note": ""
  },
  {
   "property": "C72",
   "status": "proved",
   "theorems": [
    "Epc.C72_pad",
    "Epc.C72_sgtin_from_hex",
    "Epc.C72_sgtin_from_base64",
    "Epc.C72_sgtin_write",
    "Epc.C72_sscc_from_hex",
    "Epc.C72_sscc_from_base64",
    "Epc.C72_sscc_write",
    "Epc.C72_sgln_from_hex",
    "Epc.C72_sgln_from_base64",
    "Epc.C72_sgln_write",
    "Epc.C72_grai_from_hex",
    "Epc.C72_grai_from_base64",
    "Epc.C72_grai_write",
    "Epc.C72_giai_from_hex",
    "Epc.C72_giai_from_base64",
    "Epc.C72_giai_write",
    "Epc.C72_gsrn_from_hex",
    "Epc.C72_gsrn_from_base64",
    "Epc.C72_gsrn_write",
    "Epc.C72_gsrnp_from_hex",
    "Epc.C72_gsrnp_from_base64",
    "Epc.C72_gsrnp_write",
    "Epc.C72_gdti_from_hex",
    "Epc.C72_gdti_from_base64",
    "Epc.C72_gdti_write",
    "Epc.C72_cpi_from_hex",
    "Epc.C72_cpi_from_base64",
    "Epc.C72_cpi_write",
    "Epc.C72_sgcn_from_hex",
    "Epc.C72_sgcn_from_base64",
    "Epc.C72_sgcn_write",
    "Epc.C72_itip_from_hex",
    "Epc.C72_itip_from_base64",
    "Epc.C72_itip_write",
    "Epc.C72_gid_from_hex",
    "Epc.C72_gid_from_base64",
    "Epc.C72_gid_write",
    "Epc.C72_usdod_from_hex",
    "Epc.C72_usdod_from_base64",
    "Epc.C72_usdod_write",
    "Epc.C72_adi_from_hex",
    "Epc.C72_adi_from_base64",
    "Epc.C72_adi_write"
   ],
   "note": "C72_<class>_from_hex, _from_base64, _write for the 14 classes; C72_pad for pad characters in the middle of a base64 text."
  },
  {
   "property": "C73",
   "status": "proved",
   "theorems": [
    "Epc.C73_history",
    "Epc.C73_prefix"
   ],
   "note": ""
  },
  {
   "property": "C74",
   "status": "partial",
   "theorems": [
    "Epc.C74_claim_false",
    "Epc.C74_other_methods",
    "Epc.C74_tag_uri_partial",
    "Epc.C74_unshared",
    "Epc.C74_finishes"
   ],
   "note": "False for CPI.tag_uri, which stores its result in the object and returns what the object then holds (C74_claim_false). Proved for all other methods (C74_other_methods), for CPI.tag_uri without competitors asking with other arguments (C74_unshared), in general up to the answer of a competitor (C74_tag_uri_partial), and termination (C74_finishes)."
  },
  {
   "property": "C75",
   "status": "partial",
   "theorems": [
    "Epc.C75_sgtin_claim_false",
    "Epc.C75_sscc_claim_false",
    "Epc.C75_sgln_claim_false",
    "Epc.C75_grai_claim_false",
    "Epc.C75_giai_claim_false",
    "Epc.C75_gsrn_claim_false",
    "Epc.C75_gsrnp_claim_false",
    "Epc.C75_gdti_claim_false",
    "Epc.C75_cpi_claim_false",
    "Epc.C75_sgcn_claim_false",
    "Epc.C75_itip_claim_false",
    "Epc.C75_gid_claim_false",
    "Epc.C75_usdod_claim_false",
    "Epc.C75_adi_claim_false",
    "Epc.C75_bits_partial",
    "Epc.C75_sgtin96_partial",
    "Epc.C75_sgtin198_partial",
    "Epc.C75_sscc96_partial",
    "Epc.C75_sgln96_partial",
    "Epc.C75_sgln195_partial",
    "Epc.C75_grai96_partial",
    "Epc.C75_grai170_partial",
    "Epc.C75_giai96_partial",
    "Epc.C75_giai202_partial",
    "Epc.C75_gsrn96_partial",
    "Epc.C75_gsrnp96_partial",
    "Epc.C75_gdti96_partial",
    "Epc.C75_gdti174_partial",
    "Epc.C75_cpi96_partial",
    "Epc.C75_cpiVar_partial",
    "Epc.C75_sgcn96_partial",
    "Epc.C75_itip110_partial",
    "Epc.C75_itip212_partial",
    "Epc.C75_gid96_partial",
    "Epc.C75_usdod96_partial",
    "Epc.C75_adiVar_partial"
   ],
   "note": "False for every class (C75_*_claim_false): the fields are read by int(text, 2), which also takes signs, blanks, underscores, the prefix 0b and digits of other scripts. Proved instead: a numeric field is seen only through its number, so from_binary answers as for the text in which each non-negative number is written in bits of the same width (C75_*_partial, all 21 encodings), and that text is a bit string when every field is such a number (C75_bits_partial)."
  },
  {
   "property": "C76",
   "status": "partial",
   "theorems": [
    "Epc.C76_sgtin_claim_false",
    "Epc.C76_sgtin_partial",
    "Epc.C76_sscc_claim_false",
    "Epc.C76_sscc_partial",
    "Epc.C76_sgln_claim_false",
    "Epc.C76_sgln_partial",
    "Epc.C76_grai_claim_false",
    "Epc.C76_grai_partial",
    "Epc.C76_giai_claim_false",
    "Epc.C76_giai_partial",
    "Epc.C76_gsrn_claim_false",
    "Epc.C76_gsrn_silent",
    "Epc.C76_gsrn_partial",
    "Epc.C76_gsrnp_claim_false",
    "Epc.C76_gsrnp_silent",
    "Epc.C76_gsrnp_partial",
    "Epc.C76_gdti_claim_false",
    "Epc.C76_gdti_partial",
    "Epc.C76_cpi_claim_false",
    "Epc.C76_cpi_partial",
    "Epc.C76_sgcn_claim_false",
    "Epc.C76_sgcn_partial",
    "Epc.C76_usdod_claim_false",
    "Epc.C76_usdod_partial",
    "Epc.C76_adi_claim_false",
    "Epc.C76_adi_partial",
    "Epc.C76_itip_claim_false",
    "Epc.C76_itip_partial",
    "Epc.C76_gid_claim_false",
    "Epc.C76_gid_partial"
   ],
   "note": "False for every class (C76_*_claim_false): hex and base64 accept positional arguments and drop them. Eleven classes then raise TypeError for want of arguments; GSRN and GSRNP, whose parameters all have default values, answer for filter value 0 whatever was passed (C76_gsrn_silent, C76_gsrnp_silent); GID answers even for two arguments, which binary refuses. Proved instead: whatever the positional arguments, the answer is that of the keyword arguments alone (C76_*_partial)."
  },
  {
   "property": "C77",
   "status": "partial",
   "theorems": [
    "Epc.C77_sgtin",
    "Epc.C77_sscc",
    "Epc.C77_sgln",
    "Epc.C77_grai",
    "Epc.C77_giai",
    "Epc.C77_gsrn",
    "Epc.C77_gsrnp",
    "Epc.C77_gdti",
    "Epc.C77_cpi",
    "Epc.C77_sgcn",
    "Epc.C77_usdod",
    "Epc.C77_adi",
    "Epc.C77_itip_claim_false",
    "Epc.C77_itip_partial",
    "Epc.C77_gid"
   ],
   "note": "Proved for 13 of the 14 classes (C77_*). False for ITIP (C77_itip_claim_false): tag_uri takes the coding scheme first and binary the filter value, so a positional call right for one raises KeyError in the other. For ITIP: each method in its own order, and the two agree when the arguments are passed by name (C77_itip_partial)."
  },
  {
   "property": "C78",
   "status": "proved",
   "theorems": [
    "Epc.C78_sgtin",
    "Epc.C78_sgln",
    "Epc.C78_grai",
    "Epc.C78_gdti",
    "Epc.C78_sscc",
    "Epc.C78_gsrn",
    "Epc.C78_gsrnp",
    "Epc.C78_cpi",
    "Epc.C78_sgcn",
    "Epc.C78_usdod",
    "Epc.C78_gid",
    "Epc.C78_giai",
    "Epc.C78_itip",
    "Epc.C78_lgtin",
    "Epc.C78_upui",
    "Epc.C78_ginc",
    "Epc.C78_pgln",
    "Epc.C78_gsin",
    "Epc.C78_bic",
    "Epc.C78_imovn",
    "Epc.C78_adi",
    "Epc.C78_all"
   ],
   "note": ""
  },
  {
   "property": "C79",
   "status": "partial",
   "theorems": [
    "Epc.C79_sgtin_claim_false",
    "Epc.C79_sgtin_partial",
    "Epc.C79_sscc_claim_false",
    "Epc.C79_sscc_partial",
    "Epc.C79_sgln_claim_false",
    "Epc.C79_sgln_partial",
    "Epc.C79_grai_claim_false",
    "Epc.C79_grai_partial",
    "Epc.C79_giai_claim_false",
    "Epc.C79_giai_partial",
    "Epc.C79_gsrn_claim_false",
    "Epc.C79_gsrn_partial",
    "Epc.C79_gsrnp_claim_false",
    "Epc.C79_gsrnp_partial",
    "Epc.C79_gdti_claim_false",
    "Epc.C79_gdti_partial",
    "Epc.C79_cpi_claim_false",
    "Epc.C79_cpi_partial",
    "Epc.C79_sgcn_claim_false",
    "Epc.C79_sgcn_partial",
    "Epc.C79_itip_claim_false",
    "Epc.C79_itip_partial",
    "Epc.C79_usdod_claim_false",
    "Epc.C79_usdod_partial",
    "Epc.C79_adi_claim_false",
    "Epc.C79_adi_partial"
   ],
   "note": "False for every one of the 13 classes (C79_*_claim_false): TAG_URI demands a filter value whatever the flag, so such a tag URI raises ConvertException (unless the serial has so many dots that the company prefix passes for a filter value). Proved instead: if an object is returned, it is the one the text names (C79_*_partial)."
  },
  {
   "property": "C80",
   "status": "proved",
   "theorems": [
    "Epc.C80_sgtin",
    "Epc.C80_sscc",
    "Epc.C80_sgln",
    "Epc.C80_grai",
    "Epc.C80_giai",
    "Epc.C80_gsrn",
    "Epc.C80_gsrnp",
    "Epc.C80_gdti",
    "Epc.C80_cpi",
    "Epc.C80_sgcn",
    "Epc.C80_itip",
    "Epc.C80_usdod",
    "Epc.C80_adi",
    "Epc.C80_gid"
   ],
   "note": ""
  },
  {
   "property": "C81",
   "status": "proved",
   "theorems": [
    "Epc.C81_gid",
    "Epc.C81_gid_tag",
    "Epc.C81_usdod",
    "Epc.C81_usdod_tag",
    "Epc.C81_unlimited",
    "Epc.C81_sgtin",
    "Epc.C81_sscc",
    "Epc.C81_sgln",
    "Epc.C81_grai",
    "Epc.C81_giai",
    "Epc.C81_gsrn",
    "Epc.C81_gsrnp",
    "Epc.C81_gdti",
    "Epc.C81_cpi",
    "Epc.C81_itip",
    "Epc.C81_sgcn",
    "Epc.C81_witness"
   ],
   "note": ""
  },
  {
   "property": "C82",
   "status": "proved",
   "theorems": [
    "Epc.C82_identity",
    "Epc.C82_recognise",
    "Epc.C82_tag_prefix",
    "Epc.C82_element",
    "Epc.C82_element_any",
    "Epc.C82_serial",
    "Epc.C82_adi_terminator",
    "Epc.C82_contrast"
   ],
   "note": ""
  },
  {
   "property": "C83",
   "status": "proved",
   "theorems": [
    "Epc.C83_sgtin_uri",
    "Epc.C83_sgtin_tag",
    "Epc.C83_sgtin_element",
    "Epc.C83_sscc_uri",
    "Epc.C83_sscc_tag",
    "Epc.C83_sscc_element",
    "Epc.C83_gsrn_uri",
    "Epc.C83_gsrn_tag",
    "Epc.C83_gsrn_element",
    "Epc.C83_gsrnp_uri",
    "Epc.C83_gsrnp_tag",
    "Epc.C83_gsrnp_element",
    "Epc.C83_pgln_uri",
    "Epc.C83_pgln_element",
    "Epc.C83_gsin_uri",
    "Epc.C83_gsin_element",
    "Epc.C83_sgln_uri",
    "Epc.C83_sgln_tag",
    "Epc.C83_sgln_element",
    "Epc.C83_grai_uri",
    "Epc.C83_grai_tag",
    "Epc.C83_grai_element",
    "Epc.C83_gdti_uri",
    "Epc.C83_gdti_tag",
    "Epc.C83_gdti_element",
    "Epc.C83_sgcn_uri",
    "Epc.C83_sgcn_tag",
    "Epc.C83_sgcn_element",
    "Epc.C83_ginc_uri",
    "Epc.C83_ginc_element",
    "Epc.C83_cpi_uri",
    "Epc.C83_cpi_tag",
    "Epc.C83_cpi_element",
    "Epc.C83_itip_uri",
    "Epc.C83_itip_tag",
    "Epc.C83_itip_element",
    "Epc.C83_upui_uri",
    "Epc.C83_upui_element",
    "Epc.C83_lgtin_uri",
    "Epc.C83_lgtin_element",
    "Epc.C83_gid_uri",
    "Epc.C83_gid_tag",
    "Epc.C83_usdod_uri",
    "Epc.C83_usdod_tag",
    "Epc.C83_adi_uri",
    "Epc.C83_adi_tag",
    "Epc.C83_bic_uri",
    "Epc.C83_imovn_uri",
    "Epc.C83_giai_uri",
    "Epc.C83_giai_tag",
    "Epc.C83_giai_element"
   ],
   "note": ""
  },
  {
   "property": "C84",
   "status": "partial",
   "theorems": [
    "Epc.C84_sgtin_claim_false",
    "Epc.C84_sgtin_partial",
    "Epc.C84_sscc_claim_false",
    "Epc.C84_sscc_partial",
    "Epc.C84_sgln_claim_false",
    "Epc.C84_sgln_partial",
    "Epc.C84_grai_claim_false",
    "Epc.C84_grai_partial",
    "Epc.C84_giai_claim_false",
    "Epc.C84_giai_partial",
    "Epc.C84_gsrn_claim_false",
    "Epc.C84_gsrn_partial",
    "Epc.C84_gsrnp_claim_false",
    "Epc.C84_gsrnp_partial",
    "Epc.C84_gdti_claim_false",
    "Epc.C84_gdti_partial",
    "Epc.C84_cpi_claim_false",
    "Epc.C84_cpi_partial",
    "Epc.C84_sgcn_claim_false",
    "Epc.C84_sgcn_partial",
    "Epc.C84_itip_claim_false",
    "Epc.C84_itip_partial",
    "Epc.C84_gid_claim_false",
    "Epc.C84_gid_partial",
    "Epc.C84_usdod_claim_false",
    "Epc.C84_usdod_partial",
    "Epc.C84_adi_claim_false",
    "Epc.C84_adi_partial"
   ],
   "note": "False for every class (C84_*_claim_false): tag_uri does not look at the class of the coding scheme and returns 'urn:epc:tag:' + its value + the components of the object. Proved instead: binary, hex and base64 always raise KeyError; tag_uri returns exactly that text; the object's own from_tag_uri refuses it with ConvertException; and if tag_uri_to_tag_encodable accepts it, the object it returns is of the class of the coding scheme (an SSCC comes back as a GSRN)."
  },
  {
   "property": "C85",
   "status": "partial",
   "theorems": [
    "Epc.C85_sgtin_claim_false",
    "Epc.C85_sgtin_partial",
    "Epc.C85_sscc_claim_false",
    "Epc.C85_sscc_partial",
    "Epc.C85_sgln_claim_false",
    "Epc.C85_sgln_partial",
    "Epc.C85_grai_claim_false",
    "Epc.C85_grai_partial",
    "Epc.C85_giai_claim_false",
    "Epc.C85_giai_partial",
    "Epc.C85_gsrn_claim_false",
    "Epc.C85_gsrn_partial",
    "Epc.C85_gsrnp_claim_false",
    "Epc.C85_gsrnp_partial",
    "Epc.C85_gdti_claim_false",
    "Epc.C85_gdti_partial",
    "Epc.C85_cpi_claim_false",
    "Epc.C85_cpi_partial",
    "Epc.C85_sgcn_claim_false",
    "Epc.C85_sgcn_partial",
    "Epc.C85_itip_claim_false",
    "Epc.C85_itip_partial",
    "Epc.C85_usdod_claim_false",
    "Epc.C85_usdod_partial",
    "Epc.C85_adi"
   ],
   "note": "False for every class but ADI (C85_*_claim_false). Proved instead: values that fit the filter field behave as the class's own; for the others binary returns the bits with the filter field widened to the w bits of the number, so that everything after it is shifted and the text is w - 3 (USDOD: w - 4) bits too long; tag_uri carries the number and from_tag_uri returns the same object (of a GIAI without colon in its asset reference)."
  },
  {
   "property": "C86",
   "status": "proved",
   "theorems": [
    "Epc.C86_subclass",
    "Epc.C86_families",
    "Epc.C86_tag",
    "Epc.C86_gs1",
    "Epc.C86_implemented",
    "Epc.C86_init"
   ],
   "note": ""
  },
  {
   "property": "C87",
   "status": "partial",
   "theorems": [
    "Epc.C87_claim_false",
    "Epc.C87_partial"
   ],
   "note": "False (C87_claim_false): the base class defines __eq__ without __hash__, so hash(x) raises TypeError for every object of every class. Proved instead (C87_partial): that, and that membership in a list is decided by the URI."
  },
  {
   "property": "C88",
   "status": "partial",
   "theorems": [
    "Epc.C88_claim_false",
    "Epc.C88_partial",
    "Epc.C88_equality",
    "Epc.C88_equals_valid",
    "Epc.C88_from_tag_uri"
   ],
   "note": "False (C88_claim_false): the base classes check nothing. Proved instead: exactly the scheme classes have the property (C88_partial); equality across all classes is equality of URIs (C88_equality), so that an unvalidated object equals the validated one (C88_equals_valid); TagEncodable.from_tag_uri agrees with tag_uri_to_tag_encodable wherever the latter accepts, provided that it is told that GID has no filter value (C88_from_tag_uri)."
  },
  {
   "property": "C89",
   "status": "proved",
   "theorems": [
    "Epc.C89_accepts",
    "Epc.C89_serial",
    "Epc.C89_distinct",
    "Epc.C89_tag"
   ],
   "note": ""
  },
  {
   "property": "C90",
   "status": "partial",
   "theorems": [
    "Epc.C90_sgtin_claim_false",
    "Epc.C90_lgtin_claim_false",
    "Epc.C90_sgtin_partial",
    "Epc.C90_lgtin_partial"
   ],
   "note": "False for n > 14 (C90_*_claim_false): gtin_type=15 returns the last digit. Proved instead, for every integer n: up to 14 the last n digits if all others are zero, else ConvertException; from 15 to 28 the last n - 14 digits; above all 14."
  },
  {
   "property": "C91",
   "status": "proved",
   "theorems": [
    "Epc.Src.C91_constructors",
    "Epc.Src.C91_epc_uri",
    "Epc.Src.C91_element_strings",
    "Epc.Src.C91_gtin_plus_serial",
    "Epc.Src.C91_sgtin",
    "Epc.Src.C91_sscc",
    "Epc.Src.C91_sgln",
    "Epc.Src.C91_grai",
    "Epc.Src.C91_giai",
    "Epc.Src.C91_gsrn",
    "Epc.Src.C91_gsrnp",
    "Epc.Src.C91_gdti",
    "Epc.Src.C91_sgcn",
    "Epc.Src.C91_cpi",
    "Epc.Src.C91_itip",
    "Epc.Src.C91_usdod",
    "Epc.Src.C91_adi",
    "Epc.Src.C91_gid"
   ],
   "note": ""
  },
  {
   "property": "C92",
   "status": "proved",
   "theorems": [
    "Epc.Src.C92_element_strings",
    "Epc.Src.C92_keys",
    "Epc.Src.C92_gtin",
    "Epc.Src.C92_eq",
    "Epc.Src.C92_sgtin",
    "Epc.Src.C92_sscc",
    "Epc.Src.C92_sgln",
    "Epc.Src.C92_grai",
    "Epc.Src.C92_giai",
    "Epc.Src.C92_gsrn",
    "Epc.Src.C92_gsrnp",
    "Epc.Src.C92_gdti",
    "Epc.Src.C92_sgcn",
    "Epc.Src.C92_cpi",
    "Epc.Src.C92_itip",
    "Epc.Src.C92_usdod",
    "Epc.Src.C92_adi",
    "Epc.Src.C92_gid",
    "Epc.Src.C92_filters"
   ],
   "note": ""
  },
  {
   "property": "C93",
   "status": "proved",
   "theorems": [
    "Epc.Src.C93_epc_pure_identity_to_scheme",
    "Epc.Src.C93_epc_pure_identity_to_gs1_element",
    "Epc.Src.C93_epc_pure_identity_to_gs1_keyed",
    "Epc.Src.C93_epc_pure_identity_to_tag_encodable",
    "Epc.Src.C93_tag_uri_to_tag_encodable",
    "Epc.Src.C93_binary_to_tag_encodable",
    "Epc.Src.C93_hex_to_tag_encodable",
    "Epc.Src.C93_base64_to_tag_encodable",
    "Epc.Src.C93_epc_pure_identity_to_gs1_element_string",
    "Epc.Src.C93_epc_pure_identity_to_gs1_key",
    "Epc.Src.C93_gs1_element_string_to_gs1_element",
    "Epc.Src.C93_get_gs1_key"
   ],
   "note": ""
  },
  {
   "property": "C94",
   "status": "proved",
   "theorems": [
    "Epc.Src.C94_constructors",
    "Epc.Src.C94_tags",
    "Epc.Src.C94_element_strings",
    "Epc.Src.C94_written",
    "Epc.Src.C94_sgtin",
    "Epc.Src.C94_sscc",
    "Epc.Src.C94_sgln",
    "Epc.Src.C94_grai",
    "Epc.Src.C94_giai",
    "Epc.Src.C94_gsrn",
    "Epc.Src.C94_gsrnp",
    "Epc.Src.C94_gdti",
    "Epc.Src.C94_sgcn",
    "Epc.Src.C94_cpi",
    "Epc.Src.C94_itip",
    "Epc.Src.C94_usdod",
    "Epc.Src.C94_adi",
    "Epc.Src.C94_gid",
    "Epc.Src.C94_functions",
    "Epc.Src.C94_functions_more"
   ],
   "note": ""
  },
  {
   "property": "C95",
   "status": "proved",
   "theorems": [
    "Epc.Src.C95_sgtin_tag_uri",
    "Epc.Src.C95_sgtin_binary",
    "Epc.Src.C95_sscc_tag_uri",
    "Epc.Src.C95_sscc_tag_uri_default",
    "Epc.Src.C95_sscc_binary",
    "Epc.Src.C95_sscc_binary_default",
    "Epc.Src.C95_sgln_tag_uri",
    "Epc.Src.C95_sgln_binary",
    "Epc.Src.C95_grai_tag_uri",
    "Epc.Src.C95_grai_binary",
    "Epc.Src.C95_giai_tag_uri",
    "Epc.Src.C95_giai_binary",
    "Epc.Src.C95_gsrn_tag_uri",
    "Epc.Src.C95_gsrn_tag_uri_default",
    "Epc.Src.C95_gsrn_tag_uri_default_filter",
    "Epc.Src.C95_gsrn_binary",
    "Epc.Src.C95_gsrn_binary_default",
    "Epc.Src.C95_gsrn_binary_default_filter",
    "Epc.Src.C95_gsrnp_tag_uri",
    "Epc.Src.C95_gsrnp_tag_uri_default",
    "Epc.Src.C95_gsrnp_tag_uri_default_filter",
    "Epc.Src.C95_gsrnp_binary",
    "Epc.Src.C95_gsrnp_binary_default",
    "Epc.Src.C95_gsrnp_binary_default_filter",
    "Epc.Src.C95_gdti_tag_uri",
    "Epc.Src.C95_gdti_binary",
    "Epc.Src.C95_sgcn_tag_uri",
    "Epc.Src.C95_sgcn_tag_uri_default",
    "Epc.Src.C95_sgcn_binary",
    "Epc.Src.C95_sgcn_binary_default",
    "Epc.Src.C95_cpi_tag_uri",
    "Epc.Src.C95_cpi_binary",
    "Epc.Src.C95_itip_tag_uri",
    "Epc.Src.C95_itip_binary",
    "Epc.Src.C95_usdod_tag_uri",
    "Epc.Src.C95_usdod_tag_uri_default",
    "Epc.Src.C95_usdod_binary",
    "Epc.Src.C95_usdod_binary_default",
    "Epc.Src.C95_adi_tag_uri",
    "Epc.Src.C95_adi_tag_uri_default",
    "Epc.Src.C95_adi_binary",
    "Epc.Src.C95_adi_binary_default",
    "Epc.Src.C95_gid_tag_uri",
    "Epc.Src.C95_gid_binary",
    "Epc.Src.C95_gtin",
    "Epc.Src.C95_readers",
    "Epc.Src.C95_functions"
   ],
   "note": ""
  },
  {
   "property": "C96",
   "status": "proved",
   "theorems": [
    "Epc.Grammar.C96_compile",
    "Epc.Grammar.C96_uri",
    "Epc.Grammar.C96_epc_uri",
    "Epc.Grammar.C96_tag_uri",
    "Epc.Grammar.C96_idpat_uri",
    "Epc.Grammar.C96_itip_wildcards",
    "Epc.Grammar.C96_element_string",
    "Epc.Grammar.C96_element_string_classes",
    "Epc.Grammar.C96_gs1_element_string",
    "Epc.Grammar.C96_fields"
   ],
   "note": ""
  },
  {
   "property": "C97",
   "status": "proved",
   "theorems": [
    "Epc.Src.C97_chain",
    "Epc.Src.C97_uri",
    "Epc.Src.C97_parsed",
    "Epc.Src.C97_arrives"
   ],
   "note": ""
  },
  {
   "property": "C98",
   "status": "proved",
   "theorems": [
    "Epc.Src.C98_filters",
    "Epc.Src.C98_coding",
    "Epc.Src.C98_filter",
    "Epc.Src.C98_gtin",
    "Epc.Src.C98_serial"
   ],
   "note": ""
  },
  {
   "property": "C99",
   "status": "proved",
   "theorems": [
    "Epc.Src.C99_writers",
    "Epc.Src.C99_hex",
    "Epc.Src.C99_keys",
    "Epc.Src.C99_readers",
    "Epc.Src.C99_constructors",
    "Epc.Src.C99_functions"
   ],
   "note": ""
  },
  {
   "property": "C100",
   "status": "proved",
   "theorems": [
    "Epc.Src.C100_assignments",
    "Epc.Src.C100_object",
    "Epc.Src.C100_compared",
    "Epc.Src.C100_history"
   ],
   "note": ""
  },
  {
   "property": "C101",
   "status": "proved",
   "theorems": [
    "Epc.Src.C101_instance",
    "Epc.Src.C101_families",
    "Epc.Src.C101_missing",
    "Epc.Src.C101_base",
    "Epc.Src.C101_abstract",
    "Epc.Src.C101_abstract_readers",
    "Epc.Src.C101_equality",
    "Epc.Src.C101_from_tag_uri"
   ],
   "note": ""
  },
  {
   "property": "C102",
   "status": "proved",
   "theorems": [
    "Epc.Src.C102_attribute",
    "Epc.Src.C102_tag_uri",
    "Epc.Src.C102_calls",
    "Epc.Src.C102_undisturbed",
    "Epc.Src.C102_ends",
    "Epc.Src.C102_race"
   ],
   "note": ""
  },
  {
   "property": "C103",
   "status": "proved",
   "theorems": [
    "Epc.Src.C103_passing",
    "Epc.Src.C103_source",
    "Epc.Src.C103_pure",
    "Epc.Src.C103_unknown",
    "Epc.Src.C103_gtin_type"
   ],
   "note": ""
  },
  {
   "property": "C104",
   "status": "proved",
   "theorems": [
    "Epc.Src.C104_tags",
    "Epc.Src.C104_all",
    "Epc.Src.C104_gtin"
   ],
   "note": ""
  },
  {
   "property": "C105",
   "status": "proved",
   "theorems": [
    "Epc.C105_objects",
    "Epc.C105_uri",
    "Epc.C105_get_gs1_key",
    "Epc.C105_dot",
    "Epc.Src.C105_source",
    "Epc.Src.C105_get_gs1_key_source"
   ],
   "note": ""
  },
  {
   "property": "C106",
   "status": "proved",
   "theorems": [
    "Epc.C106_lgtin",
    "Epc.C106_upui",
    "Epc.C106_itip",
    "Epc.C106_lgtin_accepted",
    "Epc.C106_pgln",
    "Epc.C106_pgln_accepted",
    "Epc.C106_gsrnp",
    "Epc.Src.C106_source",
    "Epc.Src.C106_element_source"
   ],
   "note": ""
  },
  {
   "property": "C107",
   "status": "proved",
   "theorems": [
    "Epc.C107_keys",
    "Epc.C107_interchanged",
    "Epc.C107_elements",
    "Epc.C107_detected",
    "Epc.Src.C107_keys_source",
    "Epc.Src.C107_detected_source"
   ],
   "note": ""
  },
  {
   "property": "C108",
   "status": "proved",
   "theorems": [
    "Epc.C108_keys",
    "Epc.C108_same_length",
    "Epc.Src.C108_source"
   ],
   "note": ""
  },
  {
   "property": "C109",
   "status": "proved",
   "theorems": [
    "Epc.C109_fixed",
    "Epc.C109_fixed_hex",
    "Epc.C109_binary",
    "Epc.C109_hex",
    "Epc.Src.C109_source"
   ],
   "note": ""
  },
  {
   "property": "C110",
   "status": "proved",
   "theorems": [
    "Epc.Src.C110_item",
    "Epc.Src.C110_distinct"
   ],
   "note": ""
  },
  {
   "property": "C111",
   "status": "proved",
   "theorems": [
    "Epc.Src.C111_class",
    "Epc.Src.C111_label",
    "Epc.Src.C111_needed"
   ],
   "note": ""
  },
  {
   "property": "C112",
   "status": "proved",
   "theorems": [
    "Epc.Src.C112_binary",
    "Epc.Src.C112_hex",
    "Epc.Src.C112_base64",
    "Epc.Src.C112_always",
    "Epc.Src.C112_always_hex",
    "Epc.Src.C112_needed"
   ],
   "note": ""
  }
 ]
}