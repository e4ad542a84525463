Epc.C01_unescape_escape: propext, Classical.choice, Quot.sound
Epc.C01_escape_unescape_iff: propext, Classical.choice, Quot.sound
Epc.C01_escape_injective: propext, Classical.choice, Quot.sound
Epc.C01_escape_clean: propext, Classical.choice, Quot.sound
Epc.C02_int_roundtrip: propext, Classical.choice, Quot.sound
Epc.C02_int_bits: propext, Classical.choice, Quot.sound
Epc.C02_int_length: propext, Classical.choice, Quot.sound
Epc.C02_int_overflow: propext, Classical.choice, Quot.sound
Epc.C02_bits_roundtrip: propext, Classical.choice, Quot.sound
Epc.C02_str_to_binary: propext, Classical.choice, Quot.sound
Epc.C02_int_injective: propext, Classical.choice, Quot.sound
Epc.C03_binary_hex_binary: propext, Classical.choice, Quot.sound
Epc.C03_hex_base64_hex: propext, Classical.choice, Quot.sound
Epc.C03_hex_binary_length: propext, Classical.choice, Quot.sound
Epc.C03_hex_case: propext, Quot.sound
Epc.C03_base64_padding: propext, Classical.choice, Quot.sound
Epc.C04_seven_bit_roundtrip: propext, Classical.choice, Quot.sound
Epc.C04_seven_bit_injective: propext, Classical.choice, Quot.sound
Epc.C05_six_bit_roundtrip: propext, Classical.choice, Quot.sound
Epc.C05_six_bit_too_long: propext, Classical.choice, Quot.sound
Epc.C06_table_shape: propext, Quot.sound
Epc.C06_partition_roundtrip: propext, Classical.choice, Quot.sound
Epc.C06_partition_roundtrip_lengths: propext, Classical.choice, Quot.sound
Epc.C06_unpadded_roundtrip: propext, Classical.choice, Quot.sound
Epc.C06_string_roundtrip: propext, Classical.choice, Quot.sound
Epc.C06_six_bit_roundtrip: propext, Classical.choice, Quot.sound
Epc.C06_other_shapes: none
Epc.C07_numeric_string_roundtrip: propext, Classical.choice, Quot.sound
Epc.C07_numeric_string_accepts: propext, Classical.choice, Quot.sound
Epc.C07_numeric_string_12: propext, Classical.choice, Quot.sound
Epc.C07_numeric_string_rejects: propext
Epc.C08_counterexample_99: propext
Epc.C08_claim_false: propext
Epc.C08_fixed_width_partial: propext, Classical.choice, Quot.sound
Epc.C08_decode_range: propext
Epc.C09_check_digit: propext, Classical.choice, Quot.sound
Epc.C09_check_digit_string: propext, Classical.choice, Quot.sound
Epc.C09_detects_single_change: propext, Quot.sound
Epc.C09_detects_adjacent_swap: propext, Classical.choice, Quot.sound
Epc.C09_rejects_non_digit: propext, Quot.sound
Epc.C10_gsin_check_digit: propext, Classical.choice, Quot.sound
Epc.C10_gsin_agrees: propext, Quot.sound
Epc.C11_sgtin: propext, Classical.choice, Quot.sound
Epc.C11_sscc: propext, Quot.sound
Epc.C11_sgln: propext, Quot.sound
Epc.C11_grai: propext, Quot.sound
Epc.C11_gdti: propext, Quot.sound
Epc.C11_gsrn: propext, Quot.sound
Epc.C11_gsrnp: propext, Quot.sound
Epc.C11_cpi: propext, Quot.sound
Epc.C11_sgcn: propext, Quot.sound
Epc.C11_itip: propext, Quot.sound
Epc.C11_gid: propext, Classical.choice, Quot.sound
Epc.C11_usdod: propext, Classical.choice, Quot.sound
Epc.C11_adi: propext, Classical.choice, Quot.sound
Epc.C11_gsin: propext, Quot.sound
Epc.C11_pgln: propext, Quot.sound
Epc.C11_bic: propext, Classical.choice, Quot.sound
Epc.C11_imovn: propext, Classical.choice, Quot.sound
Epc.C11_upui: propext, Quot.sound
Epc.C11_lgtin: propext, Classical.choice, Quot.sound
Epc.C11_ginc: propext, Quot.sound
Epc.C11_giai_partial: propext, Quot.sound
Epc.C11_giai_nocolon_partial: propext, Quot.sound
Epc.C11_giai_claim_false: propext
Epc.C12_sscc: propext, Quot.sound
Epc.C12_sscc_ascii: propext, Quot.sound
Epc.C12_gsrn: propext, Quot.sound
Epc.C12_gsrn_ascii: propext, Quot.sound
Epc.C12_gsrnp: propext, Quot.sound
Epc.C12_gsrnp_ascii: propext, Quot.sound
Epc.C12_gsin: propext, Quot.sound
Epc.C12_gsin_ascii: propext, Quot.sound
Epc.C12_pgln: propext, Quot.sound
Epc.C12_pgln_ascii: propext, Quot.sound
Epc.C12_sgcn: propext, Quot.sound
Epc.C12_sgcn_ascii: propext, Quot.sound
Epc.C12_cpi: propext, Quot.sound
Epc.C12_cpi_ascii: propext, Quot.sound
Epc.C12_gid: propext, Classical.choice, Quot.sound
Epc.C12_gid_ascii: propext, Classical.choice, Quot.sound
Epc.C12_usdod: propext, Classical.choice, Quot.sound
Epc.C12_usdod_ascii: propext, Classical.choice, Quot.sound
Epc.C12_adi: propext, Classical.choice, Quot.sound
Epc.C12_bic: propext, Classical.choice, Quot.sound
Epc.C12_imovn: propext, Classical.choice, Quot.sound
Epc.C13_sscc: propext, Classical.choice, Quot.sound
Epc.C13_gsrn: propext, Classical.choice, Quot.sound
Epc.C13_gsrnp: propext, Classical.choice, Quot.sound
Epc.C13_gsin: propext, Classical.choice, Quot.sound
Epc.C13_pgln: propext, Classical.choice, Quot.sound
Epc.C13_sgcn: propext, Classical.choice, Quot.sound
Epc.C13_cpi: propext, Classical.choice, Quot.sound
Epc.C13_gid: propext, Classical.choice, Quot.sound
Epc.C13_usdod: propext, Classical.choice, Quot.sound
Epc.C13_adi: propext, Classical.choice, Quot.sound
Epc.C13_bic: propext, Classical.choice, Quot.sound
Epc.C13_imovn: propext, Classical.choice, Quot.sound
Epc.C13_claim_false: propext
Epc.C13_overflow_witness: propext
Epc.C13_sgtin_exceptions_partial: propext, Classical.choice, Quot.sound
Epc.C13_sgtin_partial: propext, Classical.choice, Quot.sound
Epc.C13_sgln_exceptions_partial: propext, Classical.choice, Quot.sound
Epc.C13_sgln_partial: propext, Classical.choice, Quot.sound
Epc.C13_grai_exceptions_partial: propext, Classical.choice, Quot.sound
Epc.C13_grai_partial: propext, Classical.choice, Quot.sound
Epc.C13_gdti_exceptions_partial: propext, Classical.choice, Quot.sound
Epc.C13_gdti_partial: propext, Classical.choice, Quot.sound
Epc.C13_giai_exceptions_partial: propext, Classical.choice, Quot.sound
Epc.C13_giai_partial: propext, Classical.choice, Quot.sound
Epc.C13_ginc_exceptions_partial: propext, Classical.choice, Quot.sound
Epc.C13_ginc_partial: propext, Classical.choice, Quot.sound
Epc.C13_upui_exceptions_partial: propext, Classical.choice, Quot.sound
Epc.C13_upui_partial: propext, Classical.choice, Quot.sound
Epc.C13_lgtin_exceptions_partial: propext, Classical.choice, Quot.sound
Epc.C13_lgtin_partial: propext, Classical.choice, Quot.sound
Epc.C13_itip_exceptions_partial: propext, Classical.choice, Quot.sound
Epc.C13_itip_partial: propext, Classical.choice, Quot.sound
Epc.C14_claim_false: propext
Epc.C14_sgtin_partial: propext, Classical.choice, Quot.sound
Epc.C14_sgtin_ascii_partial: propext, Classical.choice, Quot.sound
Epc.C14_sscc_partial: propext, Quot.sound
Epc.C14_sscc_ascii_partial: propext, Quot.sound
Epc.C14_sgln_partial: propext, Quot.sound
Epc.C14_sgln_ascii_partial: propext, Quot.sound
Epc.C14_grai_partial: propext, Quot.sound
Epc.C14_grai_ascii_partial: propext, Quot.sound
Epc.C14_gdti_partial: propext, Quot.sound
Epc.C14_gdti_ascii_partial: propext, Quot.sound
Epc.C14_giai_partial: propext, Quot.sound
Epc.C14_giai_ascii_partial: propext, Quot.sound
Epc.C14_gsrn_partial: propext, Quot.sound
Epc.C14_gsrn_ascii_partial: propext, Quot.sound
Epc.C14_gsrnp_partial: propext, Quot.sound
Epc.C14_gsrnp_ascii_partial: propext, Quot.sound
Epc.C14_gsin_partial: propext, Quot.sound
Epc.C14_gsin_ascii_partial: propext, Quot.sound
Epc.C14_pgln_partial: propext, Quot.sound
Epc.C14_pgln_ascii_partial: propext, Quot.sound
Epc.C14_sgcn_partial: propext, Quot.sound
Epc.C14_sgcn_ascii_partial: propext, Quot.sound
Epc.C14_cpi_partial: propext, Quot.sound
Epc.C14_cpi_ascii_partial: propext, Quot.sound
Epc.C14_upui_partial: propext, Quot.sound
Epc.C14_upui_ascii_partial: propext, Quot.sound
Epc.C14_lgtin_partial: propext, Classical.choice, Quot.sound
Epc.C14_lgtin_ascii_partial: propext, Classical.choice, Quot.sound
Epc.C14_itip_partial: propext, Quot.sound
Epc.C14_itip_ascii_partial: propext, Quot.sound
Epc.C14_gid_partial: propext, Classical.choice, Quot.sound
Epc.C14_gid_ascii_partial: propext, Classical.choice, Quot.sound
Epc.C14_usdod_partial: propext, Classical.choice, Quot.sound
Epc.C14_usdod_ascii_partial: propext, Classical.choice, Quot.sound
Epc.C14_bic: propext, Classical.choice, Quot.sound
Epc.C14_imovn: propext, Classical.choice, Quot.sound
Epc.C15_claim_false: propext
Epc.C15_condition_plain: propext
Epc.C15_sgtin_partial: propext, Classical.choice, Quot.sound
Epc.C15_lgtin_partial: propext, Classical.choice, Quot.sound
Epc.C15_sgln_partial: propext, Classical.choice, Quot.sound
Epc.C15_grai_partial: propext, Classical.choice, Quot.sound
Epc.C15_gdti_partial: propext, Classical.choice, Quot.sound
Epc.C15_upui_partial: propext, Classical.choice, Quot.sound
Epc.C15_itip_partial: propext, Classical.choice, Quot.sound
Epc.C15_ginc_partial: propext, Classical.choice, Quot.sound
Epc.C15_giai_partial: propext, Classical.choice, Quot.sound
Epc.C16_sgtin: propext, Classical.choice, Quot.sound
Epc.C16_sscc: propext, Classical.choice, Quot.sound
Epc.C16_sgln: propext, Classical.choice, Quot.sound
Epc.C16_grai: propext, Classical.choice, Quot.sound
Epc.C16_gsrn: propext, Classical.choice, Quot.sound
Epc.C16_gsrnp: propext, Classical.choice, Quot.sound
Epc.C16_gdti: propext, Classical.choice, Quot.sound
Epc.C16_cpi: propext, Classical.choice, Quot.sound
Epc.C16_sgcn: propext, Classical.choice, Quot.sound
Epc.C16_itip: propext, Classical.choice, Quot.sound
Epc.C16_usdod: propext, Classical.choice, Quot.sound
Epc.C16_adi: propext, Classical.choice, Quot.sound
Epc.C16_gid: propext, Classical.choice, Quot.sound
Epc.C16_giai_claim_false: propext
Epc.C16_giai_partial: propext, Classical.choice, Quot.sound
Epc.C16_giai_components_partial: propext, Classical.choice, Quot.sound
Epc.C17_sgtin: propext, Classical.choice, Quot.sound
Epc.C17_sgln: propext, Classical.choice, Quot.sound
Epc.C17_grai: propext, Classical.choice, Quot.sound
Epc.C17_gdti: propext, Classical.choice, Quot.sound
Epc.C17_itip: propext, Classical.choice, Quot.sound
Epc.C17_giai: propext, Classical.choice, Quot.sound
Epc.C17_cpi: propext, Classical.choice, Quot.sound
Epc.C18_sgtin: propext, Classical.choice, Quot.sound
Epc.C18_sscc: propext, Quot.sound
Epc.C18_sgln: propext, Quot.sound
Epc.C18_grai: propext, Quot.sound
Epc.C18_giai: propext, Quot.sound
Epc.C18_gsrn: propext, Quot.sound
Epc.C18_gsrnp: propext, Quot.sound
Epc.C18_gdti: propext, Quot.sound
Epc.C18_cpi: propext, Quot.sound
Epc.C18_sgcn: propext, Quot.sound
Epc.C18_itip: propext, Quot.sound
Epc.C18_usdod: propext, Classical.choice, Quot.sound
Epc.C18_adi: propext, Classical.choice, Quot.sound
Epc.C18_gid: propext, Classical.choice, Quot.sound
Epc.C18_rejects_others: propext, Classical.choice, Quot.sound
Epc.C18_unique: propext, Classical.choice, Quot.sound
Epc.C18_parser_iff: propext, Classical.choice, Quot.sound
Epc.C18_parser: propext, Classical.choice, Quot.sound
Epc.C19_filter_sgtin: propext, Classical.choice, Quot.sound
Epc.C19_sgtin: propext, Classical.choice, Quot.sound
Epc.C19_filter_sscc: propext, Classical.choice, Quot.sound
Epc.C19_sscc: propext, Classical.choice, Quot.sound
Epc.C19_filter_sgln: propext, Classical.choice, Quot.sound
Epc.C19_sgln: propext, Classical.choice, Quot.sound
Epc.C19_filter_grai: propext, Classical.choice, Quot.sound
Epc.C19_grai: propext, Classical.choice, Quot.sound
Epc.C19_filter_giai: propext, Classical.choice, Quot.sound
Epc.C19_giai: propext, Classical.choice, Quot.sound
Epc.C19_filter_gsrn: propext, Classical.choice, Quot.sound
Epc.C19_gsrn: propext, Classical.choice, Quot.sound
Epc.C19_filter_gsrnp: propext, Classical.choice, Quot.sound
Epc.C19_gsrnp: propext, Classical.choice, Quot.sound
Epc.C19_filter_gdti: propext, Classical.choice, Quot.sound
Epc.C19_gdti: propext, Classical.choice, Quot.sound
Epc.C19_filter_cpi: propext, Classical.choice, Quot.sound
Epc.C19_cpi: propext, Classical.choice, Quot.sound
Epc.C19_filter_sgcn: propext, Classical.choice, Quot.sound
Epc.C19_sgcn: propext, Classical.choice, Quot.sound
Epc.C19_filter_itip: propext, Classical.choice, Quot.sound
Epc.C19_itip_partial: propext, Classical.choice, Quot.sound
Epc.C19_gid: propext
Epc.C19_filter_usdod: propext, Classical.choice, Quot.sound
Epc.C19_usdod: propext, Classical.choice, Quot.sound
Epc.C19_filter_adi: propext, Classical.choice, Quot.sound
Epc.C19_adi: propext, Classical.choice, Quot.sound
Epc.C19_itip_claim_false: propext, Quot.sound
Epc.C20_sgtin96: propext, Classical.choice, Quot.sound
Epc.C20_sgtin198_partial: propext, Classical.choice, Quot.sound
Epc.C20_sscc96: propext, Classical.choice, Quot.sound
Epc.C20_sgln96: propext, Classical.choice, Quot.sound
Epc.C20_sgln195_partial: propext, Classical.choice, Quot.sound
Epc.C20_grai96: propext, Classical.choice, Quot.sound
Epc.C20_grai170_partial: propext, Classical.choice, Quot.sound
Epc.C20_giai96: propext, Classical.choice, Quot.sound
Epc.C20_giai202_partial: propext, Classical.choice, Quot.sound
Epc.C20_gsrn96: propext, Classical.choice, Quot.sound
Epc.C20_gsrnp96: propext, Classical.choice, Quot.sound
Epc.C20_gdti96: propext, Classical.choice, Quot.sound
Epc.C20_gdti174_partial: propext, Classical.choice, Quot.sound
Epc.C20_cpi96: propext, Classical.choice, Quot.sound
Epc.C20_cpi_var: propext, Classical.choice, Quot.sound
Epc.C20_sgcn96: propext, Classical.choice, Quot.sound
Epc.C20_itip110_partial: propext, Classical.choice, Quot.sound
Epc.C20_itip212_partial: propext, Classical.choice, Quot.sound
Epc.C20_gid96: propext, Classical.choice, Quot.sound
Epc.C20_usdod96: propext, Classical.choice, Quot.sound
Epc.C20_adi_var: propext, Classical.choice, Quot.sound
Epc.C20_claim_false: propext
Epc.C20_itip_99: propext, Classical.choice, Quot.sound
Epc.C21_sgtin96: propext, Classical.choice, Quot.sound
Epc.C21_sscc96: propext, Classical.choice, Quot.sound
Epc.C21_sgln96: propext, Classical.choice, Quot.sound
Epc.C21_grai96: propext, Classical.choice, Quot.sound
Epc.C21_giai96_partial: propext, Classical.choice, Quot.sound
Epc.C21_gsrn96: propext, Classical.choice, Quot.sound
Epc.C21_gsrnp96: propext, Classical.choice, Quot.sound
Epc.C21_gdti96: propext, Classical.choice, Quot.sound
Epc.C21_cpi96: propext, Classical.choice, Quot.sound
Epc.C21_sgcn96: propext, Classical.choice, Quot.sound
Epc.C21_itip110_partial: propext, Classical.choice, Quot.sound
Epc.C21_gid96: propext, Classical.choice, Quot.sound
Epc.C21_usdod96: propext, Classical.choice, Quot.sound
Epc.C21_giai_claim_false: propext
Epc.C21_itip_claim_false: propext
Epc.C21_itip_lengths_counterexample: propext
Epc.C22_sgtin198: propext, Classical.choice, Quot.sound
Epc.C22_sgln195: propext, Classical.choice, Quot.sound
Epc.C22_grai170: propext, Classical.choice, Quot.sound
Epc.C22_giai202_partial: propext, Classical.choice, Quot.sound
Epc.C22_gdti174: propext, Classical.choice, Quot.sound
Epc.C22_itip212_partial: propext, Classical.choice, Quot.sound
Epc.C22_giai_claim_false: propext
Epc.C22_canonical_counterexample: propext
Epc.C23_cpi: propext, Classical.choice, Quot.sound
Epc.C23_cpi_any: propext, Classical.choice, Quot.sound
Epc.C23_adi_partial: propext, Classical.choice, Quot.sound
Epc.C23_adi_fails: propext, Classical.choice, Quot.sound
Epc.C23_adi_part: propext, Classical.choice, Quot.sound
Epc.C23_adi_claim_false: propext, Classical.choice, Quot.sound
Epc.C24_sgtin96: propext, Classical.choice, Quot.sound
Epc.C24_sgtin198: propext, Classical.choice, Quot.sound
Epc.C24_sscc96: propext, Classical.choice, Quot.sound
Epc.C24_sgln96: propext, Classical.choice, Quot.sound
Epc.C24_sgln195: propext, Classical.choice, Quot.sound
Epc.C24_grai96: propext, Classical.choice, Quot.sound
Epc.C24_grai170: propext, Classical.choice, Quot.sound
Epc.C24_giai96_partial: propext, Classical.choice, Quot.sound
Epc.C24_giai202_partial: propext, Classical.choice, Quot.sound
Epc.C24_gsrn96: propext, Classical.choice, Quot.sound
Epc.C24_gsrnp96: propext, Classical.choice, Quot.sound
Epc.C24_gdti96: propext, Classical.choice, Quot.sound
Epc.C24_gdti174: propext, Classical.choice, Quot.sound
Epc.C24_cpi96: propext, Classical.choice, Quot.sound
Epc.C24_cpi_var: propext, Classical.choice, Quot.sound
Epc.C24_sgcn96: propext, Classical.choice, Quot.sound
Epc.C24_itip110_partial: propext, Classical.choice, Quot.sound
Epc.C24_itip212_partial: propext, Classical.choice, Quot.sound
Epc.C24_gid96: propext, Classical.choice, Quot.sound
Epc.C24_usdod96: propext, Classical.choice, Quot.sound
Epc.C24_adi_var: propext, Classical.choice, Quot.sound
Epc.C24_giai_claim_false: propext
Epc.C24_itip_lengths_counterexample: propext
Epc.C25_sgtin: propext, Classical.choice, Quot.sound
Epc.C25_sgtin96: propext, Classical.choice, Quot.sound
Epc.C25_sgtin198: propext, Classical.choice, Quot.sound
Epc.C25_sscc: propext, Classical.choice, Quot.sound
Epc.C25_sscc96: propext, Classical.choice, Quot.sound
Epc.C25_sgln: propext, Classical.choice, Quot.sound
Epc.C25_sgln96: propext, Classical.choice, Quot.sound
Epc.C25_sgln195: propext, Classical.choice, Quot.sound
Epc.C25_grai: propext, Classical.choice, Quot.sound
Epc.C25_grai96: propext, Classical.choice, Quot.sound
Epc.C25_grai170: propext, Classical.choice, Quot.sound
Epc.C25_giai: propext, Classical.choice, Quot.sound
Epc.C25_giai96_partial: propext, Classical.choice, Quot.sound
Epc.C25_giai202_partial: propext, Classical.choice, Quot.sound
Epc.C25_gsrn: propext, Classical.choice, Quot.sound
Epc.C25_gsrn96: propext, Classical.choice, Quot.sound
Epc.C25_gsrnp: propext, Classical.choice, Quot.sound
Epc.C25_gsrnp96: propext, Classical.choice, Quot.sound
Epc.C25_gdti: propext, Classical.choice, Quot.sound
Epc.C25_gdti96: propext, Classical.choice, Quot.sound
Epc.C25_gdti174: propext, Classical.choice, Quot.sound
Epc.C25_cpi: propext, Classical.choice, Quot.sound
Epc.C25_cpi96: propext, Classical.choice, Quot.sound
Epc.C25_cpi_var: propext, Classical.choice, Quot.sound
Epc.C25_sgcn: propext, Classical.choice, Quot.sound
Epc.C25_sgcn96: propext, Classical.choice, Quot.sound
Epc.C25_itip: propext, Classical.choice, Quot.sound
Epc.C25_itip110_partial: propext, Classical.choice, Quot.sound
Epc.C25_itip212_partial: propext, Classical.choice, Quot.sound
Epc.C25_gid: propext, Classical.choice, Quot.sound
Epc.C25_gid96: propext, Classical.choice, Quot.sound
Epc.C25_usdod: propext, Classical.choice, Quot.sound
Epc.C25_usdod96: propext, Classical.choice, Quot.sound
Epc.C25_adi: propext, Classical.choice, Quot.sound
Epc.C25_adi_var_partial: propext, Classical.choice, Quot.sound
Epc.C26_sgtin: propext, Classical.choice, Quot.sound
Epc.C26_sgtin96: propext, Classical.choice, Quot.sound
Epc.C26_sgtin198: propext, Classical.choice, Quot.sound
Epc.C26_sscc: propext, Classical.choice, Quot.sound
Epc.C26_sscc96: propext, Classical.choice, Quot.sound
Epc.C26_sgln: propext, Classical.choice, Quot.sound
Epc.C26_sgln96: propext, Classical.choice, Quot.sound
Epc.C26_sgln195: propext, Classical.choice, Quot.sound
Epc.C26_grai: propext, Classical.choice, Quot.sound
Epc.C26_grai96: propext, Classical.choice, Quot.sound
Epc.C26_grai170: propext, Classical.choice, Quot.sound
Epc.C26_giai: propext, Classical.choice, Quot.sound
Epc.C26_giai96_partial: propext, Classical.choice, Quot.sound
Epc.C26_giai202_partial: propext, Classical.choice, Quot.sound
Epc.C26_gsrn: propext, Classical.choice, Quot.sound
Epc.C26_gsrn96: propext, Classical.choice, Quot.sound
Epc.C26_gsrnp: propext, Classical.choice, Quot.sound
Epc.C26_gsrnp96: propext, Classical.choice, Quot.sound
Epc.C26_gdti: propext, Classical.choice, Quot.sound
Epc.C26_gdti96: propext, Classical.choice, Quot.sound
Epc.C26_gdti174: propext, Classical.choice, Quot.sound
Epc.C26_cpi: propext, Classical.choice, Quot.sound
Epc.C26_cpi96: propext, Classical.choice, Quot.sound
Epc.C26_cpi_var: propext, Classical.choice, Quot.sound
Epc.C26_sgcn: propext, Classical.choice, Quot.sound
Epc.C26_sgcn96: propext, Classical.choice, Quot.sound
Epc.C26_itip: propext, Classical.choice, Quot.sound
Epc.C26_itip110_partial: propext, Classical.choice, Quot.sound
Epc.C26_itip212_partial: propext, Classical.choice, Quot.sound
Epc.C26_gid: propext, Classical.choice, Quot.sound
Epc.C26_gid96: propext, Classical.choice, Quot.sound
Epc.C26_usdod: propext, Classical.choice, Quot.sound
Epc.C26_usdod96: propext, Classical.choice, Quot.sound
Epc.C26_adi: propext, Classical.choice, Quot.sound
Epc.C26_adi_var_partial: propext, Classical.choice, Quot.sound
Epc.C27_sgtin96: propext, Classical.choice, Quot.sound
Epc.C27_sgtin198: propext, Classical.choice, Quot.sound
Epc.C27_sscc96: propext, Classical.choice, Quot.sound
Epc.C27_sgln96: propext, Classical.choice, Quot.sound
Epc.C27_sgln195: propext, Classical.choice, Quot.sound
Epc.C27_grai96: propext, Classical.choice, Quot.sound
Epc.C27_grai170: propext, Classical.choice, Quot.sound
Epc.C27_giai96: propext, Classical.choice, Quot.sound
Epc.C27_giai202: propext, Classical.choice, Quot.sound
Epc.C27_gsrn96: propext, Classical.choice, Quot.sound
Epc.C27_gsrnp96: propext, Classical.choice, Quot.sound
Epc.C27_gdti96: propext, Classical.choice, Quot.sound
Epc.C27_gdti174: propext, Classical.choice, Quot.sound
Epc.C27_cpi96: propext, Classical.choice, Quot.sound
Epc.C27_sgcn96: propext, Classical.choice, Quot.sound
Epc.C27_itip110: propext, Classical.choice, Quot.sound
Epc.C27_itip212: propext, Classical.choice, Quot.sound
Epc.C27_gid96: propext, Classical.choice, Quot.sound
Epc.C27_usdod96: propext, Classical.choice, Quot.sound
Epc.C28_sgtin96: propext, Classical.choice, Quot.sound
Epc.C28_sgtin198: propext, Classical.choice, Quot.sound
Epc.C28_sscc96: propext, Classical.choice, Quot.sound
Epc.C28_sgln96: propext, Classical.choice, Quot.sound
Epc.C28_sgln195: propext, Classical.choice, Quot.sound
Epc.C28_grai96: propext, Classical.choice, Quot.sound
Epc.C28_grai170: propext, Classical.choice, Quot.sound
Epc.C28_giai96: propext, Classical.choice, Quot.sound
Epc.C28_giai202: propext, Classical.choice, Quot.sound
Epc.C28_gsrn96: propext, Classical.choice, Quot.sound
Epc.C28_gsrnp96: propext, Classical.choice, Quot.sound
Epc.C28_gdti96: propext, Classical.choice, Quot.sound
Epc.C28_gdti174: propext, Classical.choice, Quot.sound
Epc.C28_cpi96: propext, Classical.choice, Quot.sound
Epc.C28_sgcn96: propext, Classical.choice, Quot.sound
Epc.C28_itip110: propext, Classical.choice, Quot.sound
Epc.C28_itip212: propext, Classical.choice, Quot.sound
Epc.C28_gid96: propext, Classical.choice, Quot.sound
Epc.C28_usdod96: propext, Classical.choice, Quot.sound
Epc.C29_parser_partial: propext
Epc.C29_claim_false: propext
Epc.C29_sgtin_key: propext
Epc.C29_sscc_key: propext
Epc.C29_sgln_key: propext
Epc.C29_grai_key: propext
Epc.C29_giai_key: propext
Epc.C29_gsrn_key: propext
Epc.C29_gsrnp_key: propext
Epc.C29_gdti_key: propext
Epc.C29_cpi_key: propext
Epc.C29_sgcn_key: propext
Epc.C29_itip_key: propext
Epc.C29_gid_key: propext
Epc.C29_usdod_key: propext
Epc.C29_adi_key: propext
Epc.C30_sgtin96: propext, Classical.choice, Quot.sound
Epc.C30_sscc96: propext, Classical.choice, Quot.sound
Epc.C30_sgln96_partial: propext, Classical.choice, Quot.sound
Epc.C30_grai96_partial: propext, Classical.choice, Quot.sound
Epc.C30_giai96: propext, Classical.choice, Quot.sound
Epc.C30_gsrn96: propext, Classical.choice, Quot.sound
Epc.C30_gsrnp96: propext, Classical.choice, Quot.sound
Epc.C30_gdti96_partial: propext, Classical.choice, Quot.sound
Epc.C30_cpi96: propext, Classical.choice, Quot.sound
Epc.C30_sgcn96_partial: propext, Classical.choice, Quot.sound
Epc.C30_gid96: propext, Classical.choice, Quot.sound
Epc.C30_claim_false: propext, Quot.sound
Epc.C31_sgtin96: propext, Classical.choice, Quot.sound
Epc.C31_sgtin198: propext, Classical.choice, Quot.sound
Epc.C31_sscc96: propext, Classical.choice, Quot.sound
Epc.C31_sgln96_partial: propext, Classical.choice, Quot.sound
Epc.C31_sgln195_partial: propext, Classical.choice, Quot.sound
Epc.C31_grai96_partial: propext, Classical.choice, Quot.sound
Epc.C31_grai170_partial: propext, Classical.choice, Quot.sound
Epc.C31_giai96: propext, Classical.choice, Quot.sound
Epc.C31_giai202: propext, Classical.choice, Quot.sound
Epc.C31_gsrn96: propext, Classical.choice, Quot.sound
Epc.C31_gsrnp96: propext, Classical.choice, Quot.sound
Epc.C31_gdti96_partial: propext, Classical.choice, Quot.sound
Epc.C31_gdti174_partial: propext, Classical.choice, Quot.sound
Epc.C31_cpi96: propext, Classical.choice, Quot.sound
Epc.C31_sgcn96_partial: propext, Classical.choice, Quot.sound
Epc.C31_itip110: propext, Classical.choice, Quot.sound
Epc.C31_itip212: propext, Classical.choice, Quot.sound
Epc.C31_cpiVar: propext, Classical.choice, Quot.sound
Epc.C31_claim_false: propext
Epc.C32_sgtin_partial: propext, Classical.choice, Quot.sound
Epc.C32_lgtin_partial: propext, Classical.choice, Quot.sound
Epc.C32_upui_partial: propext, Classical.choice, Quot.sound
Epc.C32_itip_partial: propext, Classical.choice, Quot.sound
Epc.C32_sgln_partial: propext, Classical.choice, Quot.sound
Epc.C32_sscc: propext, Classical.choice, Quot.sound
Epc.C32_gsrn: propext, Classical.choice, Quot.sound
Epc.C32_gsrnp: propext, Classical.choice, Quot.sound
Epc.C32_pgln: propext, Classical.choice, Quot.sound
Epc.C32_gsin: propext, Classical.choice, Quot.sound
Epc.C32_grai: propext, Classical.choice, Quot.sound
Epc.C32_gdti: propext, Classical.choice, Quot.sound
Epc.C32_sgcn: propext, Classical.choice, Quot.sound
Epc.C32_giai_partial: propext, Classical.choice, Quot.sound
Epc.C32_ginc: propext, Classical.choice, Quot.sound
Epc.C32_cpi: propext, Classical.choice, Quot.sound
Epc.C32_sgtin_claim_false: propext, Quot.sound
Epc.C32_sgln_claim_false: propext, Quot.sound
Epc.C32_itip_claim_false: propext, Quot.sound
Epc.C32_lgtin_claim_false: propext, Quot.sound
Epc.C32_giai_claim_false: propext, Quot.sound
Epc.C33_sgtin: propext, Classical.choice, Quot.sound
Epc.C33_lgtin: propext, Classical.choice, Quot.sound
Epc.C33_sscc: propext, Classical.choice, Quot.sound
Epc.C33_gsrn: propext, Classical.choice, Quot.sound
Epc.C33_gsrnp: propext, Classical.choice, Quot.sound
Epc.C33_gsin: propext, Classical.choice, Quot.sound
Epc.C33_pgln: propext, Classical.choice, Quot.sound
Epc.C33_sgln: propext, Classical.choice, Quot.sound
Epc.C33_grai: propext, Classical.choice, Quot.sound
Epc.C33_gdti: propext, Classical.choice, Quot.sound
Epc.C33_sgcn: propext, Classical.choice, Quot.sound
Epc.C33_giai: propext, Classical.choice, Quot.sound
Epc.C33_ginc: propext, Classical.choice, Quot.sound
Epc.C34_sgtin: propext, Classical.choice, Quot.sound
Epc.C34_lgtin: propext, Classical.choice, Quot.sound
Epc.C35_rebuild: propext, Classical.choice, Quot.sound
Epc.C35_gtin: propext, Classical.choice, Quot.sound
Epc.C36_sgtin_partial: propext, Classical.choice, Quot.sound
Epc.C36_sgtin_claim_false: propext, Quot.sound
Epc.C36_lgtin_partial: propext, Classical.choice, Quot.sound
Epc.C36_lgtin_claim_false: propext, Quot.sound
Epc.C36_upui_partial: propext, Classical.choice, Quot.sound
Epc.C36_upui_claim_false: propext, Quot.sound
Epc.C36_itip_partial: propext, Classical.choice, Quot.sound
Epc.C36_itip_claim_false: propext, Quot.sound
Epc.C36_sscc_partial: propext, Classical.choice, Quot.sound
Epc.C36_sscc_claim_false: propext, Quot.sound
Epc.C36_gsrn_partial: propext, Classical.choice, Quot.sound
Epc.C36_gsrn_claim_false: propext, Quot.sound
Epc.C36_gsrnp_partial: propext, Classical.choice, Quot.sound
Epc.C36_gsrnp_claim_false: propext, Quot.sound
Epc.C36_pgln_partial: propext, Classical.choice, Quot.sound
Epc.C36_pgln_claim_false: propext, Quot.sound
Epc.C36_gsin_partial: propext, Classical.choice, Quot.sound
Epc.C36_gsin_claim_false: propext, Quot.sound
Epc.C36_sgln_partial: propext, Classical.choice, Quot.sound
Epc.C36_sgln_claim_false: propext, Quot.sound
Epc.C36_grai_partial: propext, Classical.choice, Quot.sound
Epc.C36_grai_claim_false: propext, Quot.sound
Epc.C36_gdti_partial: propext, Classical.choice, Quot.sound
Epc.C36_gdti_claim_false: propext, Quot.sound
Epc.C36_sgcn_partial: propext, Classical.choice, Quot.sound
Epc.C36_sgcn_claim_false: propext, Quot.sound
Epc.C36_giai_partial: propext, Classical.choice, Quot.sound
Epc.C36_giai_claim_false: propext, Quot.sound
Epc.C36_ginc_partial: propext, Classical.choice, Quot.sound
Epc.C36_ginc_claim_false: propext, Quot.sound
Epc.C36_cpi: propext, Classical.choice, Quot.sound
Epc.C37_disjoint: propext, Classical.choice, Quot.sound
Epc.C37_classes: propext, Quot.sound
Epc.C37_matched: propext, Classical.choice, Quot.sound
Epc.C37_unmatched: propext, Quot.sound
Epc.C37_order: propext, Classical.choice, Quot.sound
Epc.C37_dispatch_class: propext, Classical.choice, Quot.sound
Epc.C37_dispatch: propext, Classical.choice, Quot.sound
Epc.C38_dispatch: propext, Quot.sound
Epc.C38_unknown: propext, Quot.sound
Epc.C38_no_name: propext, Quot.sound
Epc.C38_cases: propext, Classical.choice, Quot.sound
Epc.C38_accepted: propext, Classical.choice, Quot.sound
Epc.C38_returns: propext, Classical.choice, Quot.sound
Epc.C38_variants: propext
Epc.C38_strings: propext
Epc.C38_classes: propext
Epc.C39_headers_distinct: propext
Epc.C39_headers_complete: propext, Quot.sound
Epc.C39_table: propext, Classical.choice, Quot.sound
Epc.C39_unknown: propext, Quot.sound
Epc.C39_sgtin: propext, Classical.choice, Quot.sound
Epc.C39_sscc: propext, Classical.choice, Quot.sound
Epc.C39_sgln: propext, Classical.choice, Quot.sound
Epc.C39_grai: propext, Classical.choice, Quot.sound
Epc.C39_giai: propext, Classical.choice, Quot.sound
Epc.C39_gsrn: propext, Classical.choice, Quot.sound
Epc.C39_gsrnp: propext, Classical.choice, Quot.sound
Epc.C39_gdti: propext, Classical.choice, Quot.sound
Epc.C39_cpi: propext, Classical.choice, Quot.sound
Epc.C39_sgcn: propext, Classical.choice, Quot.sound
Epc.C39_itip: propext, Classical.choice, Quot.sound
Epc.C39_gid: propext, Classical.choice, Quot.sound
Epc.C39_usdod: propext, Classical.choice, Quot.sound
Epc.C39_adi: propext, Classical.choice, Quot.sound
Epc.C40_uri: propext, Classical.choice, Quot.sound
Epc.C40_element_string: propext, Classical.choice, Quot.sound
Epc.C40_element_string_without_length: propext, Quot.sound
Epc.C40_tag_uri: propext, Classical.choice, Quot.sound
Epc.C40_sgtin: propext, Classical.choice, Quot.sound
Epc.C40_sscc: propext, Classical.choice, Quot.sound
Epc.C40_sgln: propext, Classical.choice, Quot.sound
Epc.C40_grai: propext, Classical.choice, Quot.sound
Epc.C40_giai: propext, Classical.choice, Quot.sound
Epc.C40_gsrn: propext, Classical.choice, Quot.sound
Epc.C40_gsrnp: propext, Classical.choice, Quot.sound
Epc.C40_gdti: propext, Classical.choice, Quot.sound
Epc.C40_sgcn: propext, Classical.choice, Quot.sound
Epc.C41_sgtin: propext, Classical.choice, Quot.sound
Epc.C41_sgln: propext, Classical.choice, Quot.sound
Epc.C41_grai_claim_false: propext
Epc.C41_grai_partial: propext, Classical.choice, Quot.sound
Epc.C41_gdti_claim_false: propext
Epc.C41_gdti_partial: propext, Classical.choice, Quot.sound
Epc.C41_sgtin_two_wildcards: propext, Classical.choice, Quot.sound
Epc.C41_sgln_two_wildcards: propext, Classical.choice, Quot.sound
Epc.C41_grai_two_wildcards: propext, Classical.choice, Quot.sound
Epc.C41_gdti_two_wildcards: propext, Classical.choice, Quot.sound
Epc.C41_sgcn_two_wildcards: propext, Classical.choice, Quot.sound
Epc.C41_two_of_two: propext, Classical.choice, Quot.sound
Epc.C41_other_schemes: propext, Quot.sound
Epc.C42_refused: propext, Classical.choice, Quot.sound
Epc.C43_iff: propext
Epc.C43_object: propext
Epc.C43_equivalence: propext
Epc.C43_accepted: propext, Classical.choice, Quot.sound
Epc.C43_observations: propext, Classical.choice, Quot.sound
Epc.C43_distinct_uris: propext, Classical.choice, Quot.sound
Epc.C44_hex_to_tag_encodable: propext, Quot.sound
Epc.C44_sgtin: propext, Quot.sound
Epc.C44_sscc: propext, Quot.sound
Epc.C44_sgln: propext, Quot.sound
Epc.C44_grai: propext, Quot.sound
Epc.C44_giai: propext, Quot.sound
Epc.C44_gid: propext, Quot.sound
Epc.C44_gsrn: propext, Quot.sound
Epc.C44_gsrnp: propext, Quot.sound
Epc.C44_gdti: propext, Quot.sound
Epc.C44_cpi: propext, Quot.sound
Epc.C44_sgcn: propext, Quot.sound
Epc.C44_usdod: propext, Quot.sound
Epc.C44_adi: propext, Quot.sound
Epc.C44_itip: propext, Quot.sound
Epc.C44_get_gs1_key: propext, Classical.choice, Quot.sound
Epc.C45_sgtin: propext, Classical.choice, Quot.sound
Epc.C45_sgtin_conv: propext, Classical.choice, Quot.sound
Epc.C45_lgtin: propext, Classical.choice, Quot.sound
Epc.C45_lgtin_conv: propext, Classical.choice, Quot.sound
Epc.C45_sgln: propext, Quot.sound
Epc.C45_sgln_conv: propext, Quot.sound
Epc.C46_sgtin: propext, Classical.choice, Quot.sound
Epc.C46_lgtin: propext, Classical.choice, Quot.sound
Epc.C46_upui_partial: propext, Classical.choice, Quot.sound
Epc.C46_upui_index: propext
Epc.C46_upui_claim_false: propext, Quot.sound
Epc.C46_itip: propext, Classical.choice, Quot.sound
Epc.C46_sscc: propext, Classical.choice, Quot.sound
Epc.C46_gsrn: propext, Classical.choice, Quot.sound
Epc.C46_gsrnp: propext, Classical.choice, Quot.sound
Epc.C46_pgln: propext, Classical.choice, Quot.sound
Epc.C46_gsin: propext, Classical.choice, Quot.sound
Epc.C46_sgln: propext, Classical.choice, Quot.sound
Epc.C46_grai: propext, Classical.choice, Quot.sound
Epc.C46_gdti: propext, Classical.choice, Quot.sound
Epc.C46_sgcn_partial: propext, Classical.choice, Quot.sound
Epc.C46_sgcn_claim_false: propext, Quot.sound
Epc.C46_giai: propext, Classical.choice, Quot.sound
Epc.C46_ginc: propext, Classical.choice, Quot.sound
Epc.C46_cpi: propext, Classical.choice, Quot.sound
Epc.C47_sgtin: propext, Classical.choice, Quot.sound
Epc.C47_sgln: propext, Quot.sound
Epc.C47_grai: propext, Quot.sound
Epc.C47_gdti: propext, Quot.sound
Epc.C47_itip: propext, Quot.sound
Epc.C47_giai: propext, Classical.choice, Quot.sound
Epc.C47_cpi: propext, Quot.sound
Epc.C47_sscc: propext, Quot.sound
Epc.C47_gsrn: propext, Quot.sound
Epc.C47_gsrnp: propext, Quot.sound
Epc.C47_sgcn: propext, Quot.sound
Epc.C47_usdod: propext, Classical.choice, Quot.sound
Epc.C47_adi: propext, Classical.choice, Quot.sound
Epc.C47_gid: propext, Classical.choice, Quot.sound
Epc.C48_sgtin: propext, Classical.choice, Quot.sound
Epc.C48_sgtin_form: propext, Classical.choice, Quot.sound
Epc.C48_lgtin: propext, Classical.choice, Quot.sound
Epc.C48_lgtin_form: propext, Classical.choice, Quot.sound
Epc.C48_sgln: propext, Classical.choice, Quot.sound
Epc.C48_sgln_form: propext, Classical.choice, Quot.sound
Epc.C48_grai: propext, Classical.choice, Quot.sound
Epc.C48_grai_form: propext, Classical.choice, Quot.sound
Epc.C48_gdti: propext, Classical.choice, Quot.sound
Epc.C48_gdti_form: propext, Classical.choice, Quot.sound
Epc.C48_upui: propext, Classical.choice, Quot.sound
Epc.C48_upui_form: propext, Classical.choice, Quot.sound
Epc.C48_itip: propext, Classical.choice, Quot.sound
Epc.C48_itip_form: propext, Classical.choice, Quot.sound
Epc.C48_ginc: propext, Classical.choice, Quot.sound
Epc.C48_ginc_form: propext, Classical.choice, Quot.sound
Epc.C48_giai: propext, Classical.choice, Quot.sound
Epc.C48_giai_form: propext, Classical.choice, Quot.sound
Epc.C49_sgtin: propext, Classical.choice, Quot.sound
Epc.C49_sgln: propext, Classical.choice, Quot.sound
Epc.C49_grai: propext, Classical.choice, Quot.sound
Epc.C49_gdti: propext, Classical.choice, Quot.sound
Epc.C49_giai: propext, Classical.choice, Quot.sound
Epc.C49_itip_partial: propext, Classical.choice, Quot.sound
Epc.C49_itip_claim_false: propext, Quot.sound
Epc.C50_unescape: propext, Classical.choice, Quot.sound
Epc.C50_escape: propext, Classical.choice, Quot.sound
Epc.C50_untouched: propext, Classical.choice, Quot.sound
Epc.C51_sgtin_claim_false: propext, Quot.sound
Epc.C51_sgtin_alias: propext, Classical.choice, Quot.sound
Epc.C51_sgtin_partial: propext, Classical.choice, Quot.sound
Epc.C51_sgln_claim_false: propext, Quot.sound
Epc.C51_sgln_alias: propext, Classical.choice, Quot.sound
Epc.C51_sgln_partial: propext, Classical.choice, Quot.sound
Epc.C51_grai_claim_false: propext, Quot.sound
Epc.C51_grai_alias: propext, Classical.choice, Quot.sound
Epc.C51_grai_partial: propext, Classical.choice, Quot.sound
Epc.C51_gdti_claim_false: propext, Quot.sound
Epc.C51_gdti_alias: propext, Classical.choice, Quot.sound
Epc.C51_gdti_partial: propext, Classical.choice, Quot.sound
Epc.C51_itip_claim_false: propext, Quot.sound
Epc.C51_itip_alias: propext, Classical.choice, Quot.sound
Epc.C51_giai_claim_false: propext, Quot.sound
Epc.C51_cpi_claim_false: propext, Quot.sound
Epc.C51_sgtin_wrong_binaries: propext
Epc.C52_fields_unique: propext, Classical.choice, Quot.sound
Epc.C52_sgtin96: propext, Classical.choice, Quot.sound
Epc.C52_sgln96: propext, Classical.choice, Quot.sound
Epc.C52_grai96: propext, Classical.choice, Quot.sound
Epc.C52_gdti96: propext, Classical.choice, Quot.sound
Epc.C52_sscc96: propext, Classical.choice, Quot.sound
Epc.C52_gsrn96: propext, Classical.choice, Quot.sound
Epc.C52_gsrnp96: propext, Classical.choice, Quot.sound
Epc.C52_sgcn96: propext, Classical.choice, Quot.sound
Epc.C52_itip110: propext, Classical.choice, Quot.sound
Epc.C52_giai96: propext, Classical.choice, Quot.sound
Epc.C52_cpi96: propext, Classical.choice, Quot.sound
Epc.C52_gid96: propext, Classical.choice, Quot.sound
Epc.C52_usdod96: propext, Classical.choice, Quot.sound
Epc.C53_sgtin198: propext, Classical.choice, Quot.sound
Epc.C53_sgln195: propext, Classical.choice, Quot.sound
Epc.C53_grai170: propext, Classical.choice, Quot.sound
Epc.C53_gdti174: propext, Classical.choice, Quot.sound
Epc.C53_itip212: propext, Classical.choice, Quot.sound
Epc.C53_giai202: propext, Classical.choice, Quot.sound
Epc.C54_cpi_var: propext, Classical.choice, Quot.sound
Epc.C54_cut_off: propext, Classical.choice, Quot.sound
Epc.C55_adi_var: propext, Classical.choice, Quot.sound
Epc.C56_sgtin96: propext, Classical.choice, Quot.sound
Epc.C56_sgtin198: propext, Classical.choice, Quot.sound
Epc.C56_sscc96: propext, Classical.choice, Quot.sound
Epc.C56_sgln96: propext, Classical.choice, Quot.sound
Epc.C56_sgln195: propext, Classical.choice, Quot.sound
Epc.C56_grai96: propext, Classical.choice, Quot.sound
Epc.C56_grai170: propext, Classical.choice, Quot.sound
Epc.C56_giai96: propext, Classical.choice, Quot.sound
Epc.C56_giai202: propext, Classical.choice, Quot.sound
Epc.C56_gsrn96: propext, Classical.choice, Quot.sound
Epc.C56_gsrnp96: propext, Classical.choice, Quot.sound
Epc.C56_gdti96: propext, Classical.choice, Quot.sound
Epc.C56_gdti174: propext, Classical.choice, Quot.sound
Epc.C56_sgcn96: propext, Classical.choice, Quot.sound
Epc.C56_itip110: propext, Classical.choice, Quot.sound
Epc.C56_itip212: propext, Classical.choice, Quot.sound
Epc.C56_cpi96: propext, Classical.choice, Quot.sound
Epc.C56_cpi_var: propext, Classical.choice, Quot.sound
Epc.C56_gid96: propext, Classical.choice, Quot.sound
Epc.C56_usdod96: propext, Classical.choice, Quot.sound
Epc.C56_adi_var: propext, Classical.choice, Quot.sound
Epc.C57_sgtin: propext, Classical.choice, Quot.sound
Epc.C57_sscc: propext, Classical.choice, Quot.sound
Epc.C57_sgln: propext, Classical.choice, Quot.sound
Epc.C57_grai: propext, Classical.choice, Quot.sound
Epc.C57_gsrn: propext, Classical.choice, Quot.sound
Epc.C57_gsrnp: propext, Classical.choice, Quot.sound
Epc.C57_gdti: propext, Classical.choice, Quot.sound
Epc.C57_cpi: propext, Classical.choice, Quot.sound
Epc.C57_sgcn: propext, Classical.choice, Quot.sound
Epc.C57_itip: propext, Classical.choice, Quot.sound
Epc.C57_usdod: propext, Classical.choice, Quot.sound
Epc.C57_adi: propext, Classical.choice, Quot.sound
Epc.C57_gid: propext, Classical.choice, Quot.sound
Epc.C57_giai: propext, Classical.choice, Quot.sound
Epc.C57_giai_partial: propext, Classical.choice, Quot.sound
Epc.C57_giai_claim_false: propext
Epc.C58_sgtin: propext, Classical.choice, Quot.sound
Epc.C58_sscc: propext, Classical.choice, Quot.sound
Epc.C58_sgln: propext, Classical.choice, Quot.sound
Epc.C58_grai: propext, Classical.choice, Quot.sound
Epc.C58_giai: propext, Classical.choice, Quot.sound
Epc.C58_gsrn: propext, Classical.choice, Quot.sound
Epc.C58_gsrnp: propext, Classical.choice, Quot.sound
Epc.C58_gdti: propext, Classical.choice, Quot.sound
Epc.C58_cpi: propext, Classical.choice, Quot.sound
Epc.C58_sgcn: propext, Classical.choice, Quot.sound
Epc.C58_itip: propext, Classical.choice, Quot.sound
Epc.C58_usdod: propext, Classical.choice, Quot.sound
Epc.C58_adi: propext, Classical.choice, Quot.sound
Epc.C58_gid: propext, Quot.sound
Epc.C59_sgtin: propext, Classical.choice, Quot.sound
Epc.C59_lgtin: propext, Classical.choice, Quot.sound
Epc.C59_upui: propext, Classical.choice, Quot.sound
Epc.C59_sgln: propext, Classical.choice, Quot.sound
Epc.C59_grai: propext, Classical.choice, Quot.sound
Epc.C59_gdti: propext, Classical.choice, Quot.sound
Epc.C59_itip: propext, Classical.choice, Quot.sound
Epc.C59_sscc: propext, Classical.choice, Quot.sound
Epc.C59_gsrn: propext, Classical.choice, Quot.sound
Epc.C59_gsrnp: propext, Classical.choice, Quot.sound
Epc.C59_pgln: propext, Classical.choice, Quot.sound
Epc.C59_gsin: propext, Classical.choice, Quot.sound
Epc.C59_sgcn: propext, Classical.choice, Quot.sound
Epc.C59_giai: propext, Classical.choice, Quot.sound
Epc.C59_ginc: propext, Classical.choice, Quot.sound
Epc.C59_cpi: propext, Classical.choice, Quot.sound
Epc.C59_sgtin_negative: propext, Classical.choice, Quot.sound
Epc.C59_lgtin_negative: propext, Classical.choice, Quot.sound
Epc.C59_upui_negative: propext, Classical.choice, Quot.sound
Epc.C59_sgln_negative: propext, Classical.choice, Quot.sound
Epc.C59_grai_negative: propext, Classical.choice, Quot.sound
Epc.C59_gdti_negative: propext, Classical.choice, Quot.sound
Epc.C59_itip_negative: propext, Classical.choice, Quot.sound
Epc.C59_sgcn_negative: propext, Classical.choice, Quot.sound
Epc.C59_sscc_negative: propext, Classical.choice, Quot.sound
Epc.C59_gsrn_negative: propext, Classical.choice, Quot.sound
Epc.C59_gsrnp_negative: propext, Classical.choice, Quot.sound
Epc.C59_pgln_negative: propext, Classical.choice, Quot.sound
Epc.C59_gsin_negative: propext, Classical.choice, Quot.sound
Epc.C59_giai_negative: propext, Classical.choice, Quot.sound
Epc.C59_ginc_negative: propext, Classical.choice, Quot.sound
Epc.C59_cpi_negative: propext, Classical.choice, Quot.sound
Epc.C60_constructor: propext, Classical.choice, Quot.sound
Epc.C60_constructor_convert: propext, Classical.choice, Quot.sound
Epc.C60_constructor_other: propext
Epc.C60_tag_uri: propext, Classical.choice, Quot.sound
Epc.C60_element_string: propext, Classical.choice, Quot.sound
Epc.C60_gtin_plus_serial: propext, Classical.choice, Quot.sound
Epc.C60_binary: propext, Classical.choice, Quot.sound
Epc.C60_encoded: propext, Classical.choice, Quot.sound
Epc.C60_element_string_parser: propext, Classical.choice, Quot.sound
Epc.C60_uri_parsers: propext, Classical.choice, Quot.sound
Epc.C60_get_gs1_key: propext, Classical.choice, Quot.sound
Epc.C60_get_gs1_key_typed: propext, Classical.choice, Quot.sound
Epc.C60_get_gs1_key_documentation_incomplete: propext
Epc.C61_object: propext, Classical.choice, Quot.sound
Epc.C61_denotes: propext, Classical.choice, Quot.sound
Epc.C61_get_gs1_key: propext, Classical.choice, Quot.sound
Epc.C61_key_unique: propext, Classical.choice, Quot.sound
Epc.C61_dummy_serial_useless: propext, Classical.choice, Quot.sound
Epc.C62_sgtin: propext, Classical.choice, Quot.sound
Epc.C62_sgtin_determines: propext, Classical.choice, Quot.sound
Epc.C62_lgtin: propext, Classical.choice, Quot.sound
Epc.C62_lgtin_determines: propext, Classical.choice, Quot.sound
Epc.C62_upui: propext, Classical.choice, Quot.sound
Epc.C62_upui_determines: propext, Classical.choice, Quot.sound
Epc.C62_itip: propext, Classical.choice, Quot.sound
Epc.C62_itip_determines: propext, Classical.choice, Quot.sound
Epc.C62_sscc: propext, Classical.choice, Quot.sound
Epc.C62_sscc_determines: propext, Classical.choice, Quot.sound
Epc.C62_gsrn: propext, Classical.choice, Quot.sound
Epc.C62_gsrn_determines: propext, Classical.choice, Quot.sound
Epc.C62_gsrnp: propext, Classical.choice, Quot.sound
Epc.C62_gsrnp_determines: propext, Classical.choice, Quot.sound
Epc.C62_pgln: propext, Classical.choice, Quot.sound
Epc.C62_pgln_determines: propext, Classical.choice, Quot.sound
Epc.C62_gsin: propext, Classical.choice, Quot.sound
Epc.C62_gsin_determines: propext, Classical.choice, Quot.sound
Epc.C62_sgln: propext, Classical.choice, Quot.sound
Epc.C62_sgln_determines: propext, Classical.choice, Quot.sound
Epc.C62_grai: propext, Classical.choice, Quot.sound
Epc.C62_grai_determines: propext, Classical.choice, Quot.sound
Epc.C62_gdti: propext, Classical.choice, Quot.sound
Epc.C62_gdti_determines: propext, Classical.choice, Quot.sound
Epc.C62_sgcn: propext, Classical.choice, Quot.sound
Epc.C62_sgcn_determines: propext, Classical.choice, Quot.sound
Epc.C62_giai: propext, Classical.choice, Quot.sound
Epc.C62_giai_determines: propext, Classical.choice, Quot.sound
Epc.C62_ginc: propext, Classical.choice, Quot.sound
Epc.C62_ginc_determines: propext, Classical.choice, Quot.sound
Epc.C62_cpi: propext, Classical.choice, Quot.sound
Epc.C62_cpi_determines: propext, Classical.choice, Quot.sound
Epc.C63_sgtin: propext, Classical.choice, Quot.sound
Epc.C63_sscc: propext, Classical.choice, Quot.sound
Epc.C63_sgln: propext, Classical.choice, Quot.sound
Epc.C63_grai: propext, Classical.choice, Quot.sound
Epc.C63_gdti: propext, Classical.choice, Quot.sound
Epc.C63_giai: propext, Classical.choice, Quot.sound
Epc.C63_gsrn: propext, Classical.choice, Quot.sound
Epc.C63_gsrnp: propext, Classical.choice, Quot.sound
Epc.C63_sgcn: propext, Classical.choice, Quot.sound
Epc.C63_itip: propext, Classical.choice, Quot.sound
Epc.C63_cpi: propext, Classical.choice, Quot.sound
Epc.C63_gid: propext, Classical.choice, Quot.sound
Epc.C63_usdod: propext, Classical.choice, Quot.sound
Epc.C63_pgln: propext, Classical.choice, Quot.sound
Epc.C63_gsin: propext, Classical.choice, Quot.sound
Epc.C63_ginc: propext, Classical.choice, Quot.sound
Epc.C63_lgtin: propext, Classical.choice, Quot.sound
Epc.C63_upui: propext, Classical.choice, Quot.sound
Epc.C63_ascii_only: propext, Classical.choice, Quot.sound
Epc.C64_sgtin96: propext, Classical.choice, Quot.sound
Epc.C64_sgln96: propext, Classical.choice, Quot.sound
Epc.C64_grai96: propext, Classical.choice, Quot.sound
Epc.C64_gdti96: propext, Classical.choice, Quot.sound
Epc.C64_sgtin198: propext, Classical.choice, Quot.sound
Epc.C64_sgln195: propext, Classical.choice, Quot.sound
Epc.C64_grai170: propext, Classical.choice, Quot.sound
Epc.C64_gdti174: propext, Classical.choice, Quot.sound
Epc.C64_sscc96: propext, Classical.choice, Quot.sound
Epc.C64_gsrn96: propext, Classical.choice, Quot.sound
Epc.C64_gsrnp96: propext, Classical.choice, Quot.sound
Epc.C64_sgcn96: propext, Classical.choice, Quot.sound
Epc.C64_itip110: propext, Classical.choice, Quot.sound
Epc.C64_itip212: propext, Classical.choice, Quot.sound
Epc.C64_giai96: propext, Classical.choice, Quot.sound
Epc.C64_giai202: propext, Classical.choice, Quot.sound
Epc.C64_cpi96: propext, Classical.choice, Quot.sound
Epc.C64_cpi96_no_tag_uri: propext
Epc.C64_gid96: propext, Classical.choice, Quot.sound
Epc.C64_usdod96: propext, Classical.choice, Quot.sound
Epc.C64_cpiVar: propext, Classical.choice, Quot.sound
Epc.C64_adiVar: propext, Classical.choice, Quot.sound
Epc.C65_returns: propext, Quot.sound
Epc.C65_refused: propext, Classical.choice, Quot.sound
Epc.C65_last_ignored: propext, Quot.sound
Epc.C65_negative: propext, Classical.choice, Quot.sound
Epc.C66_cage_encode: propext, Classical.choice, Quot.sound
Epc.C66_cage_decode: propext, Classical.choice, Quot.sound
Epc.C66_cage_roundtrip: propext, Classical.choice, Quot.sound
Epc.C66_cage_six_bits: propext, Classical.choice, Quot.sound
Epc.C66_binary_char: propext, Classical.choice, Quot.sound
Epc.C66_cpi_escapes: propext, Classical.choice, Quot.sound
Epc.C67_sgtin: propext, Classical.choice, Quot.sound
Epc.C67_lgtin: propext, Classical.choice, Quot.sound
Epc.C67_sgln: propext, Classical.choice, Quot.sound
Epc.C67_grai: propext, Classical.choice, Quot.sound
Epc.C67_gdti: propext, Classical.choice, Quot.sound
Epc.C67_ginc: propext, Classical.choice, Quot.sound
Epc.C67_giai: propext, Classical.choice, Quot.sound
Epc.C67_upui: propext, Classical.choice, Quot.sound
Epc.C67_itip: propext, Classical.choice, Quot.sound
Epc.C68_sgtin96: propext, Classical.choice, Quot.sound
Epc.C68_sgtin96_inj: propext, Classical.choice, Quot.sound
Epc.C68_sgtin198: propext, Classical.choice, Quot.sound
Epc.C68_sgtin198_inj: propext, Classical.choice, Quot.sound
Epc.C68_sscc96: propext, Classical.choice, Quot.sound
Epc.C68_sscc96_inj: propext, Classical.choice, Quot.sound
Epc.C68_sgln96: propext, Classical.choice, Quot.sound
Epc.C68_sgln96_inj: propext, Classical.choice, Quot.sound
Epc.C68_sgln195: propext, Classical.choice, Quot.sound
Epc.C68_sgln195_inj: propext, Classical.choice, Quot.sound
Epc.C68_grai96: propext, Classical.choice, Quot.sound
Epc.C68_grai96_inj: propext, Classical.choice, Quot.sound
Epc.C68_grai170: propext, Classical.choice, Quot.sound
Epc.C68_grai170_inj: propext, Classical.choice, Quot.sound
Epc.C68_giai96: propext, Classical.choice, Quot.sound
Epc.C68_giai96_inj: propext, Classical.choice, Quot.sound
Epc.C68_giai202: propext, Classical.choice, Quot.sound
Epc.C68_giai202_inj: propext, Classical.choice, Quot.sound
Epc.C68_gsrn96: propext, Classical.choice, Quot.sound
Epc.C68_gsrn96_inj: propext, Classical.choice, Quot.sound
Epc.C68_gsrnp96: propext, Classical.choice, Quot.sound
Epc.C68_gsrnp96_inj: propext, Classical.choice, Quot.sound
Epc.C68_gdti96: propext, Classical.choice, Quot.sound
Epc.C68_gdti96_inj: propext, Classical.choice, Quot.sound
Epc.C68_gdti174: propext, Classical.choice, Quot.sound
Epc.C68_gdti174_inj: propext, Classical.choice, Quot.sound
Epc.C68_cpi96: propext, Classical.choice, Quot.sound
Epc.C68_cpi96_inj: propext, Classical.choice, Quot.sound
Epc.C68_cpi_var: propext, Classical.choice, Quot.sound
Epc.C68_cpi_var_inj: propext, Classical.choice, Quot.sound
Epc.C68_sgcn96: propext, Classical.choice, Quot.sound
Epc.C68_sgcn96_inj: propext, Classical.choice, Quot.sound
Epc.C68_itip110: propext, Classical.choice, Quot.sound
Epc.C68_itip110_inj: propext, Classical.choice, Quot.sound
Epc.C68_itip212: propext, Classical.choice, Quot.sound
Epc.C68_itip212_inj: propext, Classical.choice, Quot.sound
Epc.C68_gid96: propext, Classical.choice, Quot.sound
Epc.C68_gid96_inj: propext, Classical.choice, Quot.sound
Epc.C68_usdod96: propext, Classical.choice, Quot.sound
Epc.C68_usdod96_inj: propext, Classical.choice, Quot.sound
Epc.C69_sgtin96: propext, Classical.choice, Quot.sound
Epc.C69_sgtin198: propext, Classical.choice, Quot.sound
Epc.C69_sgln96: propext, Classical.choice, Quot.sound
Epc.C69_sgln195: propext, Classical.choice, Quot.sound
Epc.C69_grai96: propext, Classical.choice, Quot.sound
Epc.C69_grai170: propext, Classical.choice, Quot.sound
Epc.C69_gdti96: propext, Classical.choice, Quot.sound
Epc.C69_gdti174: propext, Classical.choice, Quot.sound
Epc.C69_giai96: propext, Classical.choice, Quot.sound
Epc.C69_giai202: propext, Classical.choice, Quot.sound
Epc.C69_itip110: propext, Classical.choice, Quot.sound
Epc.C69_itip212: propext, Classical.choice, Quot.sound
Epc.C69_cpi96: propext, Classical.choice, Quot.sound
Epc.C69_sscc96: propext, Classical.choice, Quot.sound
Epc.C69_gsrn96: propext, Classical.choice, Quot.sound
Epc.C69_gsrnp96: propext, Classical.choice, Quot.sound
Epc.C69_sgcn96: propext, Classical.choice, Quot.sound
Epc.C69_gid96: propext, Classical.choice, Quot.sound
Epc.C69_usdod96: propext, Classical.choice, Quot.sound
Epc.C69_cpi_var: propext, Classical.choice, Quot.sound
Epc.C69_minus_sign: propext
Epc.C70_sgtin_tag: propext, Quot.sound
Epc.C70_sgln_tag: propext, Quot.sound
Epc.C70_grai_tag: propext, Quot.sound
Epc.C70_giai_tag: propext, Quot.sound
Epc.C70_gdti_tag: propext, Quot.sound
Epc.C70_itip_tag: propext, Quot.sound
Epc.C70_other_tags: propext, Classical.choice, Quot.sound
Epc.C70_sgtin198: propext, Classical.choice, Quot.sound
Epc.C70_sgln195: propext, Classical.choice, Quot.sound
Epc.C70_grai170: propext, Classical.choice, Quot.sound
Epc.C70_gdti174: propext, Classical.choice, Quot.sound
Epc.C70_itip212: propext, Classical.choice, Quot.sound
Epc.C70_giai202: propext, Classical.choice, Quot.sound
Epc.C70_sgtin_element: propext, Classical.choice, Quot.sound
Epc.C70_lgtin_element: propext, Classical.choice, Quot.sound
Epc.C70_upui_element: propext, Classical.choice, Quot.sound
Epc.C70_sgln_element: propext, Classical.choice, Quot.sound
Epc.C70_grai_element: propext, Classical.choice, Quot.sound
Epc.C70_gdti_element: propext, Classical.choice, Quot.sound
Epc.C70_itip_element: propext, Classical.choice, Quot.sound
Epc.C70_giai_element: propext, Classical.choice, Quot.sound
Epc.C70_ginc_element: propext, Classical.choice, Quot.sound
Epc.C71_text: propext, Classical.choice, Quot.sound
Epc.C71_key: propext, Classical.choice, Quot.sound
Epc.C71_sgln96: propext, Classical.choice, Quot.sound
Epc.C71_grai96: propext, Classical.choice, Quot.sound
Epc.C71_gdti96: propext, Classical.choice, Quot.sound
Epc.C71_sgtin198: propext, Classical.choice, Quot.sound
Epc.C71_sgln195: propext, Classical.choice, Quot.sound
Epc.C71_grai170: propext, Classical.choice, Quot.sound
Epc.C71_gdti174: propext, Classical.choice, Quot.sound
Epc.C71_sgcn96: propext, Classical.choice, Quot.sound
Epc.C71_itip110: propext, Classical.choice, Quot.sound
Epc.C71_itip212: propext, Classical.choice, Quot.sound
Epc.C71_usdod96: propext, Classical.choice, Quot.sound
Epc.C71_giai202: propext, Classical.choice, Quot.sound
Epc.C71_cpiVar: propext, Classical.choice, Quot.sound
Epc.C71_cpiVar_same: propext, Classical.choice, Quot.sound
Epc.C71_adiVar: propext, Classical.choice, Quot.sound
Epc.C71_adiVar_same: propext, Classical.choice, Quot.sound
Epc.C72_pad: propext, Classical.choice, Quot.sound
Epc.C72_sgtin_from_hex: propext, Classical.choice, Quot.sound
Epc.C72_sgtin_from_base64: propext, Classical.choice, Quot.sound
Epc.C72_sgtin_write: propext, Classical.choice, Quot.sound
Epc.C72_sscc_from_hex: propext, Classical.choice, Quot.sound
Epc.C72_sscc_from_base64: propext, Classical.choice, Quot.sound
Epc.C72_sscc_write: propext, Classical.choice, Quot.sound
Epc.C72_sgln_from_hex: propext, Classical.choice, Quot.sound
Epc.C72_sgln_from_base64: propext, Classical.choice, Quot.sound
Epc.C72_sgln_write: propext, Classical.choice, Quot.sound
Epc.C72_grai_from_hex: propext, Classical.choice, Quot.sound
Epc.C72_grai_from_base64: propext, Classical.choice, Quot.sound
Epc.C72_grai_write: propext, Classical.choice, Quot.sound
Epc.C72_giai_from_hex: propext, Classical.choice, Quot.sound
Epc.C72_giai_from_base64: propext, Classical.choice, Quot.sound
Epc.C72_giai_write: propext, Classical.choice, Quot.sound
Epc.C72_gsrn_from_hex: propext, Classical.choice, Quot.sound
Epc.C72_gsrn_from_base64: propext, Classical.choice, Quot.sound
Epc.C72_gsrn_write: propext, Classical.choice, Quot.sound
Epc.C72_gsrnp_from_hex: propext, Classical.choice, Quot.sound
Epc.C72_gsrnp_from_base64: propext, Classical.choice, Quot.sound
Epc.C72_gsrnp_write: propext, Classical.choice, Quot.sound
Epc.C72_gdti_from_hex: propext, Classical.choice, Quot.sound
Epc.C72_gdti_from_base64: propext, Classical.choice, Quot.sound
Epc.C72_gdti_write: propext, Classical.choice, Quot.sound
Epc.C72_cpi_from_hex: propext, Classical.choice, Quot.sound
Epc.C72_cpi_from_base64: propext, Classical.choice, Quot.sound
Epc.C72_cpi_write: propext, Classical.choice, Quot.sound
Epc.C72_sgcn_from_hex: propext, Classical.choice, Quot.sound
Epc.C72_sgcn_from_base64: propext, Classical.choice, Quot.sound
Epc.C72_sgcn_write: propext, Classical.choice, Quot.sound
Epc.C72_itip_from_hex: propext, Classical.choice, Quot.sound
Epc.C72_itip_from_base64: propext, Classical.choice, Quot.sound
Epc.C72_itip_write: propext, Classical.choice, Quot.sound
Epc.C72_gid_from_hex: propext, Classical.choice, Quot.sound
Epc.C72_gid_from_base64: propext, Classical.choice, Quot.sound
Epc.C72_gid_write: propext, Classical.choice, Quot.sound
Epc.C72_usdod_from_hex: propext, Classical.choice, Quot.sound
Epc.C72_usdod_from_base64: propext, Classical.choice, Quot.sound
Epc.C72_usdod_write: propext, Classical.choice, Quot.sound
Epc.C72_adi_from_hex: propext, Classical.choice, Quot.sound
Epc.C72_adi_from_base64: propext, Classical.choice, Quot.sound
Epc.C72_adi_write: propext, Classical.choice, Quot.sound
Epc.C73_history: propext, Quot.sound
Epc.C73_prefix: propext, Quot.sound
Epc.C74_claim_false: propext, Quot.sound
Epc.C74_other_methods: propext, Quot.sound
Epc.C74_tag_uri_partial: propext, Quot.sound
Epc.C74_unshared: propext, Quot.sound
Epc.C74_finishes: propext, Quot.sound
Epc.C75_sgtin_claim_false: propext
Epc.C75_sscc_claim_false: propext
Epc.C75_sgln_claim_false: propext
Epc.C75_grai_claim_false: propext
Epc.C75_giai_claim_false: propext
Epc.C75_gsrn_claim_false: propext
Epc.C75_gsrnp_claim_false: propext
Epc.C75_gdti_claim_false: propext
Epc.C75_cpi_claim_false: propext
Epc.C75_sgcn_claim_false: propext
Epc.C75_itip_claim_false: propext
Epc.C75_gid_claim_false: propext
Epc.C75_usdod_claim_false: propext
Epc.C75_adi_claim_false: propext
Epc.C75_bits_partial: propext, Quot.sound
Epc.C75_sgtin96_partial: propext, Classical.choice, Quot.sound
Epc.C75_sgtin198_partial: propext, Classical.choice, Quot.sound
Epc.C75_sscc96_partial: propext, Classical.choice, Quot.sound
Epc.C75_sgln96_partial: propext, Classical.choice, Quot.sound
Epc.C75_sgln195_partial: propext, Classical.choice, Quot.sound
Epc.C75_grai96_partial: propext, Classical.choice, Quot.sound
Epc.C75_grai170_partial: propext, Classical.choice, Quot.sound
Epc.C75_giai96_partial: propext, Classical.choice, Quot.sound
Epc.C75_giai202_partial: propext, Classical.choice, Quot.sound
Epc.C75_gsrn96_partial: propext, Classical.choice, Quot.sound
Epc.C75_gsrnp96_partial: propext, Classical.choice, Quot.sound
Epc.C75_gdti96_partial: propext, Classical.choice, Quot.sound
Epc.C75_gdti174_partial: propext, Classical.choice, Quot.sound
Epc.C75_cpi96_partial: propext, Classical.choice, Quot.sound
Epc.C75_cpiVar_partial: propext, Classical.choice, Quot.sound
Epc.C75_sgcn96_partial: propext, Classical.choice, Quot.sound
Epc.C75_itip110_partial: propext, Classical.choice, Quot.sound
Epc.C75_itip212_partial: propext, Classical.choice, Quot.sound
Epc.C75_gid96_partial: propext, Classical.choice, Quot.sound
Epc.C75_usdod96_partial: propext, Classical.choice, Quot.sound
Epc.C75_adiVar_partial: propext, Classical.choice, Quot.sound
Epc.C76_sgtin_claim_false: propext
Epc.C76_sgtin_partial: propext, Classical.choice, Quot.sound
Epc.C76_sscc_claim_false: propext
Epc.C76_sscc_partial: propext, Classical.choice, Quot.sound
Epc.C76_sgln_claim_false: propext
Epc.C76_sgln_partial: propext, Classical.choice, Quot.sound
Epc.C76_grai_claim_false: propext
Epc.C76_grai_partial: propext, Classical.choice, Quot.sound
Epc.C76_giai_claim_false: propext
Epc.C76_giai_partial: propext, Classical.choice, Quot.sound
Epc.C76_gsrn_claim_false: propext
Epc.C76_gsrn_silent: propext
Epc.C76_gsrn_partial: propext, Classical.choice, Quot.sound
Epc.C76_gsrnp_claim_false: propext
Epc.C76_gsrnp_silent: propext
Epc.C76_gsrnp_partial: propext, Classical.choice, Quot.sound
Epc.C76_gdti_claim_false: propext
Epc.C76_gdti_partial: propext, Classical.choice, Quot.sound
Epc.C76_cpi_claim_false: propext
Epc.C76_cpi_partial: propext, Classical.choice, Quot.sound
Epc.C76_sgcn_claim_false: propext
Epc.C76_sgcn_partial: propext, Classical.choice, Quot.sound
Epc.C76_usdod_claim_false: propext
Epc.C76_usdod_partial: propext, Classical.choice, Quot.sound
Epc.C76_adi_claim_false: propext
Epc.C76_adi_partial: propext, Classical.choice, Quot.sound
Epc.C76_itip_claim_false: propext
Epc.C76_itip_partial: propext, Classical.choice, Quot.sound
Epc.C76_gid_claim_false: propext
Epc.C76_gid_partial: propext, Classical.choice, Quot.sound
Epc.C77_sgtin: propext, Classical.choice, Quot.sound
Epc.C77_sscc: propext, Classical.choice, Quot.sound
Epc.C77_sgln: propext, Classical.choice, Quot.sound
Epc.C77_grai: propext, Classical.choice, Quot.sound
Epc.C77_giai: propext, Classical.choice, Quot.sound
Epc.C77_gsrn: propext, Classical.choice, Quot.sound
Epc.C77_gsrnp: propext, Classical.choice, Quot.sound
Epc.C77_gdti: propext, Classical.choice, Quot.sound
Epc.C77_cpi: propext, Classical.choice, Quot.sound
Epc.C77_sgcn: propext, Classical.choice, Quot.sound
Epc.C77_usdod: propext, Classical.choice, Quot.sound
Epc.C77_adi: propext, Classical.choice, Quot.sound
Epc.C77_itip_claim_false: propext, Classical.choice, Quot.sound
Epc.C77_itip_partial: propext, Classical.choice, Quot.sound
Epc.C77_gid: propext, Classical.choice, Quot.sound
Epc.C78_sgtin: propext, Classical.choice, Quot.sound
Epc.C78_sgln: propext, Classical.choice, Quot.sound
Epc.C78_grai: propext, Classical.choice, Quot.sound
Epc.C78_gdti: propext, Classical.choice, Quot.sound
Epc.C78_sscc: propext, Classical.choice, Quot.sound
Epc.C78_gsrn: propext, Classical.choice, Quot.sound
Epc.C78_gsrnp: propext, Classical.choice, Quot.sound
Epc.C78_cpi: propext, Classical.choice, Quot.sound
Epc.C78_sgcn: propext, Classical.choice, Quot.sound
Epc.C78_usdod: propext, Classical.choice, Quot.sound
Epc.C78_gid: propext, Classical.choice, Quot.sound
Epc.C78_giai: propext, Classical.choice, Quot.sound
Epc.C78_itip: propext, Classical.choice, Quot.sound
Epc.C78_lgtin: propext, Classical.choice, Quot.sound
Epc.C78_upui: propext, Classical.choice, Quot.sound
Epc.C78_ginc: propext, Classical.choice, Quot.sound
Epc.C78_pgln: propext, Classical.choice, Quot.sound
Epc.C78_gsin: propext, Classical.choice, Quot.sound
Epc.C78_bic: propext, Classical.choice, Quot.sound
Epc.C78_imovn: propext, Classical.choice, Quot.sound
Epc.C78_adi: propext, Classical.choice, Quot.sound
Epc.C78_all: propext, Classical.choice, Quot.sound
Epc.C79_sgtin_claim_false: propext
Epc.C79_sgtin_partial: propext, Classical.choice, Quot.sound
Epc.C79_sscc_claim_false: propext
Epc.C79_sscc_partial: propext, Quot.sound
Epc.C79_sgln_claim_false: propext
Epc.C79_sgln_partial: propext, Quot.sound
Epc.C79_grai_claim_false: propext
Epc.C79_grai_partial: propext, Quot.sound
Epc.C79_giai_claim_false: propext
Epc.C79_giai_partial: propext, Quot.sound
Epc.C79_gsrn_claim_false: propext
Epc.C79_gsrn_partial: propext, Quot.sound
Epc.C79_gsrnp_claim_false: propext
Epc.C79_gsrnp_partial: propext, Quot.sound
Epc.C79_gdti_claim_false: propext
Epc.C79_gdti_partial: propext, Quot.sound
Epc.C79_cpi_claim_false: propext
Epc.C79_cpi_partial: propext, Quot.sound
Epc.C79_sgcn_claim_false: propext
Epc.C79_sgcn_partial: propext, Quot.sound
Epc.C79_itip_claim_false: propext
Epc.C79_itip_partial: propext, Quot.sound
Epc.C79_usdod_claim_false: propext
Epc.C79_usdod_partial: propext, Classical.choice, Quot.sound
Epc.C79_adi_claim_false: propext
Epc.C79_adi_partial: propext, Classical.choice, Quot.sound
Epc.C80_sgtin: propext, Classical.choice, Quot.sound
Epc.C80_sscc: propext, Classical.choice, Quot.sound
Epc.C80_sgln: propext, Classical.choice, Quot.sound
Epc.C80_grai: propext, Classical.choice, Quot.sound
Epc.C80_giai: propext, Classical.choice, Quot.sound
Epc.C80_gsrn: propext, Classical.choice, Quot.sound
Epc.C80_gsrnp: propext, Classical.choice, Quot.sound
Epc.C80_gdti: propext, Classical.choice, Quot.sound
Epc.C80_cpi: propext, Classical.choice, Quot.sound
Epc.C80_sgcn: propext, Classical.choice, Quot.sound
Epc.C80_itip: propext, Classical.choice, Quot.sound
Epc.C80_usdod: propext, Classical.choice, Quot.sound
Epc.C80_adi: propext, Classical.choice, Quot.sound
Epc.C80_gid: propext, Classical.choice, Quot.sound
Epc.C81_gid: propext, Classical.choice, Quot.sound
Epc.C81_gid_tag: propext, Classical.choice, Quot.sound
Epc.C81_usdod: propext, Classical.choice, Quot.sound
Epc.C81_usdod_tag: propext, Classical.choice, Quot.sound
Epc.C81_unlimited: propext, Quot.sound
Epc.C81_sgtin: propext, Classical.choice, Quot.sound
Epc.C81_sscc: propext, Quot.sound
Epc.C81_sgln: propext, Classical.choice, Quot.sound
Epc.C81_grai: propext, Quot.sound
Epc.C81_giai: propext, Quot.sound
Epc.C81_gsrn: propext, Quot.sound
Epc.C81_gsrnp: propext, Quot.sound
Epc.C81_gdti: propext, Quot.sound
Epc.C81_cpi: propext, Quot.sound
Epc.C81_itip: propext, Classical.choice, Quot.sound
Epc.C81_sgcn: propext, Quot.sound
Epc.C81_witness: propext, Classical.choice, Quot.sound
Epc.C82_identity: propext, Classical.choice, Quot.sound
Epc.C82_recognise: propext, Classical.choice, Quot.sound
Epc.C82_tag_prefix: propext, Classical.choice, Quot.sound
Epc.C82_element: propext, Classical.choice, Quot.sound
Epc.C82_element_any: propext, Classical.choice, Quot.sound
Epc.C82_serial: propext, Classical.choice, Quot.sound
Epc.C82_adi_terminator: propext, Classical.choice, Quot.sound
Epc.C82_contrast: propext, Quot.sound
Epc.C83_sgtin_uri: propext, Classical.choice, Quot.sound
Epc.C83_sgtin_tag: propext, Classical.choice, Quot.sound
Epc.C83_sgtin_element: propext, Classical.choice, Quot.sound
Epc.C83_sscc_uri: propext, Classical.choice, Quot.sound
Epc.C83_sscc_tag: propext, Classical.choice, Quot.sound
Epc.C83_sscc_element: propext, Classical.choice, Quot.sound
Epc.C83_gsrn_uri: propext, Classical.choice, Quot.sound
Epc.C83_gsrn_tag: propext, Classical.choice, Quot.sound
Epc.C83_gsrn_element: propext, Classical.choice, Quot.sound
Epc.C83_gsrnp_uri: propext, Classical.choice, Quot.sound
Epc.C83_gsrnp_tag: propext, Classical.choice, Quot.sound
Epc.C83_gsrnp_element: propext, Classical.choice, Quot.sound
Epc.C83_pgln_uri: propext, Classical.choice, Quot.sound
Epc.C83_pgln_element: propext, Classical.choice, Quot.sound
Epc.C83_gsin_uri: propext, Classical.choice, Quot.sound
Epc.C83_gsin_element: propext, Classical.choice, Quot.sound
Epc.C83_sgln_uri: propext, Classical.choice, Quot.sound
Epc.C83_sgln_tag: propext, Classical.choice, Quot.sound
Epc.C83_sgln_element: propext, Classical.choice, Quot.sound
Epc.C83_grai_uri: propext, Classical.choice, Quot.sound
Epc.C83_grai_tag: propext, Classical.choice, Quot.sound
Epc.C83_grai_element: propext, Classical.choice, Quot.sound
Epc.C83_gdti_uri: propext, Classical.choice, Quot.sound
Epc.C83_gdti_tag: propext, Classical.choice, Quot.sound
Epc.C83_gdti_element: propext, Classical.choice, Quot.sound
Epc.C83_sgcn_uri: propext, Classical.choice, Quot.sound
Epc.C83_sgcn_tag: propext, Classical.choice, Quot.sound
Epc.C83_sgcn_element: propext, Classical.choice, Quot.sound
Epc.C83_ginc_uri: propext, Classical.choice, Quot.sound
Epc.C83_ginc_element: propext, Classical.choice, Quot.sound
Epc.C83_cpi_uri: propext, Classical.choice, Quot.sound
Epc.C83_cpi_tag: propext, Classical.choice, Quot.sound
Epc.C83_cpi_element: propext, Classical.choice, Quot.sound
Epc.C83_itip_uri: propext, Classical.choice, Quot.sound
Epc.C83_itip_tag: propext, Classical.choice, Quot.sound
Epc.C83_itip_element: propext, Classical.choice, Quot.sound
Epc.C83_upui_uri: propext, Classical.choice, Quot.sound
Epc.C83_upui_element: propext, Classical.choice, Quot.sound
Epc.C83_lgtin_uri: propext, Classical.choice, Quot.sound
Epc.C83_lgtin_element: propext, Classical.choice, Quot.sound
Epc.C83_gid_uri: propext, Classical.choice, Quot.sound
Epc.C83_gid_tag: propext, Classical.choice, Quot.sound
Epc.C83_usdod_uri: propext, Classical.choice, Quot.sound
Epc.C83_usdod_tag: propext, Classical.choice, Quot.sound
Epc.C83_adi_uri: propext, Classical.choice, Quot.sound
Epc.C83_adi_tag: propext, Classical.choice, Quot.sound
Epc.C83_bic_uri: propext, Classical.choice, Quot.sound
Epc.C83_imovn_uri: propext, Classical.choice, Quot.sound
Epc.C83_giai_uri: propext, Quot.sound
Epc.C83_giai_tag: propext, Classical.choice, Quot.sound
Epc.C83_giai_element: propext, Classical.choice, Quot.sound
Epc.C84_sgtin_claim_false: propext, Quot.sound
Epc.C84_sgtin_partial: propext, Classical.choice, Quot.sound
Epc.C84_sscc_claim_false: propext
Epc.C84_sscc_partial: propext, Classical.choice, Quot.sound
Epc.C84_sgln_claim_false: propext, Quot.sound
Epc.C84_sgln_partial: propext, Classical.choice, Quot.sound
Epc.C84_grai_claim_false: propext, Quot.sound
Epc.C84_grai_partial: propext, Classical.choice, Quot.sound
Epc.C84_giai_claim_false: propext, Quot.sound
Epc.C84_giai_partial: propext, Classical.choice, Quot.sound
Epc.C84_gsrn_claim_false: propext
Epc.C84_gsrn_partial: propext, Classical.choice, Quot.sound
Epc.C84_gsrnp_claim_false: propext
Epc.C84_gsrnp_partial: propext, Classical.choice, Quot.sound
Epc.C84_gdti_claim_false: propext, Quot.sound
Epc.C84_gdti_partial: propext, Classical.choice, Quot.sound
Epc.C84_cpi_claim_false: propext, Quot.sound
Epc.C84_cpi_partial: propext, Classical.choice, Quot.sound
Epc.C84_sgcn_claim_false: propext
Epc.C84_sgcn_partial: propext, Classical.choice, Quot.sound
Epc.C84_itip_claim_false: propext, Quot.sound
Epc.C84_itip_partial: propext, Classical.choice, Quot.sound
Epc.C84_gid_claim_false: propext
Epc.C84_gid_partial: propext, Classical.choice, Quot.sound
Epc.C84_usdod_claim_false: propext
Epc.C84_usdod_partial: propext, Classical.choice, Quot.sound
Epc.C84_adi_claim_false: propext
Epc.C84_adi_partial: propext, Classical.choice, Quot.sound
Epc.C85_sgtin_claim_false: propext, Quot.sound
Epc.C85_sgtin_partial: propext, Classical.choice, Quot.sound
Epc.C85_sscc_claim_false: propext, Quot.sound
Epc.C85_sscc_partial: propext, Classical.choice, Quot.sound
Epc.C85_sgln_claim_false: propext, Quot.sound
Epc.C85_sgln_partial: propext, Classical.choice, Quot.sound
Epc.C85_grai_claim_false: propext, Quot.sound
Epc.C85_grai_partial: propext, Classical.choice, Quot.sound
Epc.C85_giai_claim_false: propext, Quot.sound
Epc.C85_giai_partial: propext, Classical.choice, Quot.sound
Epc.C85_gsrn_claim_false: propext, Quot.sound
Epc.C85_gsrn_partial: propext, Classical.choice, Quot.sound
Epc.C85_gsrnp_claim_false: propext, Quot.sound
Epc.C85_gsrnp_partial: propext, Classical.choice, Quot.sound
Epc.C85_gdti_claim_false: propext, Quot.sound
Epc.C85_gdti_partial: propext, Classical.choice, Quot.sound
Epc.C85_cpi_claim_false: propext, Quot.sound
Epc.C85_cpi_partial: propext, Classical.choice, Quot.sound
Epc.C85_sgcn_claim_false: propext, Quot.sound
Epc.C85_sgcn_partial: propext, Classical.choice, Quot.sound
Epc.C85_itip_claim_false: propext, Quot.sound
Epc.C85_itip_partial: propext, Classical.choice, Quot.sound
Epc.C85_usdod_claim_false: propext, Quot.sound
Epc.C85_usdod_partial: propext, Classical.choice, Quot.sound
Epc.C85_adi: propext
Epc.C86_subclass: propext, Quot.sound
Epc.C86_families: propext, Quot.sound
Epc.C86_tag: propext
Epc.C86_gs1: propext
Epc.C86_implemented: propext
Epc.C86_init: propext
Epc.C87_claim_false: propext
Epc.C87_partial: propext, Quot.sound
Epc.C88_claim_false: propext
Epc.C88_partial: propext, Classical.choice, Quot.sound
Epc.C88_equality: propext
Epc.C88_equals_valid: propext, Classical.choice, Quot.sound
Epc.C88_from_tag_uri: propext, Classical.choice, Quot.sound
Epc.C89_accepts: propext, Classical.choice, Quot.sound
Epc.C89_serial: propext, Classical.choice, Quot.sound
Epc.C89_distinct: propext, Classical.choice, Quot.sound
Epc.C89_tag: propext, Classical.choice, Quot.sound
Epc.C90_sgtin_claim_false: propext
Epc.C90_lgtin_claim_false: propext
Epc.C90_sgtin_partial: propext, Classical.choice, Quot.sound
Epc.C90_lgtin_partial: propext, Classical.choice, Quot.sound
Epc.Src.C91_constructors: propext, Classical.choice, Quot.sound
Epc.Src.C91_epc_uri: propext, Classical.choice, Quot.sound
Epc.Src.C91_element_strings: propext, Classical.choice, Quot.sound
Epc.Src.C91_gtin_plus_serial: propext, Classical.choice, Quot.sound
Epc.Src.C91_sgtin: propext, Classical.choice, Quot.sound
Epc.Src.C91_sscc: propext, Classical.choice, Quot.sound
Epc.Src.C91_sgln: propext, Classical.choice, Quot.sound
Epc.Src.C91_grai: propext, Classical.choice, Quot.sound
Epc.Src.C91_giai: propext, Classical.choice, Quot.sound
Epc.Src.C91_gsrn: propext, Classical.choice, Quot.sound
Epc.Src.C91_gsrnp: propext, Classical.choice, Quot.sound
Epc.Src.C91_gdti: propext, Classical.choice, Quot.sound
Epc.Src.C91_sgcn: propext, Classical.choice, Quot.sound
Epc.Src.C91_cpi: propext, Classical.choice, Quot.sound
Epc.Src.C91_itip: propext, Classical.choice, Quot.sound
Epc.Src.C91_usdod: propext, Classical.choice, Quot.sound
Epc.Src.C91_adi: propext, Classical.choice, Quot.sound
Epc.Src.C91_gid: propext, Classical.choice, Quot.sound
Epc.Src.C92_element_strings: propext, Classical.choice, Quot.sound
Epc.Src.C92_keys: propext, Classical.choice, Quot.sound
Epc.Src.C92_gtin: propext, Classical.choice, Quot.sound
Epc.Src.C92_eq: propext, Classical.choice, Quot.sound
Epc.Src.C92_sgtin: propext, Classical.choice, Quot.sound
Epc.Src.C92_sscc: propext, Classical.choice, Quot.sound
Epc.Src.C92_sgln: propext, Classical.choice, Quot.sound
Epc.Src.C92_grai: propext, Classical.choice, Quot.sound
Epc.Src.C92_giai: propext, Classical.choice, Quot.sound
Epc.Src.C92_gsrn: propext, Classical.choice, Quot.sound
Epc.Src.C92_gsrnp: propext, Classical.choice, Quot.sound
Epc.Src.C92_gdti: propext, Classical.choice, Quot.sound
Epc.Src.C92_sgcn: propext, Classical.choice, Quot.sound
Epc.Src.C92_cpi: propext, Classical.choice, Quot.sound
Epc.Src.C92_itip: propext, Classical.choice, Quot.sound
Epc.Src.C92_usdod: propext, Classical.choice, Quot.sound
Epc.Src.C92_adi: propext, Classical.choice, Quot.sound
Epc.Src.C92_gid: propext, Classical.choice, Quot.sound
Epc.Src.C92_filters: propext, Classical.choice, Quot.sound
Epc.Src.C93_epc_pure_identity_to_scheme: propext, Classical.choice, Quot.sound
Epc.Src.C93_epc_pure_identity_to_gs1_element: propext, Classical.choice, Quot.sound
Epc.Src.C93_epc_pure_identity_to_gs1_keyed: propext, Classical.choice, Quot.sound
Epc.Src.C93_epc_pure_identity_to_tag_encodable: propext, Classical.choice, Quot.sound
Epc.Src.C93_tag_uri_to_tag_encodable: propext, Classical.choice, Quot.sound
Epc.Src.C93_binary_to_tag_encodable: propext, Classical.choice, Quot.sound
Epc.Src.C93_hex_to_tag_encodable: propext, Classical.choice, Quot.sound
Epc.Src.C93_base64_to_tag_encodable: propext, Classical.choice, Quot.sound
Epc.Src.C93_epc_pure_identity_to_gs1_element_string: propext, Classical.choice, Quot.sound
Epc.Src.C93_epc_pure_identity_to_gs1_key: propext, Classical.choice, Quot.sound
Epc.Src.C93_gs1_element_string_to_gs1_element: propext, Classical.choice, Quot.sound
Epc.Src.C93_get_gs1_key: propext, Classical.choice, Quot.sound
Epc.Src.C94_constructors: propext, Classical.choice, Quot.sound
Epc.Src.C94_tags: propext, Classical.choice, Quot.sound
Epc.Src.C94_element_strings: propext, Classical.choice, Quot.sound
Epc.Src.C94_written: propext, Classical.choice, Quot.sound
Epc.Src.C94_sgtin: propext, Classical.choice, Quot.sound
Epc.Src.C94_sscc: propext, Classical.choice, Quot.sound
Epc.Src.C94_sgln: propext, Classical.choice, Quot.sound
Epc.Src.C94_grai: propext, Classical.choice, Quot.sound
Epc.Src.C94_giai: propext, Classical.choice, Quot.sound
Epc.Src.C94_gsrn: propext, Classical.choice, Quot.sound
Epc.Src.C94_gsrnp: propext, Classical.choice, Quot.sound
Epc.Src.C94_gdti: propext, Classical.choice, Quot.sound
Epc.Src.C94_sgcn: propext, Classical.choice, Quot.sound
Epc.Src.C94_cpi: propext, Classical.choice, Quot.sound
Epc.Src.C94_itip: propext, Classical.choice, Quot.sound
Epc.Src.C94_usdod: propext, Classical.choice, Quot.sound
Epc.Src.C94_adi: propext, Classical.choice, Quot.sound
Epc.Src.C94_gid: propext, Classical.choice, Quot.sound
Epc.Src.C94_functions: propext, Classical.choice, Quot.sound
Epc.Src.C94_functions_more: propext, Classical.choice, Quot.sound
Epc.Src.C95_sgtin_tag_uri: propext, Classical.choice, Quot.sound
Epc.Src.C95_sgtin_binary: propext, Classical.choice, Quot.sound
Epc.Src.C95_sscc_tag_uri: propext, Classical.choice, Quot.sound
Epc.Src.C95_sscc_tag_uri_default: propext, Classical.choice, Quot.sound
Epc.Src.C95_sscc_binary: propext, Classical.choice, Quot.sound
Epc.Src.C95_sscc_binary_default: propext, Classical.choice, Quot.sound
Epc.Src.C95_sgln_tag_uri: propext, Classical.choice, Quot.sound
Epc.Src.C95_sgln_binary: propext, Classical.choice, Quot.sound
Epc.Src.C95_grai_tag_uri: propext, Classical.choice, Quot.sound
Epc.Src.C95_grai_binary: propext, Classical.choice, Quot.sound
Epc.Src.C95_giai_tag_uri: propext, Classical.choice, Quot.sound
Epc.Src.C95_giai_binary: propext, Classical.choice, Quot.sound
Epc.Src.C95_gsrn_tag_uri: propext, Classical.choice, Quot.sound
Epc.Src.C95_gsrn_tag_uri_default: propext, Classical.choice, Quot.sound
Epc.Src.C95_gsrn_tag_uri_default_filter: propext, Classical.choice, Quot.sound
Epc.Src.C95_gsrn_binary: propext, Classical.choice, Quot.sound
Epc.Src.C95_gsrn_binary_default: propext, Classical.choice, Quot.sound
Epc.Src.C95_gsrn_binary_default_filter: propext, Classical.choice, Quot.sound
Epc.Src.C95_gsrnp_tag_uri: propext, Classical.choice, Quot.sound
Epc.Src.C95_gsrnp_tag_uri_default: propext, Classical.choice, Quot.sound
Epc.Src.C95_gsrnp_tag_uri_default_filter: propext, Classical.choice, Quot.sound
Epc.Src.C95_gsrnp_binary: propext, Classical.choice, Quot.sound
Epc.Src.C95_gsrnp_binary_default: propext, Classical.choice, Quot.sound
Epc.Src.C95_gsrnp_binary_default_filter: propext, Classical.choice, Quot.sound
Epc.Src.C95_gdti_tag_uri: propext, Classical.choice, Quot.sound
Epc.Src.C95_gdti_binary: propext, Classical.choice, Quot.sound
Epc.Src.C95_sgcn_tag_uri: propext, Classical.choice, Quot.sound
Epc.Src.C95_sgcn_tag_uri_default: propext, Classical.choice, Quot.sound
Epc.Src.C95_sgcn_binary: propext, Classical.choice, Quot.sound
Epc.Src.C95_sgcn_binary_default: propext, Classical.choice, Quot.sound
Epc.Src.C95_cpi_tag_uri: propext, Classical.choice, Quot.sound
Epc.Src.C95_cpi_binary: propext, Classical.choice, Quot.sound
Epc.Src.C95_itip_tag_uri: propext, Classical.choice, Quot.sound
Epc.Src.C95_itip_binary: propext, Classical.choice, Quot.sound
Epc.Src.C95_usdod_tag_uri: propext, Classical.choice, Quot.sound
Epc.Src.C95_usdod_tag_uri_default: propext, Classical.choice, Quot.sound
Epc.Src.C95_usdod_binary: propext, Classical.choice, Quot.sound
Epc.Src.C95_usdod_binary_default: propext, Classical.choice, Quot.sound
Epc.Src.C95_adi_tag_uri: propext, Classical.choice, Quot.sound
Epc.Src.C95_adi_tag_uri_default: propext, Classical.choice, Quot.sound
Epc.Src.C95_adi_binary: propext, Classical.choice, Quot.sound
Epc.Src.C95_adi_binary_default: propext, Classical.choice, Quot.sound
Epc.Src.C95_gid_tag_uri: propext, Classical.choice, Quot.sound
Epc.Src.C95_gid_binary: propext, Classical.choice, Quot.sound
Epc.Src.C95_gtin: propext, Classical.choice, Quot.sound
Epc.Src.C95_readers: propext, Classical.choice, Quot.sound
Epc.Src.C95_functions: propext, Classical.choice, Quot.sound
Epc.Grammar.C96_compile: propext, Classical.choice, Quot.sound
Epc.Grammar.C96_uri: propext, Classical.choice, Quot.sound
Epc.Grammar.C96_epc_uri: propext, Classical.choice, Quot.sound
Epc.Grammar.C96_tag_uri: propext, Classical.choice, Quot.sound
Epc.Grammar.C96_idpat_uri: propext, Classical.choice, Quot.sound
Epc.Grammar.C96_itip_wildcards: propext, Classical.choice, Quot.sound
Epc.Grammar.C96_element_string: propext, Classical.choice, Quot.sound
Epc.Grammar.C96_element_string_classes: none
Epc.Grammar.C96_gs1_element_string: propext, Classical.choice, Quot.sound
Epc.Grammar.C96_fields: propext, Classical.choice, Quot.sound
Epc.Src.C97_chain: propext, Classical.choice, Quot.sound
Epc.Src.C97_uri: propext, Classical.choice, Quot.sound
Epc.Src.C97_parsed: propext, Classical.choice, Quot.sound
Epc.Src.C97_arrives: propext, Classical.choice, Quot.sound
Epc.Src.C98_filters: propext, Classical.choice, Quot.sound
Epc.Src.C98_coding: propext, Classical.choice, Quot.sound
Epc.Src.C98_filter: propext, Classical.choice, Quot.sound
Epc.Src.C98_gtin: propext, Classical.choice, Quot.sound
Epc.Src.C98_serial: propext, Classical.choice, Quot.sound
Epc.Src.C99_writers: propext, Classical.choice, Quot.sound
Epc.Src.C99_hex: propext, Classical.choice, Quot.sound
Epc.Src.C99_keys: propext, Classical.choice, Quot.sound
Epc.Src.C99_readers: propext, Classical.choice, Quot.sound
Epc.Src.C99_constructors: propext, Classical.choice, Quot.sound
Epc.Src.C99_functions: propext, Classical.choice, Quot.sound
Epc.Src.C100_assignments: propext
Epc.Src.C100_object: propext, Classical.choice, Quot.sound
Epc.Src.C100_compared: propext, Classical.choice, Quot.sound
Epc.Src.C100_history: propext, Classical.choice, Quot.sound
Epc.Src.C101_instance: propext, Classical.choice, Quot.sound
Epc.Src.C101_families: propext, Quot.sound
Epc.Src.C101_missing: propext, Classical.choice, Quot.sound
Epc.Src.C101_base: propext, Classical.choice, Quot.sound
Epc.Src.C101_abstract: propext, Classical.choice, Quot.sound
Epc.Src.C101_abstract_readers: propext, Classical.choice, Quot.sound
Epc.Src.C101_equality: propext, Classical.choice, Quot.sound
Epc.Src.C101_from_tag_uri: propext, Classical.choice, Quot.sound
Epc.Src.C102_attribute: propext
Epc.Src.C102_tag_uri: propext, Classical.choice, Quot.sound
Epc.Src.C102_calls: propext, Classical.choice, Quot.sound
Epc.Src.C102_undisturbed: propext, Classical.choice, Quot.sound
Epc.Src.C102_ends: propext, Classical.choice, Quot.sound
Epc.Src.C102_race: propext, Classical.choice, Quot.sound
Epc.Src.C103_passing: propext, Classical.choice, Quot.sound
Epc.Src.C103_source: propext, Classical.choice, Quot.sound
Epc.Src.C103_pure: propext, Classical.choice, Quot.sound
Epc.Src.C103_unknown: propext, Classical.choice, Quot.sound
Epc.Src.C103_gtin_type: propext, Classical.choice, Quot.sound
Epc.Src.C104_tags: propext, Classical.choice, Quot.sound
Epc.Src.C104_all: propext, Classical.choice, Quot.sound
Epc.Src.C104_gtin: propext, Classical.choice, Quot.sound
Epc.C105_objects: propext, Classical.choice, Quot.sound
Epc.C105_uri: propext, Classical.choice, Quot.sound
Epc.C105_get_gs1_key: propext, Classical.choice, Quot.sound
Epc.C105_dot: propext
Epc.Src.C105_source: propext, Classical.choice, Quot.sound
Epc.Src.C105_get_gs1_key_source: propext, Classical.choice, Quot.sound
Epc.C106_lgtin: propext, Classical.choice, Quot.sound
Epc.C106_upui: propext, Classical.choice, Quot.sound
Epc.C106_itip: propext, Classical.choice, Quot.sound
Epc.C106_lgtin_accepted: propext, Classical.choice, Quot.sound
Epc.C106_pgln: propext, Quot.sound
Epc.C106_pgln_accepted: propext, Quot.sound
Epc.C106_gsrnp: propext, Quot.sound
Epc.Src.C106_source: propext, Classical.choice, Quot.sound
Epc.Src.C106_element_source: propext, Classical.choice, Quot.sound
Epc.C107_keys: propext, Classical.choice, Quot.sound
Epc.C107_interchanged: propext, Classical.choice, Quot.sound
Epc.C107_elements: propext, Classical.choice, Quot.sound
Epc.C107_detected: propext, Classical.choice, Quot.sound
Epc.Src.C107_keys_source: propext, Classical.choice, Quot.sound
Epc.Src.C107_detected_source: propext, Classical.choice, Quot.sound
Epc.C108_keys: propext, Classical.choice, Quot.sound
Epc.C108_same_length: propext, Classical.choice, Quot.sound
Epc.Src.C108_source: propext, Classical.choice, Quot.sound
Epc.C109_fixed: propext, Classical.choice, Quot.sound
Epc.C109_fixed_hex: propext, Classical.choice, Quot.sound
Epc.C109_binary: propext, Classical.choice, Quot.sound
Epc.C109_hex: propext, Classical.choice, Quot.sound
Epc.Src.C109_source: propext, Classical.choice, Quot.sound
Epc.Src.C110_item: propext, Classical.choice, Quot.sound
Epc.Src.C110_distinct: propext, Classical.choice, Quot.sound
Epc.Src.C111_class: propext, Classical.choice, Quot.sound
Epc.Src.C111_label: propext, Classical.choice, Quot.sound
Epc.Src.C111_needed: propext, Classical.choice, Quot.sound
Epc.Src.C112_binary: propext, Classical.choice, Quot.sound
Epc.Src.C112_hex: propext, Classical.choice, Quot.sound
Epc.Src.C112_base64: propext, Classical.choice, Quot.sound
Epc.Src.C112_always: propext, Classical.choice, Quot.sound
Epc.Src.C112_always_hex: propext, Classical.choice, Quot.sound
Epc.Src.C112_needed: propext, Classical.choice, Quot.sound
