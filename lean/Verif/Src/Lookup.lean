/-
What the names of the modules and the attributes of the classes are.
Generated by tools/gen_src.py from the syntax trees of /repo/epcpy.
-/
import Verif.Src.Simp

namespace Epc.Src

@[src] theorem g_common_ConvertException (L : Level) : globalVal L .common .ConvertException = .ok (.cls .ConvertException) := rfl
@[src] theorem g_common_ESCAPE_CHARACTERS (L : Level) : globalVal L .common .ESCAPE_CHARACTERS = L.const .common [] Src.common.ESCAPE_CHARACTERS := rfl
@[src] theorem g_common_VERIFY_GS3A3_CHARS (L : Level) : globalVal L .common .VERIFY_GS3A3_CHARS = .ok (.str Src.regex.VERIFY_GS3A3_CHARS) := rfl
@[src] theorem g_common_VERIFY_GS3A3_CHARS_REGEX (L : Level) : globalVal L .common .VERIFY_GS3A3_CHARS_REGEX = L.const .common [] Src.common.VERIFY_GS3A3_CHARS_REGEX := rfl
@[src] theorem g_common_base64 (L : Level) : globalVal L .common .base64 = .ok (.module .base64) := rfl
@[src] theorem g_common_binary_to_int (L : Level) : globalVal L .common .binary_to_int = .ok (.func Src.common.binary_to_int) := rfl
@[src] theorem g_common_bytes (L : Level) : globalVal L .common .bytes = .ok (.module .bytes) := rfl
@[src] theorem g_common_chr (L : Level) : globalVal L .common .chr = .ok (.builtin .chr) := rfl
@[src] theorem g_common_decode_binary_char (L : Level) : globalVal L .common .decode_binary_char = .ok (.func Src.common.decode_binary_char) := rfl
@[src] theorem g_common_decode_string (L : Level) : globalVal L .common .decode_string = .ok (.func Src.common.decode_string) := rfl
@[src] theorem g_common_decode_string_six_bits (L : Level) : globalVal L .common .decode_string_six_bits = .ok (.func Src.common.decode_string_six_bits) := rfl
@[src] theorem g_common_encode_string (L : Level) : globalVal L .common .encode_string = .ok (.func Src.common.encode_string) := rfl
@[src] theorem g_common_encode_string_six_bits (L : Level) : globalVal L .common .encode_string_six_bits = .ok (.func Src.common.encode_string_six_bits) := rfl
@[src] theorem g_common_int (L : Level) : globalVal L .common .int = .ok (.builtin .int) := rfl
@[src] theorem g_common_int_to_binary (L : Level) : globalVal L .common .int_to_binary = .ok (.func Src.common.int_to_binary) := rfl
@[src] theorem g_common_len (L : Level) : globalVal L .common .len = .ok (.builtin .len) := rfl
@[src] theorem g_common_list (L : Level) : globalVal L .common .list = .ok (.builtin .list) := rfl
@[src] theorem g_common_log (L : Level) : globalVal L .common .log = .ok (.builtin .log) := rfl
@[src] theorem g_common_map (L : Level) : globalVal L .common .map = .ok (.builtin .map) := rfl
@[src] theorem g_common_ord (L : Level) : globalVal L .common .ord = .ok (.builtin .ord) := rfl
@[src] theorem g_common_pow (L : Level) : globalVal L .common .pow = .ok (.builtin .pow) := rfl
@[src] theorem g_common_re (L : Level) : globalVal L .common .re = .ok (.module .re) := rfl
@[src] theorem g_common_str (L : Level) : globalVal L .common .str = .ok (.builtin .str) := rfl
@[src] theorem g_common_str_to_binary (L : Level) : globalVal L .common .str_to_binary = .ok (.func Src.common.str_to_binary) := rfl
@[src] theorem g_common_sum (L : Level) : globalVal L .common .sum = .ok (.builtin .sum) := rfl
@[src] theorem g_common_super (L : Level) : globalVal L .common .super = .ok (.builtin .super) := rfl
@[src] theorem g_base_scheme_ConvertException (L : Level) : globalVal L .base_scheme .ConvertException = .ok (.cls .ConvertException) := rfl
@[src] theorem g_base_scheme_EPCScheme (L : Level) : globalVal L .base_scheme .EPCScheme = .ok (.cls .EPCScheme) := rfl
@[src] theorem g_base_scheme_GS1Element (L : Level) : globalVal L .base_scheme .GS1Element = .ok (.cls .GS1Element) := rfl
@[src] theorem g_base_scheme_NotImplementedError (L : Level) : globalVal L .base_scheme .NotImplementedError = .ok (.exn .notImplemented) := rfl
@[src] theorem g_base_scheme_TAG_URI (L : Level) : globalVal L .base_scheme .TAG_URI = .ok (.str Src.regex.TAG_URI) := rfl
@[src] theorem g_base_scheme_TagEncodable (L : Level) : globalVal L .base_scheme .TagEncodable = .ok (.cls .TagEncodable) := rfl
@[src] theorem g_base_scheme_base64_to_hex (L : Level) : globalVal L .base_scheme .base64_to_hex = .ok (.func Src.common.base64_to_hex) := rfl
@[src] theorem g_base_scheme_hex_to_base64 (L : Level) : globalVal L .base_scheme .hex_to_base64 = .ok (.func Src.common.hex_to_base64) := rfl
@[src] theorem g_base_scheme_hex_to_binary (L : Level) : globalVal L .base_scheme .hex_to_binary = .ok (.func Src.common.hex_to_binary) := rfl
@[src] theorem g_base_scheme_int (L : Level) : globalVal L .base_scheme .int = .ok (.builtin .int) := rfl
@[src] theorem g_base_scheme_isinstance (L : Level) : globalVal L .base_scheme .isinstance = .ok (.builtin .isinstance) := rfl
@[src] theorem g_base_scheme_len (L : Level) : globalVal L .base_scheme .len = .ok (.builtin .len) := rfl
@[src] theorem g_base_scheme_re (L : Level) : globalVal L .base_scheme .re = .ok (.module .re) := rfl
@[src] theorem g_base_scheme_str (L : Level) : globalVal L .base_scheme .str = .ok (.builtin .str) := rfl
@[src] theorem g_base_scheme_super (L : Level) : globalVal L .base_scheme .super = .ok (.builtin .super) := rfl
@[src] theorem g_adi_ADI (L : Level) : globalVal L .adi .ADI = .ok (.cls .ADI) := rfl
@[src] theorem g_adi_ADIFilterValue (L : Level) : globalVal L .adi .ADIFilterValue = .ok (.cls .ADIFilterValue) := rfl
@[src] theorem g_adi_ADI_URI (L : Level) : globalVal L .adi .ADI_URI = .ok (.str Src.regex.ADI_URI) := rfl
@[src] theorem g_adi_ADI_URI_REGEX (L : Level) : globalVal L .adi .ADI_URI_REGEX = L.const .adi [] Src.adi.ADI_URI_REGEX := rfl
@[src] theorem g_adi_ConvertException (L : Level) : globalVal L .adi .ConvertException = .ok (.cls .ConvertException) := rfl
@[src] theorem g_adi_TagEncodable (L : Level) : globalVal L .adi .TagEncodable = .ok (.cls .TagEncodable) := rfl
@[src] theorem g_adi_binary_to_int (L : Level) : globalVal L .adi .binary_to_int = .ok (.func Src.common.binary_to_int) := rfl
@[src] theorem g_adi_decode_cage_code_six_bits (L : Level) : globalVal L .adi .decode_cage_code_six_bits = .ok (.func Src.common.decode_cage_code_six_bits) := rfl
@[src] theorem g_adi_decode_string_six_bits (L : Level) : globalVal L .adi .decode_string_six_bits = .ok (.func Src.common.decode_string_six_bits) := rfl
@[src] theorem g_adi_encode_cage_code_six_bits (L : Level) : globalVal L .adi .encode_cage_code_six_bits = .ok (.func Src.common.encode_cage_code_six_bits) := rfl
@[src] theorem g_adi_encode_string_six_bits (L : Level) : globalVal L .adi .encode_string_six_bits = .ok (.func Src.common.encode_string_six_bits) := rfl
@[src] theorem g_adi_len (L : Level) : globalVal L .adi .len = .ok (.builtin .len) := rfl
@[src] theorem g_adi_parse_header_and_truncate_binary (L : Level) : globalVal L .adi .parse_header_and_truncate_binary = .ok (.func Src.common.parse_header_and_truncate_binary) := rfl
@[src] theorem g_adi_re (L : Level) : globalVal L .adi .re = .ok (.module .re) := rfl
@[src] theorem g_adi_str (L : Level) : globalVal L .adi .str = .ok (.builtin .str) := rfl
@[src] theorem g_adi_str_to_binary (L : Level) : globalVal L .adi .str_to_binary = .ok (.func Src.common.str_to_binary) := rfl
@[src] theorem g_adi_super (L : Level) : globalVal L .adi .super = .ok (.builtin .super) := rfl
@[src] theorem g_bic_BIC_URI (L : Level) : globalVal L .bic .BIC_URI = .ok (.str Src.regex.BIC_URI) := rfl
@[src] theorem g_bic_BIC_URI_REGEX (L : Level) : globalVal L .bic .BIC_URI_REGEX = L.const .bic [] Src.bic.BIC_URI_REGEX := rfl
@[src] theorem g_bic_ConvertException (L : Level) : globalVal L .bic .ConvertException = .ok (.cls .ConvertException) := rfl
@[src] theorem g_bic_EPCScheme (L : Level) : globalVal L .bic .EPCScheme = .ok (.cls .EPCScheme) := rfl
@[src] theorem g_bic_re (L : Level) : globalVal L .bic .re = .ok (.module .re) := rfl
@[src] theorem g_bic_super (L : Level) : globalVal L .bic .super = .ok (.builtin .super) := rfl
@[src] theorem g_cpi_CPI (L : Level) : globalVal L .cpi .CPI = .ok (.cls .CPI) := rfl
@[src] theorem g_cpi_CPIFilterValue (L : Level) : globalVal L .cpi .CPIFilterValue = .ok (.cls .CPIFilterValue) := rfl
@[src] theorem g_cpi_CPI_GS1_ELEMENT_STRING (L : Level) : globalVal L .cpi .CPI_GS1_ELEMENT_STRING = .ok (.str Src.regex.CPI_GS1_ELEMENT_STRING) := rfl
@[src] theorem g_cpi_CPI_URI (L : Level) : globalVal L .cpi .CPI_URI = .ok (.str Src.regex.CPI_URI) := rfl
@[src] theorem g_cpi_CPI_URI_REGEX (L : Level) : globalVal L .cpi .CPI_URI_REGEX = L.const .cpi [] Src.cpi.CPI_URI_REGEX := rfl
@[src] theorem g_cpi_ConvertException (L : Level) : globalVal L .cpi .ConvertException = .ok (.cls .ConvertException) := rfl
@[src] theorem g_cpi_GS1Element (L : Level) : globalVal L .cpi .GS1Element = .ok (.cls .GS1Element) := rfl
@[src] theorem g_cpi_PARTITION_TABLE_L_96 (L : Level) : globalVal L .cpi .PARTITION_TABLE_L_96 = L.const .cpi [] Src.cpi.PARTITION_TABLE_L_96 := rfl
@[src] theorem g_cpi_PARTITION_TABLE_L_VAR (L : Level) : globalVal L .cpi .PARTITION_TABLE_L_VAR = L.const .cpi [] Src.cpi.PARTITION_TABLE_L_VAR := rfl
@[src] theorem g_cpi_PARTITION_TABLE_P_96 (L : Level) : globalVal L .cpi .PARTITION_TABLE_P_96 = L.const .cpi [] Src.cpi.PARTITION_TABLE_P_96 := rfl
@[src] theorem g_cpi_PARTITION_TABLE_P_VAR (L : Level) : globalVal L .cpi .PARTITION_TABLE_P_VAR = L.const .cpi [] Src.cpi.PARTITION_TABLE_P_VAR := rfl
@[src] theorem g_cpi_TagEncodable (L : Level) : globalVal L .cpi .TagEncodable = .ok (.cls .TagEncodable) := rfl
@[src] theorem g_cpi_binary_to_int (L : Level) : globalVal L .cpi .binary_to_int = .ok (.func Src.common.binary_to_int) := rfl
@[src] theorem g_cpi_decode_partition_table (L : Level) : globalVal L .cpi .decode_partition_table = .ok (.func Src.common.decode_partition_table) := rfl
@[src] theorem g_cpi_encode_partition_table (L : Level) : globalVal L .cpi .encode_partition_table = .ok (.func Src.common.encode_partition_table) := rfl
@[src] theorem g_cpi_int (L : Level) : globalVal L .cpi .int = .ok (.builtin .int) := rfl
@[src] theorem g_cpi_len (L : Level) : globalVal L .cpi .len = .ok (.builtin .len) := rfl
@[src] theorem g_cpi_parse_header_and_truncate_binary (L : Level) : globalVal L .cpi .parse_header_and_truncate_binary = .ok (.func Src.common.parse_header_and_truncate_binary) := rfl
@[src] theorem g_cpi_pow (L : Level) : globalVal L .cpi .pow = .ok (.builtin .pow) := rfl
@[src] theorem g_cpi_re (L : Level) : globalVal L .cpi .re = .ok (.module .re) := rfl
@[src] theorem g_cpi_replace_cpi_escapes (L : Level) : globalVal L .cpi .replace_cpi_escapes = .ok (.func Src.cpi.replace_cpi_escapes) := rfl
@[src] theorem g_cpi_revert_cpi_escapes (L : Level) : globalVal L .cpi .revert_cpi_escapes = .ok (.func Src.cpi.revert_cpi_escapes) := rfl
@[src] theorem g_cpi_str (L : Level) : globalVal L .cpi .str = .ok (.builtin .str) := rfl
@[src] theorem g_cpi_str_to_binary (L : Level) : globalVal L .cpi .str_to_binary = .ok (.func Src.common.str_to_binary) := rfl
@[src] theorem g_cpi_super (L : Level) : globalVal L .cpi .super = .ok (.builtin .super) := rfl
@[src] theorem g_gdti_ConvertException (L : Level) : globalVal L .gdti .ConvertException = .ok (.cls .ConvertException) := rfl
@[src] theorem g_gdti_GDTI (L : Level) : globalVal L .gdti .GDTI = .ok (.cls .GDTI) := rfl
@[src] theorem g_gdti_GDTIFilterValue (L : Level) : globalVal L .gdti .GDTIFilterValue = .ok (.cls .GDTIFilterValue) := rfl
@[src] theorem g_gdti_GDTI_GS1_ELEMENT_STRING (L : Level) : globalVal L .gdti .GDTI_GS1_ELEMENT_STRING = .ok (.str Src.regex.GDTI_GS1_ELEMENT_STRING) := rfl
@[src] theorem g_gdti_GDTI_URI (L : Level) : globalVal L .gdti .GDTI_URI = .ok (.str Src.regex.GDTI_URI) := rfl
@[src] theorem g_gdti_GDTI_URI_REGEX (L : Level) : globalVal L .gdti .GDTI_URI_REGEX = L.const .gdti [] Src.gdti.GDTI_URI_REGEX := rfl
@[src] theorem g_gdti_GS1Keyed (L : Level) : globalVal L .gdti .GS1Keyed = .ok (.cls .GS1Keyed) := rfl
@[src] theorem g_gdti_PARTITION_TABLE_L (L : Level) : globalVal L .gdti .PARTITION_TABLE_L = L.const .gdti [] Src.gdti.PARTITION_TABLE_L := rfl
@[src] theorem g_gdti_PARTITION_TABLE_P (L : Level) : globalVal L .gdti .PARTITION_TABLE_P = L.const .gdti [] Src.gdti.PARTITION_TABLE_P := rfl
@[src] theorem g_gdti_TagEncodable (L : Level) : globalVal L .gdti .TagEncodable = .ok (.cls .TagEncodable) := rfl
@[src] theorem g_gdti_binary_to_int (L : Level) : globalVal L .gdti .binary_to_int = .ok (.func Src.common.binary_to_int) := rfl
@[src] theorem g_gdti_calculate_checksum (L : Level) : globalVal L .gdti .calculate_checksum = .ok (.func Src.common.calculate_checksum) := rfl
@[src] theorem g_gdti_decode_partition_table (L : Level) : globalVal L .gdti .decode_partition_table = .ok (.func Src.common.decode_partition_table) := rfl
@[src] theorem g_gdti_decode_string (L : Level) : globalVal L .gdti .decode_string = .ok (.func Src.common.decode_string) := rfl
@[src] theorem g_gdti_encode_partition_table (L : Level) : globalVal L .gdti .encode_partition_table = .ok (.func Src.common.encode_partition_table) := rfl
@[src] theorem g_gdti_encode_string (L : Level) : globalVal L .gdti .encode_string = .ok (.func Src.common.encode_string) := rfl
@[src] theorem g_gdti_int (L : Level) : globalVal L .gdti .int = .ok (.builtin .int) := rfl
@[src] theorem g_gdti_len (L : Level) : globalVal L .gdti .len = .ok (.builtin .len) := rfl
@[src] theorem g_gdti_parse_header_and_truncate_binary (L : Level) : globalVal L .gdti .parse_header_and_truncate_binary = .ok (.func Src.common.parse_header_and_truncate_binary) := rfl
@[src] theorem g_gdti_pow (L : Level) : globalVal L .gdti .pow = .ok (.builtin .pow) := rfl
@[src] theorem g_gdti_re (L : Level) : globalVal L .gdti .re = .ok (.module .re) := rfl
@[src] theorem g_gdti_replace_uri_escapes (L : Level) : globalVal L .gdti .replace_uri_escapes = .ok (.func Src.common.replace_uri_escapes) := rfl
@[src] theorem g_gdti_revert_uri_escapes (L : Level) : globalVal L .gdti .revert_uri_escapes = .ok (.func Src.common.revert_uri_escapes) := rfl
@[src] theorem g_gdti_str (L : Level) : globalVal L .gdti .str = .ok (.builtin .str) := rfl
@[src] theorem g_gdti_str_to_binary (L : Level) : globalVal L .gdti .str_to_binary = .ok (.func Src.common.str_to_binary) := rfl
@[src] theorem g_gdti_super (L : Level) : globalVal L .gdti .super = .ok (.builtin .super) := rfl
@[src] theorem g_gdti_verify_gs3a3_component (L : Level) : globalVal L .gdti .verify_gs3a3_component = .ok (.func Src.common.verify_gs3a3_component) := rfl
@[src] theorem g_giai_ConvertException (L : Level) : globalVal L .giai .ConvertException = .ok (.cls .ConvertException) := rfl
@[src] theorem g_giai_GIAI (L : Level) : globalVal L .giai .GIAI = .ok (.cls .GIAI) := rfl
@[src] theorem g_giai_GIAIFilterValue (L : Level) : globalVal L .giai .GIAIFilterValue = .ok (.cls .GIAIFilterValue) := rfl
@[src] theorem g_giai_GIAI_GS1_ELEMENT_STRING (L : Level) : globalVal L .giai .GIAI_GS1_ELEMENT_STRING = .ok (.str Src.regex.GIAI_GS1_ELEMENT_STRING) := rfl
@[src] theorem g_giai_GIAI_URI (L : Level) : globalVal L .giai .GIAI_URI = .ok (.str Src.regex.GIAI_URI) := rfl
@[src] theorem g_giai_GIAI_URI_REGEX (L : Level) : globalVal L .giai .GIAI_URI_REGEX = L.const .giai [] Src.giai.GIAI_URI_REGEX := rfl
@[src] theorem g_giai_GS1Keyed (L : Level) : globalVal L .giai .GS1Keyed = .ok (.cls .GS1Keyed) := rfl
@[src] theorem g_giai_PARTITION_TABLE_L_202 (L : Level) : globalVal L .giai .PARTITION_TABLE_L_202 = L.const .giai [] Src.giai.PARTITION_TABLE_L_202 := rfl
@[src] theorem g_giai_PARTITION_TABLE_L_96 (L : Level) : globalVal L .giai .PARTITION_TABLE_L_96 = L.const .giai [] Src.giai.PARTITION_TABLE_L_96 := rfl
@[src] theorem g_giai_PARTITION_TABLE_P_202 (L : Level) : globalVal L .giai .PARTITION_TABLE_P_202 = L.const .giai [] Src.giai.PARTITION_TABLE_P_202 := rfl
@[src] theorem g_giai_PARTITION_TABLE_P_96 (L : Level) : globalVal L .giai .PARTITION_TABLE_P_96 = L.const .giai [] Src.giai.PARTITION_TABLE_P_96 := rfl
@[src] theorem g_giai_TagEncodable (L : Level) : globalVal L .giai .TagEncodable = .ok (.cls .TagEncodable) := rfl
@[src] theorem g_giai_binary_to_int (L : Level) : globalVal L .giai .binary_to_int = .ok (.func Src.common.binary_to_int) := rfl
@[src] theorem g_giai_decode_partition_table (L : Level) : globalVal L .giai .decode_partition_table = .ok (.func Src.common.decode_partition_table) := rfl
@[src] theorem g_giai_encode_partition_table (L : Level) : globalVal L .giai .encode_partition_table = .ok (.func Src.common.encode_partition_table) := rfl
@[src] theorem g_giai_int (L : Level) : globalVal L .giai .int = .ok (.builtin .int) := rfl
@[src] theorem g_giai_len (L : Level) : globalVal L .giai .len = .ok (.builtin .len) := rfl
@[src] theorem g_giai_parse_header_and_truncate_binary (L : Level) : globalVal L .giai .parse_header_and_truncate_binary = .ok (.func Src.common.parse_header_and_truncate_binary) := rfl
@[src] theorem g_giai_pow (L : Level) : globalVal L .giai .pow = .ok (.builtin .pow) := rfl
@[src] theorem g_giai_re (L : Level) : globalVal L .giai .re = .ok (.module .re) := rfl
@[src] theorem g_giai_replace_uri_escapes (L : Level) : globalVal L .giai .replace_uri_escapes = .ok (.func Src.common.replace_uri_escapes) := rfl
@[src] theorem g_giai_revert_uri_escapes (L : Level) : globalVal L .giai .revert_uri_escapes = .ok (.func Src.common.revert_uri_escapes) := rfl
@[src] theorem g_giai_str (L : Level) : globalVal L .giai .str = .ok (.builtin .str) := rfl
@[src] theorem g_giai_str_to_binary (L : Level) : globalVal L .giai .str_to_binary = .ok (.func Src.common.str_to_binary) := rfl
@[src] theorem g_giai_super (L : Level) : globalVal L .giai .super = .ok (.builtin .super) := rfl
@[src] theorem g_giai_verify_gs3a3_component (L : Level) : globalVal L .giai .verify_gs3a3_component = .ok (.func Src.common.verify_gs3a3_component) := rfl
@[src] theorem g_gid_ConvertException (L : Level) : globalVal L .gid .ConvertException = .ok (.cls .ConvertException) := rfl
@[src] theorem g_gid_GID (L : Level) : globalVal L .gid .GID = .ok (.cls .GID) := rfl
@[src] theorem g_gid_GID_URI (L : Level) : globalVal L .gid .GID_URI = .ok (.str Src.regex.GID_URI) := rfl
@[src] theorem g_gid_GID_URI_REGEX (L : Level) : globalVal L .gid .GID_URI_REGEX = L.const .gid [] Src.gid.GID_URI_REGEX := rfl
@[src] theorem g_gid_TagEncodable (L : Level) : globalVal L .gid .TagEncodable = .ok (.cls .TagEncodable) := rfl
@[src] theorem g_gid_binary_to_int (L : Level) : globalVal L .gid .binary_to_int = .ok (.func Src.common.binary_to_int) := rfl
@[src] theorem g_gid_int (L : Level) : globalVal L .gid .int = .ok (.builtin .int) := rfl
@[src] theorem g_gid_len (L : Level) : globalVal L .gid .len = .ok (.builtin .len) := rfl
@[src] theorem g_gid_parse_header_and_truncate_binary (L : Level) : globalVal L .gid .parse_header_and_truncate_binary = .ok (.func Src.common.parse_header_and_truncate_binary) := rfl
@[src] theorem g_gid_pow (L : Level) : globalVal L .gid .pow = .ok (.builtin .pow) := rfl
@[src] theorem g_gid_re (L : Level) : globalVal L .gid .re = .ok (.module .re) := rfl
@[src] theorem g_gid_str (L : Level) : globalVal L .gid .str = .ok (.builtin .str) := rfl
@[src] theorem g_gid_str_to_binary (L : Level) : globalVal L .gid .str_to_binary = .ok (.func Src.common.str_to_binary) := rfl
@[src] theorem g_gid_super (L : Level) : globalVal L .gid .super = .ok (.builtin .super) := rfl
@[src] theorem g_ginc_ConvertException (L : Level) : globalVal L .ginc .ConvertException = .ok (.cls .ConvertException) := rfl
@[src] theorem g_ginc_GINC (L : Level) : globalVal L .ginc .GINC = .ok (.cls .GINC) := rfl
@[src] theorem g_ginc_GINC_GS1_ELEMENT_STRING (L : Level) : globalVal L .ginc .GINC_GS1_ELEMENT_STRING = .ok (.str Src.regex.GINC_GS1_ELEMENT_STRING) := rfl
@[src] theorem g_ginc_GINC_URI (L : Level) : globalVal L .ginc .GINC_URI = .ok (.str Src.regex.GINC_URI) := rfl
@[src] theorem g_ginc_GINC_URI_REGEX (L : Level) : globalVal L .ginc .GINC_URI_REGEX = L.const .ginc [] Src.ginc.GINC_URI_REGEX := rfl
@[src] theorem g_ginc_GS1Keyed (L : Level) : globalVal L .ginc .GS1Keyed = .ok (.cls .GS1Keyed) := rfl
@[src] theorem g_ginc_int (L : Level) : globalVal L .ginc .int = .ok (.builtin .int) := rfl
@[src] theorem g_ginc_len (L : Level) : globalVal L .ginc .len = .ok (.builtin .len) := rfl
@[src] theorem g_ginc_re (L : Level) : globalVal L .ginc .re = .ok (.module .re) := rfl
@[src] theorem g_ginc_replace_uri_escapes (L : Level) : globalVal L .ginc .replace_uri_escapes = .ok (.func Src.common.replace_uri_escapes) := rfl
@[src] theorem g_ginc_revert_uri_escapes (L : Level) : globalVal L .ginc .revert_uri_escapes = .ok (.func Src.common.revert_uri_escapes) := rfl
@[src] theorem g_ginc_str (L : Level) : globalVal L .ginc .str = .ok (.builtin .str) := rfl
@[src] theorem g_ginc_super (L : Level) : globalVal L .ginc .super = .ok (.builtin .super) := rfl
@[src] theorem g_ginc_verify_gs3a3_component (L : Level) : globalVal L .ginc .verify_gs3a3_component = .ok (.func Src.common.verify_gs3a3_component) := rfl
@[src] theorem g_grai_ConvertException (L : Level) : globalVal L .grai .ConvertException = .ok (.cls .ConvertException) := rfl
@[src] theorem g_grai_GRAI (L : Level) : globalVal L .grai .GRAI = .ok (.cls .GRAI) := rfl
@[src] theorem g_grai_GRAIFilterValue (L : Level) : globalVal L .grai .GRAIFilterValue = .ok (.cls .GRAIFilterValue) := rfl
@[src] theorem g_grai_GRAI_GS1_ELEMENT_STRING (L : Level) : globalVal L .grai .GRAI_GS1_ELEMENT_STRING = .ok (.str Src.regex.GRAI_GS1_ELEMENT_STRING) := rfl
@[src] theorem g_grai_GRAI_URI (L : Level) : globalVal L .grai .GRAI_URI = .ok (.str Src.regex.GRAI_URI) := rfl
@[src] theorem g_grai_GRAI_URI_REGEX (L : Level) : globalVal L .grai .GRAI_URI_REGEX = L.const .grai [] Src.grai.GRAI_URI_REGEX := rfl
@[src] theorem g_grai_GS1Keyed (L : Level) : globalVal L .grai .GS1Keyed = .ok (.cls .GS1Keyed) := rfl
@[src] theorem g_grai_PARTITION_TABLE_L (L : Level) : globalVal L .grai .PARTITION_TABLE_L = L.const .grai [] Src.grai.PARTITION_TABLE_L := rfl
@[src] theorem g_grai_PARTITION_TABLE_P (L : Level) : globalVal L .grai .PARTITION_TABLE_P = L.const .grai [] Src.grai.PARTITION_TABLE_P := rfl
@[src] theorem g_grai_TagEncodable (L : Level) : globalVal L .grai .TagEncodable = .ok (.cls .TagEncodable) := rfl
@[src] theorem g_grai_binary_to_int (L : Level) : globalVal L .grai .binary_to_int = .ok (.func Src.common.binary_to_int) := rfl
@[src] theorem g_grai_calculate_checksum (L : Level) : globalVal L .grai .calculate_checksum = .ok (.func Src.common.calculate_checksum) := rfl
@[src] theorem g_grai_decode_partition_table (L : Level) : globalVal L .grai .decode_partition_table = .ok (.func Src.common.decode_partition_table) := rfl
@[src] theorem g_grai_decode_string (L : Level) : globalVal L .grai .decode_string = .ok (.func Src.common.decode_string) := rfl
@[src] theorem g_grai_encode_partition_table (L : Level) : globalVal L .grai .encode_partition_table = .ok (.func Src.common.encode_partition_table) := rfl
@[src] theorem g_grai_encode_string (L : Level) : globalVal L .grai .encode_string = .ok (.func Src.common.encode_string) := rfl
@[src] theorem g_grai_int (L : Level) : globalVal L .grai .int = .ok (.builtin .int) := rfl
@[src] theorem g_grai_len (L : Level) : globalVal L .grai .len = .ok (.builtin .len) := rfl
@[src] theorem g_grai_parse_header_and_truncate_binary (L : Level) : globalVal L .grai .parse_header_and_truncate_binary = .ok (.func Src.common.parse_header_and_truncate_binary) := rfl
@[src] theorem g_grai_pow (L : Level) : globalVal L .grai .pow = .ok (.builtin .pow) := rfl
@[src] theorem g_grai_re (L : Level) : globalVal L .grai .re = .ok (.module .re) := rfl
@[src] theorem g_grai_replace_uri_escapes (L : Level) : globalVal L .grai .replace_uri_escapes = .ok (.func Src.common.replace_uri_escapes) := rfl
@[src] theorem g_grai_revert_uri_escapes (L : Level) : globalVal L .grai .revert_uri_escapes = .ok (.func Src.common.revert_uri_escapes) := rfl
@[src] theorem g_grai_str (L : Level) : globalVal L .grai .str = .ok (.builtin .str) := rfl
@[src] theorem g_grai_str_to_binary (L : Level) : globalVal L .grai .str_to_binary = .ok (.func Src.common.str_to_binary) := rfl
@[src] theorem g_grai_super (L : Level) : globalVal L .grai .super = .ok (.builtin .super) := rfl
@[src] theorem g_grai_verify_gs3a3_component (L : Level) : globalVal L .grai .verify_gs3a3_component = .ok (.func Src.common.verify_gs3a3_component) := rfl
@[src] theorem g_gsin_ConvertException (L : Level) : globalVal L .gsin .ConvertException = .ok (.cls .ConvertException) := rfl
@[src] theorem g_gsin_GS1Keyed (L : Level) : globalVal L .gsin .GS1Keyed = .ok (.cls .GS1Keyed) := rfl
@[src] theorem g_gsin_GSIN (L : Level) : globalVal L .gsin .GSIN = .ok (.cls .GSIN) := rfl
@[src] theorem g_gsin_GSIN_GS1_ELEMENT_STRING (L : Level) : globalVal L .gsin .GSIN_GS1_ELEMENT_STRING = .ok (.str Src.regex.GSIN_GS1_ELEMENT_STRING) := rfl
@[src] theorem g_gsin_GSIN_URI (L : Level) : globalVal L .gsin .GSIN_URI = .ok (.str Src.regex.GSIN_URI) := rfl
@[src] theorem g_gsin_GSIN_URI_REGEX (L : Level) : globalVal L .gsin .GSIN_URI_REGEX = L.const .gsin [] Src.gsin.GSIN_URI_REGEX := rfl
@[src] theorem g_gsin_calculate_checksum (L : Level) : globalVal L .gsin .calculate_checksum = .ok (.func Src.gsin.calculate_checksum) := rfl
@[src] theorem g_gsin_int (L : Level) : globalVal L .gsin .int = .ok (.builtin .int) := rfl
@[src] theorem g_gsin_len (L : Level) : globalVal L .gsin .len = .ok (.builtin .len) := rfl
@[src] theorem g_gsin_re (L : Level) : globalVal L .gsin .re = .ok (.module .re) := rfl
@[src] theorem g_gsin_str (L : Level) : globalVal L .gsin .str = .ok (.builtin .str) := rfl
@[src] theorem g_gsin_sum (L : Level) : globalVal L .gsin .sum = .ok (.builtin .sum) := rfl
@[src] theorem g_gsin_super (L : Level) : globalVal L .gsin .super = .ok (.builtin .super) := rfl
@[src] theorem g_gsrn_ConvertException (L : Level) : globalVal L .gsrn .ConvertException = .ok (.cls .ConvertException) := rfl
@[src] theorem g_gsrn_GS1Keyed (L : Level) : globalVal L .gsrn .GS1Keyed = .ok (.cls .GS1Keyed) := rfl
@[src] theorem g_gsrn_GSRN (L : Level) : globalVal L .gsrn .GSRN = .ok (.cls .GSRN) := rfl
@[src] theorem g_gsrn_GSRNFilterValue (L : Level) : globalVal L .gsrn .GSRNFilterValue = .ok (.cls .GSRNFilterValue) := rfl
@[src] theorem g_gsrn_GSRN_GS1_ELEMENT_STRING (L : Level) : globalVal L .gsrn .GSRN_GS1_ELEMENT_STRING = .ok (.str Src.regex.GSRN_GS1_ELEMENT_STRING) := rfl
@[src] theorem g_gsrn_GSRN_URI (L : Level) : globalVal L .gsrn .GSRN_URI = .ok (.str Src.regex.GSRN_URI) := rfl
@[src] theorem g_gsrn_GSRN_URI_REGEX (L : Level) : globalVal L .gsrn .GSRN_URI_REGEX = L.const .gsrn [] Src.gsrn.GSRN_URI_REGEX := rfl
@[src] theorem g_gsrn_PARTITION_TABLE_L (L : Level) : globalVal L .gsrn .PARTITION_TABLE_L = L.const .gsrn [] Src.gsrn.PARTITION_TABLE_L := rfl
@[src] theorem g_gsrn_PARTITION_TABLE_P (L : Level) : globalVal L .gsrn .PARTITION_TABLE_P = L.const .gsrn [] Src.gsrn.PARTITION_TABLE_P := rfl
@[src] theorem g_gsrn_TagEncodable (L : Level) : globalVal L .gsrn .TagEncodable = .ok (.cls .TagEncodable) := rfl
@[src] theorem g_gsrn_binary_to_int (L : Level) : globalVal L .gsrn .binary_to_int = .ok (.func Src.common.binary_to_int) := rfl
@[src] theorem g_gsrn_calculate_checksum (L : Level) : globalVal L .gsrn .calculate_checksum = .ok (.func Src.common.calculate_checksum) := rfl
@[src] theorem g_gsrn_decode_partition_table (L : Level) : globalVal L .gsrn .decode_partition_table = .ok (.func Src.common.decode_partition_table) := rfl
@[src] theorem g_gsrn_encode_partition_table (L : Level) : globalVal L .gsrn .encode_partition_table = .ok (.func Src.common.encode_partition_table) := rfl
@[src] theorem g_gsrn_int (L : Level) : globalVal L .gsrn .int = .ok (.builtin .int) := rfl
@[src] theorem g_gsrn_len (L : Level) : globalVal L .gsrn .len = .ok (.builtin .len) := rfl
@[src] theorem g_gsrn_parse_header_and_truncate_binary (L : Level) : globalVal L .gsrn .parse_header_and_truncate_binary = .ok (.func Src.common.parse_header_and_truncate_binary) := rfl
@[src] theorem g_gsrn_re (L : Level) : globalVal L .gsrn .re = .ok (.module .re) := rfl
@[src] theorem g_gsrn_str (L : Level) : globalVal L .gsrn .str = .ok (.builtin .str) := rfl
@[src] theorem g_gsrn_str_to_binary (L : Level) : globalVal L .gsrn .str_to_binary = .ok (.func Src.common.str_to_binary) := rfl
@[src] theorem g_gsrn_super (L : Level) : globalVal L .gsrn .super = .ok (.builtin .super) := rfl
@[src] theorem g_gsrnp_ConvertException (L : Level) : globalVal L .gsrnp .ConvertException = .ok (.cls .ConvertException) := rfl
@[src] theorem g_gsrnp_GS1Keyed (L : Level) : globalVal L .gsrnp .GS1Keyed = .ok (.cls .GS1Keyed) := rfl
@[src] theorem g_gsrnp_GSRNP (L : Level) : globalVal L .gsrnp .GSRNP = .ok (.cls .GSRNP) := rfl
@[src] theorem g_gsrnp_GSRNPFilterValue (L : Level) : globalVal L .gsrnp .GSRNPFilterValue = .ok (.cls .GSRNPFilterValue) := rfl
@[src] theorem g_gsrnp_GSRNP_GS1_ELEMENT_STRING (L : Level) : globalVal L .gsrnp .GSRNP_GS1_ELEMENT_STRING = .ok (.str Src.regex.GSRNP_GS1_ELEMENT_STRING) := rfl
@[src] theorem g_gsrnp_GSRNP_URI (L : Level) : globalVal L .gsrnp .GSRNP_URI = .ok (.str Src.regex.GSRNP_URI) := rfl
@[src] theorem g_gsrnp_GSRNP_URI_REGEX (L : Level) : globalVal L .gsrnp .GSRNP_URI_REGEX = L.const .gsrnp [] Src.gsrnp.GSRNP_URI_REGEX := rfl
@[src] theorem g_gsrnp_PARTITION_TABLE_L (L : Level) : globalVal L .gsrnp .PARTITION_TABLE_L = L.const .gsrnp [] Src.gsrnp.PARTITION_TABLE_L := rfl
@[src] theorem g_gsrnp_PARTITION_TABLE_P (L : Level) : globalVal L .gsrnp .PARTITION_TABLE_P = L.const .gsrnp [] Src.gsrnp.PARTITION_TABLE_P := rfl
@[src] theorem g_gsrnp_TagEncodable (L : Level) : globalVal L .gsrnp .TagEncodable = .ok (.cls .TagEncodable) := rfl
@[src] theorem g_gsrnp_binary_to_int (L : Level) : globalVal L .gsrnp .binary_to_int = .ok (.func Src.common.binary_to_int) := rfl
@[src] theorem g_gsrnp_calculate_checksum (L : Level) : globalVal L .gsrnp .calculate_checksum = .ok (.func Src.common.calculate_checksum) := rfl
@[src] theorem g_gsrnp_decode_partition_table (L : Level) : globalVal L .gsrnp .decode_partition_table = .ok (.func Src.common.decode_partition_table) := rfl
@[src] theorem g_gsrnp_encode_partition_table (L : Level) : globalVal L .gsrnp .encode_partition_table = .ok (.func Src.common.encode_partition_table) := rfl
@[src] theorem g_gsrnp_int (L : Level) : globalVal L .gsrnp .int = .ok (.builtin .int) := rfl
@[src] theorem g_gsrnp_len (L : Level) : globalVal L .gsrnp .len = .ok (.builtin .len) := rfl
@[src] theorem g_gsrnp_parse_header_and_truncate_binary (L : Level) : globalVal L .gsrnp .parse_header_and_truncate_binary = .ok (.func Src.common.parse_header_and_truncate_binary) := rfl
@[src] theorem g_gsrnp_re (L : Level) : globalVal L .gsrnp .re = .ok (.module .re) := rfl
@[src] theorem g_gsrnp_str (L : Level) : globalVal L .gsrnp .str = .ok (.builtin .str) := rfl
@[src] theorem g_gsrnp_str_to_binary (L : Level) : globalVal L .gsrnp .str_to_binary = .ok (.func Src.common.str_to_binary) := rfl
@[src] theorem g_gsrnp_super (L : Level) : globalVal L .gsrnp .super = .ok (.builtin .super) := rfl
@[src] theorem g_imovn_ConvertException (L : Level) : globalVal L .imovn .ConvertException = .ok (.cls .ConvertException) := rfl
@[src] theorem g_imovn_EPCScheme (L : Level) : globalVal L .imovn .EPCScheme = .ok (.cls .EPCScheme) := rfl
@[src] theorem g_imovn_IMOVN_URI (L : Level) : globalVal L .imovn .IMOVN_URI = .ok (.str Src.regex.IMOVN_URI) := rfl
@[src] theorem g_imovn_IMOVN_URI_REGEX (L : Level) : globalVal L .imovn .IMOVN_URI_REGEX = L.const .imovn [] Src.imovn.IMOVN_URI_REGEX := rfl
@[src] theorem g_imovn_re (L : Level) : globalVal L .imovn .re = .ok (.module .re) := rfl
@[src] theorem g_imovn_super (L : Level) : globalVal L .imovn .super = .ok (.builtin .super) := rfl
@[src] theorem g_itip_ConvertException (L : Level) : globalVal L .itip .ConvertException = .ok (.cls .ConvertException) := rfl
@[src] theorem g_itip_GS1Element (L : Level) : globalVal L .itip .GS1Element = .ok (.cls .GS1Element) := rfl
@[src] theorem g_itip_ITIP (L : Level) : globalVal L .itip .ITIP = .ok (.cls .ITIP) := rfl
@[src] theorem g_itip_ITIPFilterValue (L : Level) : globalVal L .itip .ITIPFilterValue = .ok (.cls .ITIPFilterValue) := rfl
@[src] theorem g_itip_ITIP_GS1_ELEMENT_STRING (L : Level) : globalVal L .itip .ITIP_GS1_ELEMENT_STRING = .ok (.str Src.regex.ITIP_GS1_ELEMENT_STRING) := rfl
@[src] theorem g_itip_ITIP_URI (L : Level) : globalVal L .itip .ITIP_URI = .ok (.str Src.regex.ITIP_URI) := rfl
@[src] theorem g_itip_ITIP_URI_REGEX (L : Level) : globalVal L .itip .ITIP_URI_REGEX = L.const .itip [] Src.itip.ITIP_URI_REGEX := rfl
@[src] theorem g_itip_PARTITION_TABLE_L (L : Level) : globalVal L .itip .PARTITION_TABLE_L = L.const .itip [] Src.itip.PARTITION_TABLE_L := rfl
@[src] theorem g_itip_PARTITION_TABLE_P (L : Level) : globalVal L .itip .PARTITION_TABLE_P = L.const .itip [] Src.itip.PARTITION_TABLE_P := rfl
@[src] theorem g_itip_TagEncodable (L : Level) : globalVal L .itip .TagEncodable = .ok (.cls .TagEncodable) := rfl
@[src] theorem g_itip_binary_to_int (L : Level) : globalVal L .itip .binary_to_int = .ok (.func Src.common.binary_to_int) := rfl
@[src] theorem g_itip_calculate_checksum (L : Level) : globalVal L .itip .calculate_checksum = .ok (.func Src.common.calculate_checksum) := rfl
@[src] theorem g_itip_decode_fixed_width_integer (L : Level) : globalVal L .itip .decode_fixed_width_integer = .ok (.func Src.common.decode_fixed_width_integer) := rfl
@[src] theorem g_itip_decode_partition_table (L : Level) : globalVal L .itip .decode_partition_table = .ok (.func Src.common.decode_partition_table) := rfl
@[src] theorem g_itip_decode_string (L : Level) : globalVal L .itip .decode_string = .ok (.func Src.common.decode_string) := rfl
@[src] theorem g_itip_encode_fixed_width_integer (L : Level) : globalVal L .itip .encode_fixed_width_integer = .ok (.func Src.common.encode_fixed_width_integer) := rfl
@[src] theorem g_itip_encode_partition_table (L : Level) : globalVal L .itip .encode_partition_table = .ok (.func Src.common.encode_partition_table) := rfl
@[src] theorem g_itip_encode_string (L : Level) : globalVal L .itip .encode_string = .ok (.func Src.common.encode_string) := rfl
@[src] theorem g_itip_int (L : Level) : globalVal L .itip .int = .ok (.builtin .int) := rfl
@[src] theorem g_itip_len (L : Level) : globalVal L .itip .len = .ok (.builtin .len) := rfl
@[src] theorem g_itip_parse_header_and_truncate_binary (L : Level) : globalVal L .itip .parse_header_and_truncate_binary = .ok (.func Src.common.parse_header_and_truncate_binary) := rfl
@[src] theorem g_itip_pow (L : Level) : globalVal L .itip .pow = .ok (.builtin .pow) := rfl
@[src] theorem g_itip_re (L : Level) : globalVal L .itip .re = .ok (.module .re) := rfl
@[src] theorem g_itip_replace_uri_escapes (L : Level) : globalVal L .itip .replace_uri_escapes = .ok (.func Src.common.replace_uri_escapes) := rfl
@[src] theorem g_itip_revert_uri_escapes (L : Level) : globalVal L .itip .revert_uri_escapes = .ok (.func Src.common.revert_uri_escapes) := rfl
@[src] theorem g_itip_str (L : Level) : globalVal L .itip .str = .ok (.builtin .str) := rfl
@[src] theorem g_itip_str_to_binary (L : Level) : globalVal L .itip .str_to_binary = .ok (.func Src.common.str_to_binary) := rfl
@[src] theorem g_itip_super (L : Level) : globalVal L .itip .super = .ok (.builtin .super) := rfl
@[src] theorem g_itip_verify_gs3a3_component (L : Level) : globalVal L .itip .verify_gs3a3_component = .ok (.func Src.common.verify_gs3a3_component) := rfl
@[src] theorem g_lgtin_ConvertException (L : Level) : globalVal L .lgtin .ConvertException = .ok (.cls .ConvertException) := rfl
@[src] theorem g_lgtin_GS1Keyed (L : Level) : globalVal L .lgtin .GS1Keyed = .ok (.cls .GS1Keyed) := rfl
@[src] theorem g_lgtin_GTIN_TYPE (L : Level) : globalVal L .lgtin .GTIN_TYPE = .ok (.cls .lgtin_GTIN_TYPE) := rfl
@[src] theorem g_lgtin_LGTIN (L : Level) : globalVal L .lgtin .LGTIN = .ok (.cls .LGTIN) := rfl
@[src] theorem g_lgtin_LGTIN_CLASS (L : Level) : globalVal L .lgtin .LGTIN_CLASS = .ok (.str Src.regex.LGTIN_CLASS) := rfl
@[src] theorem g_lgtin_LGTIN_CLASS_REGEX (L : Level) : globalVal L .lgtin .LGTIN_CLASS_REGEX = L.const .lgtin [] Src.lgtin.LGTIN_CLASS_REGEX := rfl
@[src] theorem g_lgtin_LGTIN_GS1_ELEMENT_STRING (L : Level) : globalVal L .lgtin .LGTIN_GS1_ELEMENT_STRING = .ok (.str Src.regex.LGTIN_GS1_ELEMENT_STRING) := rfl
@[src] theorem g_lgtin_calculate_checksum (L : Level) : globalVal L .lgtin .calculate_checksum = .ok (.func Src.common.calculate_checksum) := rfl
@[src] theorem g_lgtin_int (L : Level) : globalVal L .lgtin .int = .ok (.builtin .int) := rfl
@[src] theorem g_lgtin_len (L : Level) : globalVal L .lgtin .len = .ok (.builtin .len) := rfl
@[src] theorem g_lgtin_re (L : Level) : globalVal L .lgtin .re = .ok (.module .re) := rfl
@[src] theorem g_lgtin_replace_uri_escapes (L : Level) : globalVal L .lgtin .replace_uri_escapes = .ok (.func Src.common.replace_uri_escapes) := rfl
@[src] theorem g_lgtin_revert_uri_escapes (L : Level) : globalVal L .lgtin .revert_uri_escapes = .ok (.func Src.common.revert_uri_escapes) := rfl
@[src] theorem g_lgtin_str (L : Level) : globalVal L .lgtin .str = .ok (.builtin .str) := rfl
@[src] theorem g_lgtin_super (L : Level) : globalVal L .lgtin .super = .ok (.builtin .super) := rfl
@[src] theorem g_lgtin_verify_gs3a3_component (L : Level) : globalVal L .lgtin .verify_gs3a3_component = .ok (.func Src.common.verify_gs3a3_component) := rfl
@[src] theorem g_pgln_ConvertException (L : Level) : globalVal L .pgln .ConvertException = .ok (.cls .ConvertException) := rfl
@[src] theorem g_pgln_GS1Keyed (L : Level) : globalVal L .pgln .GS1Keyed = .ok (.cls .GS1Keyed) := rfl
@[src] theorem g_pgln_PGLN (L : Level) : globalVal L .pgln .PGLN = .ok (.cls .PGLN) := rfl
@[src] theorem g_pgln_PGLN_GS1_ELEMENT_STRING (L : Level) : globalVal L .pgln .PGLN_GS1_ELEMENT_STRING = .ok (.str Src.regex.PGLN_GS1_ELEMENT_STRING) := rfl
@[src] theorem g_pgln_PGLN_URI (L : Level) : globalVal L .pgln .PGLN_URI = .ok (.str Src.regex.PGLN_URI) := rfl
@[src] theorem g_pgln_PGLN_URI_REGEX (L : Level) : globalVal L .pgln .PGLN_URI_REGEX = L.const .pgln [] Src.pgln.PGLN_URI_REGEX := rfl
@[src] theorem g_pgln_calculate_checksum (L : Level) : globalVal L .pgln .calculate_checksum = .ok (.func Src.common.calculate_checksum) := rfl
@[src] theorem g_pgln_int (L : Level) : globalVal L .pgln .int = .ok (.builtin .int) := rfl
@[src] theorem g_pgln_len (L : Level) : globalVal L .pgln .len = .ok (.builtin .len) := rfl
@[src] theorem g_pgln_re (L : Level) : globalVal L .pgln .re = .ok (.module .re) := rfl
@[src] theorem g_pgln_str (L : Level) : globalVal L .pgln .str = .ok (.builtin .str) := rfl
@[src] theorem g_pgln_super (L : Level) : globalVal L .pgln .super = .ok (.builtin .super) := rfl
@[src] theorem g_sgcn_ConvertException (L : Level) : globalVal L .sgcn .ConvertException = .ok (.cls .ConvertException) := rfl
@[src] theorem g_sgcn_GS1Keyed (L : Level) : globalVal L .sgcn .GS1Keyed = .ok (.cls .GS1Keyed) := rfl
@[src] theorem g_sgcn_PARTITION_TABLE_L (L : Level) : globalVal L .sgcn .PARTITION_TABLE_L = L.const .sgcn [] Src.sgcn.PARTITION_TABLE_L := rfl
@[src] theorem g_sgcn_PARTITION_TABLE_P (L : Level) : globalVal L .sgcn .PARTITION_TABLE_P = L.const .sgcn [] Src.sgcn.PARTITION_TABLE_P := rfl
@[src] theorem g_sgcn_SGCN (L : Level) : globalVal L .sgcn .SGCN = .ok (.cls .SGCN) := rfl
@[src] theorem g_sgcn_SGCNFilterValue (L : Level) : globalVal L .sgcn .SGCNFilterValue = .ok (.cls .SGCNFilterValue) := rfl
@[src] theorem g_sgcn_SGCN_GS1_ELEMENT_STRING (L : Level) : globalVal L .sgcn .SGCN_GS1_ELEMENT_STRING = .ok (.str Src.regex.SGCN_GS1_ELEMENT_STRING) := rfl
@[src] theorem g_sgcn_SGCN_URI (L : Level) : globalVal L .sgcn .SGCN_URI = .ok (.str Src.regex.SGCN_URI) := rfl
@[src] theorem g_sgcn_SGCN_URI_REGEX (L : Level) : globalVal L .sgcn .SGCN_URI_REGEX = L.const .sgcn [] Src.sgcn.SGCN_URI_REGEX := rfl
@[src] theorem g_sgcn_TagEncodable (L : Level) : globalVal L .sgcn .TagEncodable = .ok (.cls .TagEncodable) := rfl
@[src] theorem g_sgcn_binary_to_int (L : Level) : globalVal L .sgcn .binary_to_int = .ok (.func Src.common.binary_to_int) := rfl
@[src] theorem g_sgcn_calculate_checksum (L : Level) : globalVal L .sgcn .calculate_checksum = .ok (.func Src.common.calculate_checksum) := rfl
@[src] theorem g_sgcn_decode_numeric_string (L : Level) : globalVal L .sgcn .decode_numeric_string = .ok (.func Src.common.decode_numeric_string) := rfl
@[src] theorem g_sgcn_decode_partition_table (L : Level) : globalVal L .sgcn .decode_partition_table = .ok (.func Src.common.decode_partition_table) := rfl
@[src] theorem g_sgcn_encode_numeric_string (L : Level) : globalVal L .sgcn .encode_numeric_string = .ok (.func Src.common.encode_numeric_string) := rfl
@[src] theorem g_sgcn_encode_partition_table (L : Level) : globalVal L .sgcn .encode_partition_table = .ok (.func Src.common.encode_partition_table) := rfl
@[src] theorem g_sgcn_int (L : Level) : globalVal L .sgcn .int = .ok (.builtin .int) := rfl
@[src] theorem g_sgcn_len (L : Level) : globalVal L .sgcn .len = .ok (.builtin .len) := rfl
@[src] theorem g_sgcn_parse_header_and_truncate_binary (L : Level) : globalVal L .sgcn .parse_header_and_truncate_binary = .ok (.func Src.common.parse_header_and_truncate_binary) := rfl
@[src] theorem g_sgcn_re (L : Level) : globalVal L .sgcn .re = .ok (.module .re) := rfl
@[src] theorem g_sgcn_revert_uri_escapes (L : Level) : globalVal L .sgcn .revert_uri_escapes = .ok (.func Src.common.revert_uri_escapes) := rfl
@[src] theorem g_sgcn_str (L : Level) : globalVal L .sgcn .str = .ok (.builtin .str) := rfl
@[src] theorem g_sgcn_str_to_binary (L : Level) : globalVal L .sgcn .str_to_binary = .ok (.func Src.common.str_to_binary) := rfl
@[src] theorem g_sgcn_super (L : Level) : globalVal L .sgcn .super = .ok (.builtin .super) := rfl
@[src] theorem g_sgln_ConvertException (L : Level) : globalVal L .sgln .ConvertException = .ok (.cls .ConvertException) := rfl
@[src] theorem g_sgln_GS1Keyed (L : Level) : globalVal L .sgln .GS1Keyed = .ok (.cls .GS1Keyed) := rfl
@[src] theorem g_sgln_PARTITION_TABLE_L (L : Level) : globalVal L .sgln .PARTITION_TABLE_L = L.const .sgln [] Src.sgln.PARTITION_TABLE_L := rfl
@[src] theorem g_sgln_PARTITION_TABLE_P (L : Level) : globalVal L .sgln .PARTITION_TABLE_P = L.const .sgln [] Src.sgln.PARTITION_TABLE_P := rfl
@[src] theorem g_sgln_SGLN (L : Level) : globalVal L .sgln .SGLN = .ok (.cls .SGLN) := rfl
@[src] theorem g_sgln_SGLNFilterValue (L : Level) : globalVal L .sgln .SGLNFilterValue = .ok (.cls .SGLNFilterValue) := rfl
@[src] theorem g_sgln_SGLN_GS1_ELEMENT_STRING (L : Level) : globalVal L .sgln .SGLN_GS1_ELEMENT_STRING = .ok (.str Src.regex.SGLN_GS1_ELEMENT_STRING) := rfl
@[src] theorem g_sgln_SGLN_URI (L : Level) : globalVal L .sgln .SGLN_URI = .ok (.str Src.regex.SGLN_URI) := rfl
@[src] theorem g_sgln_SGLN_URI_REGEX (L : Level) : globalVal L .sgln .SGLN_URI_REGEX = L.const .sgln [] Src.sgln.SGLN_URI_REGEX := rfl
@[src] theorem g_sgln_TagEncodable (L : Level) : globalVal L .sgln .TagEncodable = .ok (.cls .TagEncodable) := rfl
@[src] theorem g_sgln_binary_to_int (L : Level) : globalVal L .sgln .binary_to_int = .ok (.func Src.common.binary_to_int) := rfl
@[src] theorem g_sgln_calculate_checksum (L : Level) : globalVal L .sgln .calculate_checksum = .ok (.func Src.common.calculate_checksum) := rfl
@[src] theorem g_sgln_decode_partition_table (L : Level) : globalVal L .sgln .decode_partition_table = .ok (.func Src.common.decode_partition_table) := rfl
@[src] theorem g_sgln_decode_string (L : Level) : globalVal L .sgln .decode_string = .ok (.func Src.common.decode_string) := rfl
@[src] theorem g_sgln_encode_partition_table (L : Level) : globalVal L .sgln .encode_partition_table = .ok (.func Src.common.encode_partition_table) := rfl
@[src] theorem g_sgln_encode_string (L : Level) : globalVal L .sgln .encode_string = .ok (.func Src.common.encode_string) := rfl
@[src] theorem g_sgln_int (L : Level) : globalVal L .sgln .int = .ok (.builtin .int) := rfl
@[src] theorem g_sgln_len (L : Level) : globalVal L .sgln .len = .ok (.builtin .len) := rfl
@[src] theorem g_sgln_parse_header_and_truncate_binary (L : Level) : globalVal L .sgln .parse_header_and_truncate_binary = .ok (.func Src.common.parse_header_and_truncate_binary) := rfl
@[src] theorem g_sgln_pow (L : Level) : globalVal L .sgln .pow = .ok (.builtin .pow) := rfl
@[src] theorem g_sgln_re (L : Level) : globalVal L .sgln .re = .ok (.module .re) := rfl
@[src] theorem g_sgln_replace_uri_escapes (L : Level) : globalVal L .sgln .replace_uri_escapes = .ok (.func Src.common.replace_uri_escapes) := rfl
@[src] theorem g_sgln_revert_uri_escapes (L : Level) : globalVal L .sgln .revert_uri_escapes = .ok (.func Src.common.revert_uri_escapes) := rfl
@[src] theorem g_sgln_str (L : Level) : globalVal L .sgln .str = .ok (.builtin .str) := rfl
@[src] theorem g_sgln_str_to_binary (L : Level) : globalVal L .sgln .str_to_binary = .ok (.func Src.common.str_to_binary) := rfl
@[src] theorem g_sgln_super (L : Level) : globalVal L .sgln .super = .ok (.builtin .super) := rfl
@[src] theorem g_sgln_verify_gs3a3_component (L : Level) : globalVal L .sgln .verify_gs3a3_component = .ok (.func Src.common.verify_gs3a3_component) := rfl
@[src] theorem g_sgtin_ConvertException (L : Level) : globalVal L .sgtin .ConvertException = .ok (.cls .ConvertException) := rfl
@[src] theorem g_sgtin_GS1Keyed (L : Level) : globalVal L .sgtin .GS1Keyed = .ok (.cls .GS1Keyed) := rfl
@[src] theorem g_sgtin_GTIN_TYPE (L : Level) : globalVal L .sgtin .GTIN_TYPE = .ok (.cls .sgtin_GTIN_TYPE) := rfl
@[src] theorem g_sgtin_PARTITION_TABLE_L (L : Level) : globalVal L .sgtin .PARTITION_TABLE_L = L.const .sgtin [] Src.sgtin.PARTITION_TABLE_L := rfl
@[src] theorem g_sgtin_PARTITION_TABLE_P (L : Level) : globalVal L .sgtin .PARTITION_TABLE_P = L.const .sgtin [] Src.sgtin.PARTITION_TABLE_P := rfl
@[src] theorem g_sgtin_SGTIN (L : Level) : globalVal L .sgtin .SGTIN = .ok (.cls .SGTIN) := rfl
@[src] theorem g_sgtin_SGTINFilterValue (L : Level) : globalVal L .sgtin .SGTINFilterValue = .ok (.cls .SGTINFilterValue) := rfl
@[src] theorem g_sgtin_SGTIN_GS1_ELEMENT_STRING (L : Level) : globalVal L .sgtin .SGTIN_GS1_ELEMENT_STRING = .ok (.str Src.regex.SGTIN_GS1_ELEMENT_STRING) := rfl
@[src] theorem g_sgtin_SGTIN_REGEX (L : Level) : globalVal L .sgtin .SGTIN_REGEX = L.const .sgtin [] Src.sgtin.SGTIN_REGEX := rfl
@[src] theorem g_sgtin_SGTIN_URI (L : Level) : globalVal L .sgtin .SGTIN_URI = .ok (.str Src.regex.SGTIN_URI) := rfl
@[src] theorem g_sgtin_TagEncodable (L : Level) : globalVal L .sgtin .TagEncodable = .ok (.cls .TagEncodable) := rfl
@[src] theorem g_sgtin_binary_to_int (L : Level) : globalVal L .sgtin .binary_to_int = .ok (.func Src.common.binary_to_int) := rfl
@[src] theorem g_sgtin_calculate_checksum (L : Level) : globalVal L .sgtin .calculate_checksum = .ok (.func Src.common.calculate_checksum) := rfl
@[src] theorem g_sgtin_decode_partition_table (L : Level) : globalVal L .sgtin .decode_partition_table = .ok (.func Src.common.decode_partition_table) := rfl
@[src] theorem g_sgtin_decode_string (L : Level) : globalVal L .sgtin .decode_string = .ok (.func Src.common.decode_string) := rfl
@[src] theorem g_sgtin_encode_partition_table (L : Level) : globalVal L .sgtin .encode_partition_table = .ok (.func Src.common.encode_partition_table) := rfl
@[src] theorem g_sgtin_encode_string (L : Level) : globalVal L .sgtin .encode_string = .ok (.func Src.common.encode_string) := rfl
@[src] theorem g_sgtin_int (L : Level) : globalVal L .sgtin .int = .ok (.builtin .int) := rfl
@[src] theorem g_sgtin_len (L : Level) : globalVal L .sgtin .len = .ok (.builtin .len) := rfl
@[src] theorem g_sgtin_parse_header_and_truncate_binary (L : Level) : globalVal L .sgtin .parse_header_and_truncate_binary = .ok (.func Src.common.parse_header_and_truncate_binary) := rfl
@[src] theorem g_sgtin_pow (L : Level) : globalVal L .sgtin .pow = .ok (.builtin .pow) := rfl
@[src] theorem g_sgtin_re (L : Level) : globalVal L .sgtin .re = .ok (.module .re) := rfl
@[src] theorem g_sgtin_replace_uri_escapes (L : Level) : globalVal L .sgtin .replace_uri_escapes = .ok (.func Src.common.replace_uri_escapes) := rfl
@[src] theorem g_sgtin_revert_uri_escapes (L : Level) : globalVal L .sgtin .revert_uri_escapes = .ok (.func Src.common.revert_uri_escapes) := rfl
@[src] theorem g_sgtin_str (L : Level) : globalVal L .sgtin .str = .ok (.builtin .str) := rfl
@[src] theorem g_sgtin_str_to_binary (L : Level) : globalVal L .sgtin .str_to_binary = .ok (.func Src.common.str_to_binary) := rfl
@[src] theorem g_sgtin_super (L : Level) : globalVal L .sgtin .super = .ok (.builtin .super) := rfl
@[src] theorem g_sgtin_verify_gs3a3_component (L : Level) : globalVal L .sgtin .verify_gs3a3_component = .ok (.func Src.common.verify_gs3a3_component) := rfl
@[src] theorem g_sscc_ConvertException (L : Level) : globalVal L .sscc .ConvertException = .ok (.cls .ConvertException) := rfl
@[src] theorem g_sscc_GS1Keyed (L : Level) : globalVal L .sscc .GS1Keyed = .ok (.cls .GS1Keyed) := rfl
@[src] theorem g_sscc_PARTITION_TABLE_L (L : Level) : globalVal L .sscc .PARTITION_TABLE_L = L.const .sscc [] Src.sscc.PARTITION_TABLE_L := rfl
@[src] theorem g_sscc_PARTITION_TABLE_P (L : Level) : globalVal L .sscc .PARTITION_TABLE_P = L.const .sscc [] Src.sscc.PARTITION_TABLE_P := rfl
@[src] theorem g_sscc_SSCC (L : Level) : globalVal L .sscc .SSCC = .ok (.cls .SSCC) := rfl
@[src] theorem g_sscc_SSCCFilterValue (L : Level) : globalVal L .sscc .SSCCFilterValue = .ok (.cls .SSCCFilterValue) := rfl
@[src] theorem g_sscc_SSCC_GS1_ELEMENT_STRING (L : Level) : globalVal L .sscc .SSCC_GS1_ELEMENT_STRING = .ok (.str Src.regex.SSCC_GS1_ELEMENT_STRING) := rfl
@[src] theorem g_sscc_SSCC_URI (L : Level) : globalVal L .sscc .SSCC_URI = .ok (.str Src.regex.SSCC_URI) := rfl
@[src] theorem g_sscc_SSCC_URI_REGEX (L : Level) : globalVal L .sscc .SSCC_URI_REGEX = L.const .sscc [] Src.sscc.SSCC_URI_REGEX := rfl
@[src] theorem g_sscc_TagEncodable (L : Level) : globalVal L .sscc .TagEncodable = .ok (.cls .TagEncodable) := rfl
@[src] theorem g_sscc_binary_to_int (L : Level) : globalVal L .sscc .binary_to_int = .ok (.func Src.common.binary_to_int) := rfl
@[src] theorem g_sscc_calculate_checksum (L : Level) : globalVal L .sscc .calculate_checksum = .ok (.func Src.common.calculate_checksum) := rfl
@[src] theorem g_sscc_decode_partition_table (L : Level) : globalVal L .sscc .decode_partition_table = .ok (.func Src.common.decode_partition_table) := rfl
@[src] theorem g_sscc_encode_partition_table (L : Level) : globalVal L .sscc .encode_partition_table = .ok (.func Src.common.encode_partition_table) := rfl
@[src] theorem g_sscc_int (L : Level) : globalVal L .sscc .int = .ok (.builtin .int) := rfl
@[src] theorem g_sscc_len (L : Level) : globalVal L .sscc .len = .ok (.builtin .len) := rfl
@[src] theorem g_sscc_parse_header_and_truncate_binary (L : Level) : globalVal L .sscc .parse_header_and_truncate_binary = .ok (.func Src.common.parse_header_and_truncate_binary) := rfl
@[src] theorem g_sscc_re (L : Level) : globalVal L .sscc .re = .ok (.module .re) := rfl
@[src] theorem g_sscc_str (L : Level) : globalVal L .sscc .str = .ok (.builtin .str) := rfl
@[src] theorem g_sscc_str_to_binary (L : Level) : globalVal L .sscc .str_to_binary = .ok (.func Src.common.str_to_binary) := rfl
@[src] theorem g_sscc_super (L : Level) : globalVal L .sscc .super = .ok (.builtin .super) := rfl
@[src] theorem g_upui_ConvertException (L : Level) : globalVal L .upui .ConvertException = .ok (.cls .ConvertException) := rfl
@[src] theorem g_upui_GS1Element (L : Level) : globalVal L .upui .GS1Element = .ok (.cls .GS1Element) := rfl
@[src] theorem g_upui_UPUI (L : Level) : globalVal L .upui .UPUI = .ok (.cls .UPUI) := rfl
@[src] theorem g_upui_UPUI_GS1_ELEMENT_STRING (L : Level) : globalVal L .upui .UPUI_GS1_ELEMENT_STRING = .ok (.str Src.regex.UPUI_GS1_ELEMENT_STRING) := rfl
@[src] theorem g_upui_UPUI_URI (L : Level) : globalVal L .upui .UPUI_URI = .ok (.str Src.regex.UPUI_URI) := rfl
@[src] theorem g_upui_UPUI_URI_REGEX (L : Level) : globalVal L .upui .UPUI_URI_REGEX = L.const .upui [] Src.upui.UPUI_URI_REGEX := rfl
@[src] theorem g_upui_calculate_checksum (L : Level) : globalVal L .upui .calculate_checksum = .ok (.func Src.common.calculate_checksum) := rfl
@[src] theorem g_upui_int (L : Level) : globalVal L .upui .int = .ok (.builtin .int) := rfl
@[src] theorem g_upui_len (L : Level) : globalVal L .upui .len = .ok (.builtin .len) := rfl
@[src] theorem g_upui_re (L : Level) : globalVal L .upui .re = .ok (.module .re) := rfl
@[src] theorem g_upui_replace_uri_escapes (L : Level) : globalVal L .upui .replace_uri_escapes = .ok (.func Src.common.replace_uri_escapes) := rfl
@[src] theorem g_upui_revert_uri_escapes (L : Level) : globalVal L .upui .revert_uri_escapes = .ok (.func Src.common.revert_uri_escapes) := rfl
@[src] theorem g_upui_str (L : Level) : globalVal L .upui .str = .ok (.builtin .str) := rfl
@[src] theorem g_upui_super (L : Level) : globalVal L .upui .super = .ok (.builtin .super) := rfl
@[src] theorem g_upui_verify_gs3a3_component (L : Level) : globalVal L .upui .verify_gs3a3_component = .ok (.func Src.common.verify_gs3a3_component) := rfl
@[src] theorem g_usdod_ConvertException (L : Level) : globalVal L .usdod .ConvertException = .ok (.cls .ConvertException) := rfl
@[src] theorem g_usdod_TagEncodable (L : Level) : globalVal L .usdod .TagEncodable = .ok (.cls .TagEncodable) := rfl
@[src] theorem g_usdod_USDOD (L : Level) : globalVal L .usdod .USDOD = .ok (.cls .USDOD) := rfl
@[src] theorem g_usdod_USDODFilterValue (L : Level) : globalVal L .usdod .USDODFilterValue = .ok (.cls .USDODFilterValue) := rfl
@[src] theorem g_usdod_USDOD_URI (L : Level) : globalVal L .usdod .USDOD_URI = .ok (.str Src.regex.USDOD_URI) := rfl
@[src] theorem g_usdod_USDOD_URI_REGEX (L : Level) : globalVal L .usdod .USDOD_URI_REGEX = L.const .usdod [] Src.usdod.USDOD_URI_REGEX := rfl
@[src] theorem g_usdod_binary_to_int (L : Level) : globalVal L .usdod .binary_to_int = .ok (.func Src.common.binary_to_int) := rfl
@[src] theorem g_usdod_decode_cage_code (L : Level) : globalVal L .usdod .decode_cage_code = .ok (.func Src.common.decode_cage_code) := rfl
@[src] theorem g_usdod_encode_cage_code (L : Level) : globalVal L .usdod .encode_cage_code = .ok (.func Src.common.encode_cage_code) := rfl
@[src] theorem g_usdod_int (L : Level) : globalVal L .usdod .int = .ok (.builtin .int) := rfl
@[src] theorem g_usdod_len (L : Level) : globalVal L .usdod .len = .ok (.builtin .len) := rfl
@[src] theorem g_usdod_parse_header_and_truncate_binary (L : Level) : globalVal L .usdod .parse_header_and_truncate_binary = .ok (.func Src.common.parse_header_and_truncate_binary) := rfl
@[src] theorem g_usdod_pow (L : Level) : globalVal L .usdod .pow = .ok (.builtin .pow) := rfl
@[src] theorem g_usdod_re (L : Level) : globalVal L .usdod .re = .ok (.module .re) := rfl
@[src] theorem g_usdod_str (L : Level) : globalVal L .usdod .str = .ok (.builtin .str) := rfl
@[src] theorem g_usdod_str_to_binary (L : Level) : globalVal L .usdod .str_to_binary = .ok (.func Src.common.str_to_binary) := rfl
@[src] theorem g_usdod_super (L : Level) : globalVal L .usdod .super = .ok (.builtin .super) := rfl
@[src] theorem g_parsers_ADI (L : Level) : globalVal L .parsers .ADI = .ok (.cls .ADI) := rfl
@[src] theorem g_parsers_BIC (L : Level) : globalVal L .parsers .BIC = .ok (.cls .BIC) := rfl
@[src] theorem g_parsers_CPI (L : Level) : globalVal L .parsers .CPI = .ok (.cls .CPI) := rfl
@[src] theorem g_parsers_ConvertException (L : Level) : globalVal L .parsers .ConvertException = .ok (.cls .ConvertException) := rfl
@[src] theorem g_parsers_EPCScheme (L : Level) : globalVal L .parsers .EPCScheme = .ok (.cls .EPCScheme) := rfl
@[src] theorem g_parsers_EPC_SCHEMES (L : Level) : globalVal L .parsers .EPC_SCHEMES = L.const .parsers [] Src.parsers.EPC_SCHEMES := rfl
@[src] theorem g_parsers_EPC_SCHEME_IDENTIFIERS (L : Level) : globalVal L .parsers .EPC_SCHEME_IDENTIFIERS = L.const .parsers [] Src.parsers.EPC_SCHEME_IDENTIFIERS := rfl
@[src] theorem g_parsers_EPC_URI (L : Level) : globalVal L .parsers .EPC_URI = .ok (.str Src.regex.EPC_URI) := rfl
@[src] theorem g_parsers_EPC_URI_REGEX (L : Level) : globalVal L .parsers .EPC_URI_REGEX = L.const .parsers [] Src.parsers.EPC_URI_REGEX := rfl
@[src] theorem g_parsers_GDTI (L : Level) : globalVal L .parsers .GDTI = .ok (.cls .GDTI) := rfl
@[src] theorem g_parsers_GIAI (L : Level) : globalVal L .parsers .GIAI = .ok (.cls .GIAI) := rfl
@[src] theorem g_parsers_GID (L : Level) : globalVal L .parsers .GID = .ok (.cls .GID) := rfl
@[src] theorem g_parsers_GINC (L : Level) : globalVal L .parsers .GINC = .ok (.cls .GINC) := rfl
@[src] theorem g_parsers_GRAI (L : Level) : globalVal L .parsers .GRAI = .ok (.cls .GRAI) := rfl
@[src] theorem g_parsers_GS1Element (L : Level) : globalVal L .parsers .GS1Element = .ok (.cls .GS1Element) := rfl
@[src] theorem g_parsers_GS1Keyed (L : Level) : globalVal L .parsers .GS1Keyed = .ok (.cls .GS1Keyed) := rfl
@[src] theorem g_parsers_GS1_ELEMENT_STRING (L : Level) : globalVal L .parsers .GS1_ELEMENT_STRING = .ok (.str Src.regex.GS1_ELEMENT_STRING) := rfl
@[src] theorem g_parsers_GS1_ELEMENT_STRING_REGEX (L : Level) : globalVal L .parsers .GS1_ELEMENT_STRING_REGEX = L.const .parsers [] Src.parsers.GS1_ELEMENT_STRING_REGEX := rfl
@[src] theorem g_parsers_GS1_ELEMENT_STRING_REGEX_TO_SCHEME (L : Level) : globalVal L .parsers .GS1_ELEMENT_STRING_REGEX_TO_SCHEME = L.const .parsers [] Src.parsers.GS1_ELEMENT_STRING_REGEX_TO_SCHEME := rfl
@[src] theorem g_parsers_GS1_KEYED_CLASSES (L : Level) : globalVal L .parsers .GS1_KEYED_CLASSES = L.const .parsers [] Src.parsers.GS1_KEYED_CLASSES := rfl
@[src] theorem g_parsers_GS1_KEYED_SCHEME_IDENTIFIERS (L : Level) : globalVal L .parsers .GS1_KEYED_SCHEME_IDENTIFIERS = L.const .parsers [] Src.parsers.GS1_KEYED_SCHEME_IDENTIFIERS := rfl
@[src] theorem g_parsers_GSIN (L : Level) : globalVal L .parsers .GSIN = .ok (.cls .GSIN) := rfl
@[src] theorem g_parsers_GSRN (L : Level) : globalVal L .parsers .GSRN = .ok (.cls .GSRN) := rfl
@[src] theorem g_parsers_GSRNP (L : Level) : globalVal L .parsers .GSRNP = .ok (.cls .GSRNP) := rfl
@[src] theorem g_parsers_IDPAT_URI (L : Level) : globalVal L .parsers .IDPAT_URI = .ok (.str Src.regex.IDPAT_URI) := rfl
@[src] theorem g_parsers_IDPAT_URI_REGEX (L : Level) : globalVal L .parsers .IDPAT_URI_REGEX = L.const .parsers [] Src.parsers.IDPAT_URI_REGEX := rfl
@[src] theorem g_parsers_IMOVN (L : Level) : globalVal L .parsers .IMOVN = .ok (.cls .IMOVN) := rfl
@[src] theorem g_parsers_ITIP (L : Level) : globalVal L .parsers .ITIP = .ok (.cls .ITIP) := rfl
@[src] theorem g_parsers_LGTIN (L : Level) : globalVal L .parsers .LGTIN = .ok (.cls .LGTIN) := rfl
@[src] theorem g_parsers_ONE_ESCAPE_ALLOWED_SCHEMES (L : Level) : globalVal L .parsers .ONE_ESCAPE_ALLOWED_SCHEMES = L.const .parsers [] Src.parsers.ONE_ESCAPE_ALLOWED_SCHEMES := rfl
@[src] theorem g_parsers_PGLN (L : Level) : globalVal L .parsers .PGLN = .ok (.cls .PGLN) := rfl
@[src] theorem g_parsers_SGCN (L : Level) : globalVal L .parsers .SGCN = .ok (.cls .SGCN) := rfl
@[src] theorem g_parsers_SGLN (L : Level) : globalVal L .parsers .SGLN = .ok (.cls .SGLN) := rfl
@[src] theorem g_parsers_SGTIN (L : Level) : globalVal L .parsers .SGTIN = .ok (.cls .SGTIN) := rfl
@[src] theorem g_parsers_SSCC (L : Level) : globalVal L .parsers .SSCC = .ok (.cls .SSCC) := rfl
@[src] theorem g_parsers_TAG_ENCODABLE_BINARY_HEADERS (L : Level) : globalVal L .parsers .TAG_ENCODABLE_BINARY_HEADERS = L.const .parsers [] Src.parsers.TAG_ENCODABLE_BINARY_HEADERS := rfl
@[src] theorem g_parsers_TAG_ENCODABLE_CLASSES (L : Level) : globalVal L .parsers .TAG_ENCODABLE_CLASSES = L.const .parsers [] Src.parsers.TAG_ENCODABLE_CLASSES := rfl
@[src] theorem g_parsers_TAG_ENCODABLE_HEX_HEADERS (L : Level) : globalVal L .parsers .TAG_ENCODABLE_HEX_HEADERS = L.const .parsers [] Src.parsers.TAG_ENCODABLE_HEX_HEADERS := rfl
@[src] theorem g_parsers_TAG_ENCODABLE_SCHEME_IDENTIFIERS (L : Level) : globalVal L .parsers .TAG_ENCODABLE_SCHEME_IDENTIFIERS = L.const .parsers [] Src.parsers.TAG_ENCODABLE_SCHEME_IDENTIFIERS := rfl
@[src] theorem g_parsers_TAG_URI (L : Level) : globalVal L .parsers .TAG_URI = .ok (.str Src.regex.TAG_URI) := rfl
@[src] theorem g_parsers_TAG_URI_REGEX (L : Level) : globalVal L .parsers .TAG_URI_REGEX = L.const .parsers [] Src.parsers.TAG_URI_REGEX := rfl
@[src] theorem g_parsers_TagEncodable (L : Level) : globalVal L .parsers .TagEncodable = .ok (.cls .TagEncodable) := rfl
@[src] theorem g_parsers_UPUI (L : Level) : globalVal L .parsers .UPUI = .ok (.cls .UPUI) := rfl
@[src] theorem g_parsers_USDOD (L : Level) : globalVal L .parsers .USDOD = .ok (.cls .USDOD) := rfl
@[src] theorem g_parsers__idpat_to_gs1_keyed_scheme (L : Level) : globalVal L .parsers ._idpat_to_gs1_keyed_scheme = .ok (.func Src.parsers._idpat_to_gs1_keyed_scheme) := rfl
@[src] theorem g_parsers_base64_to_hex (L : Level) : globalVal L .parsers .base64_to_hex = .ok (.func Src.common.base64_to_hex) := rfl
@[src] theorem g_parsers_binary_to_hex (L : Level) : globalVal L .parsers .binary_to_hex = .ok (.func Src.common.binary_to_hex) := rfl
@[src] theorem g_parsers_binary_to_tag_encodable (L : Level) : globalVal L .parsers .binary_to_tag_encodable = .ok (.func Src.parsers.binary_to_tag_encodable) := rfl
@[src] theorem g_parsers_epc_pure_identity_to_gs1_element (L : Level) : globalVal L .parsers .epc_pure_identity_to_gs1_element = .ok (.func Src.parsers.epc_pure_identity_to_gs1_element) := rfl
@[src] theorem g_parsers_epc_pure_identity_to_gs1_keyed (L : Level) : globalVal L .parsers .epc_pure_identity_to_gs1_keyed = .ok (.func Src.parsers.epc_pure_identity_to_gs1_keyed) := rfl
@[src] theorem g_parsers_epc_pure_identity_to_scheme (L : Level) : globalVal L .parsers .epc_pure_identity_to_scheme = .ok (.func Src.parsers.epc_pure_identity_to_scheme) := rfl
@[src] theorem g_parsers_gs1_element_string_to_gs1_element (L : Level) : globalVal L .parsers .gs1_element_string_to_gs1_element = .ok (.func Src.parsers.gs1_element_string_to_gs1_element) := rfl
@[src] theorem g_parsers_hex_to_binary (L : Level) : globalVal L .parsers .hex_to_binary = .ok (.func Src.common.hex_to_binary) := rfl
@[src] theorem g_parsers_hex_to_tag_encodable (L : Level) : globalVal L .parsers .hex_to_tag_encodable = .ok (.func Src.parsers.hex_to_tag_encodable) := rfl
@[src] theorem g_parsers_int (L : Level) : globalVal L .parsers .int = .ok (.builtin .int) := rfl
@[src] theorem g_parsers_isinstance (L : Level) : globalVal L .parsers .isinstance = .ok (.builtin .isinstance) := rfl
@[src] theorem g_parsers_issubclass (L : Level) : globalVal L .parsers .issubclass = .ok (.builtin .issubclass) := rfl
@[src] theorem g_parsers_re (L : Level) : globalVal L .parsers .re = .ok (.module .re) := rfl
@[src] theorem g_parsers_str (L : Level) : globalVal L .parsers .str = .ok (.builtin .str) := rfl
@[src] theorem g_parsers_tag_uri_to_tag_encodable (L : Level) : globalVal L .parsers .tag_uri_to_tag_encodable = .ok (.func Src.parsers.tag_uri_to_tag_encodable) := rfl

@[src] theorem mro_EPCScheme : clsMro .EPCScheme = [.EPCScheme] := by decide +kernel
@[src] theorem chain_EPCScheme : initChain [.EPCScheme] = [.EPCScheme] := by decide +kernel
@[src] theorem find_EPCScheme___init__ : findIn .__init__ [.EPCScheme] = some (.EPCScheme, .method Src.EPCScheme.__init__) := rfl
@[src] theorem find_EPCScheme___eq__ : findIn .__eq__ [.EPCScheme] = some (.EPCScheme, .method Src.EPCScheme.__eq__) := rfl
@[src] theorem find_EPCScheme_from_epc_uri : findIn .from_epc_uri [.EPCScheme] = some (.EPCScheme, .classmethod Src.EPCScheme.from_epc_uri) := rfl
@[src] theorem mro_TagEncodable : clsMro .TagEncodable = [.TagEncodable, .EPCScheme] := by decide +kernel
@[src] theorem chain_TagEncodable : initChain [.TagEncodable, .EPCScheme] = [.TagEncodable, .EPCScheme] := by decide +kernel
@[src] theorem find_TagEncodable_BinaryCodingScheme : findIn .BinaryCodingScheme [.TagEncodable, .EPCScheme] = some (.TagEncodable, .enum []) := rfl
@[src] theorem find_TagEncodable_BinaryHeader : findIn .BinaryHeader [.TagEncodable, .EPCScheme] = some (.TagEncodable, .enum []) := rfl
@[src] theorem find_TagEncodable_TAG_URI_REGEX : findIn .TAG_URI_REGEX [.TagEncodable, .EPCScheme] = some (.TagEncodable, .const (.call (.attr (.name .re) .compile) [(.name .TAG_URI)] [])) := rfl
@[src] theorem find_TagEncodable_TAG_URI_PREFIX : findIn .TAG_URI_PREFIX [.TagEncodable, .EPCScheme] = some (.TagEncodable, .const (.str (py "urn:epc:tag:"))) := rfl
@[src] theorem find_TagEncodable___init__ : findIn .__init__ [.TagEncodable, .EPCScheme] = some (.TagEncodable, .method Src.TagEncodable.__init__) := rfl
@[src] theorem find_TagEncodable_tag_uri : findIn .tag_uri [.TagEncodable, .EPCScheme] = some (.TagEncodable, .method Src.TagEncodable.tag_uri) := rfl
@[src] theorem find_TagEncodable_binary : findIn .binary [.TagEncodable, .EPCScheme] = some (.TagEncodable, .method Src.TagEncodable.binary) := rfl
@[src] theorem find_TagEncodable_hex : findIn .hex [.TagEncodable, .EPCScheme] = some (.TagEncodable, .method Src.TagEncodable.hex) := rfl
@[src] theorem find_TagEncodable_base64 : findIn .base64 [.TagEncodable, .EPCScheme] = some (.TagEncodable, .method Src.TagEncodable.base64) := rfl
@[src] theorem find_TagEncodable_from_binary : findIn .from_binary [.TagEncodable, .EPCScheme] = some (.TagEncodable, .classmethod Src.TagEncodable.from_binary) := rfl
@[src] theorem find_TagEncodable_from_hex : findIn .from_hex [.TagEncodable, .EPCScheme] = some (.TagEncodable, .classmethod Src.TagEncodable.from_hex) := rfl
@[src] theorem find_TagEncodable_from_base64 : findIn .from_base64 [.TagEncodable, .EPCScheme] = some (.TagEncodable, .classmethod Src.TagEncodable.from_base64) := rfl
@[src] theorem find_TagEncodable_from_tag_uri : findIn .from_tag_uri [.TagEncodable, .EPCScheme] = some (.TagEncodable, .classmethod Src.TagEncodable.from_tag_uri) := rfl
@[src] theorem find_TagEncodable_header_to_schemes : findIn .header_to_schemes [.TagEncodable, .EPCScheme] = some (.TagEncodable, .classmethod Src.TagEncodable.header_to_schemes) := rfl
@[src] theorem find_TagEncodable___eq__ : findIn .__eq__ [.TagEncodable, .EPCScheme] = some (.EPCScheme, .method Src.EPCScheme.__eq__) := rfl
@[src] theorem find_TagEncodable_from_epc_uri : findIn .from_epc_uri [.TagEncodable, .EPCScheme] = some (.EPCScheme, .classmethod Src.EPCScheme.from_epc_uri) := rfl
@[src] theorem mro_GS1Element : clsMro .GS1Element = [.GS1Element, .EPCScheme] := by decide +kernel
@[src] theorem chain_GS1Element : initChain [.GS1Element, .EPCScheme] = [.GS1Element, .EPCScheme] := by decide +kernel
@[src] theorem find_GS1Element___init__ : findIn .__init__ [.GS1Element, .EPCScheme] = some (.GS1Element, .method Src.GS1Element.__init__) := rfl
@[src] theorem find_GS1Element_gs1_element_string : findIn .gs1_element_string [.GS1Element, .EPCScheme] = some (.GS1Element, .method Src.GS1Element.gs1_element_string) := rfl
@[src] theorem find_GS1Element_from_gs1_element_string : findIn .from_gs1_element_string [.GS1Element, .EPCScheme] = some (.GS1Element, .classmethod Src.GS1Element.from_gs1_element_string) := rfl
@[src] theorem find_GS1Element___eq__ : findIn .__eq__ [.GS1Element, .EPCScheme] = some (.EPCScheme, .method Src.EPCScheme.__eq__) := rfl
@[src] theorem find_GS1Element_from_epc_uri : findIn .from_epc_uri [.GS1Element, .EPCScheme] = some (.EPCScheme, .classmethod Src.EPCScheme.from_epc_uri) := rfl
@[src] theorem mro_GS1Keyed : clsMro .GS1Keyed = [.GS1Keyed, .GS1Element, .EPCScheme] := by decide +kernel
@[src] theorem chain_GS1Keyed : initChain [.GS1Keyed, .GS1Element, .EPCScheme] = [.GS1Keyed, .GS1Element, .EPCScheme] := by decide +kernel
@[src] theorem find_GS1Keyed___init__ : findIn .__init__ [.GS1Keyed, .GS1Element, .EPCScheme] = some (.GS1Keyed, .method Src.GS1Keyed.__init__) := rfl
@[src] theorem find_GS1Keyed_gs1_key : findIn .gs1_key [.GS1Keyed, .GS1Element, .EPCScheme] = some (.GS1Keyed, .method Src.GS1Keyed.gs1_key) := rfl
@[src] theorem find_GS1Keyed_gs1_element_string : findIn .gs1_element_string [.GS1Keyed, .GS1Element, .EPCScheme] = some (.GS1Element, .method Src.GS1Element.gs1_element_string) := rfl
@[src] theorem find_GS1Keyed_from_gs1_element_string : findIn .from_gs1_element_string [.GS1Keyed, .GS1Element, .EPCScheme] = some (.GS1Element, .classmethod Src.GS1Element.from_gs1_element_string) := rfl
@[src] theorem find_GS1Keyed___eq__ : findIn .__eq__ [.GS1Keyed, .GS1Element, .EPCScheme] = some (.EPCScheme, .method Src.EPCScheme.__eq__) := rfl
@[src] theorem find_GS1Keyed_from_epc_uri : findIn .from_epc_uri [.GS1Keyed, .GS1Element, .EPCScheme] = some (.EPCScheme, .classmethod Src.EPCScheme.from_epc_uri) := rfl
@[src] theorem mro_ADIFilterValue : clsMro .ADIFilterValue = [.ADIFilterValue] := by decide +kernel
@[src] theorem chain_ADIFilterValue : initChain [.ADIFilterValue] = [] := by decide +kernel
@[src] theorem find_ADIFilterValue_ALL_OTHERS : findIn .ALL_OTHERS [.ADIFilterValue] = some (.ADIFilterValue, .member (py "ALL_OTHERS") (py "0")) := rfl
@[src] theorem find_ADIFilterValue_ITEM_OTHER : findIn .ITEM_OTHER [.ADIFilterValue] = some (.ADIFilterValue, .member (py "ITEM_OTHER") (py "1")) := rfl
@[src] theorem find_ADIFilterValue_CARTON : findIn .CARTON [.ADIFilterValue] = some (.ADIFilterValue, .member (py "CARTON") (py "2")) := rfl
@[src] theorem find_ADIFilterValue_RESERVED_3 : findIn .RESERVED_3 [.ADIFilterValue] = some (.ADIFilterValue, .member (py "RESERVED_3") (py "3")) := rfl
@[src] theorem find_ADIFilterValue_RESERVED_4 : findIn .RESERVED_4 [.ADIFilterValue] = some (.ADIFilterValue, .member (py "RESERVED_4") (py "4")) := rfl
@[src] theorem find_ADIFilterValue_RESERVED_5 : findIn .RESERVED_5 [.ADIFilterValue] = some (.ADIFilterValue, .member (py "RESERVED_5") (py "5")) := rfl
@[src] theorem find_ADIFilterValue_PALLET : findIn .PALLET [.ADIFilterValue] = some (.ADIFilterValue, .member (py "PALLET") (py "6")) := rfl
@[src] theorem find_ADIFilterValue_RESERVED_7 : findIn .RESERVED_7 [.ADIFilterValue] = some (.ADIFilterValue, .member (py "RESERVED_7") (py "7")) := rfl
@[src] theorem find_ADIFilterValue_SEAT_CUSHIONS : findIn .SEAT_CUSHIONS [.ADIFilterValue] = some (.ADIFilterValue, .member (py "SEAT_CUSHIONS") (py "8")) := rfl
@[src] theorem find_ADIFilterValue_SEAT_COVERS : findIn .SEAT_COVERS [.ADIFilterValue] = some (.ADIFilterValue, .member (py "SEAT_COVERS") (py "9")) := rfl
@[src] theorem find_ADIFilterValue_SEAT_BELTS : findIn .SEAT_BELTS [.ADIFilterValue] = some (.ADIFilterValue, .member (py "SEAT_BELTS") (py "10")) := rfl
@[src] theorem find_ADIFilterValue_GALLEY : findIn .GALLEY [.ADIFilterValue] = some (.ADIFilterValue, .member (py "GALLEY") (py "11")) := rfl
@[src] theorem find_ADIFilterValue_UNIT_LOAD_DEVICES : findIn .UNIT_LOAD_DEVICES [.ADIFilterValue] = some (.ADIFilterValue, .member (py "UNIT_LOAD_DEVICES") (py "12")) := rfl
@[src] theorem find_ADIFilterValue_AIRCRAFT_SECURITY_ITEMS : findIn .AIRCRAFT_SECURITY_ITEMS [.ADIFilterValue] = some (.ADIFilterValue, .member (py "AIRCRAFT_SECURITY_ITEMS") (py "13")) := rfl
@[src] theorem find_ADIFilterValue_LIFE_VESTS : findIn .LIFE_VESTS [.ADIFilterValue] = some (.ADIFilterValue, .member (py "LIFE_VESTS") (py "14")) := rfl
@[src] theorem find_ADIFilterValue_OXYGEN_GENERATOR : findIn .OXYGEN_GENERATOR [.ADIFilterValue] = some (.ADIFilterValue, .member (py "OXYGEN_GENERATOR") (py "15")) := rfl
@[src] theorem find_ADIFilterValue_ENGINE_COMPONENTS : findIn .ENGINE_COMPONENTS [.ADIFilterValue] = some (.ADIFilterValue, .member (py "ENGINE_COMPONENTS") (py "16")) := rfl
@[src] theorem find_ADIFilterValue_AVIONICS : findIn .AVIONICS [.ADIFilterValue] = some (.ADIFilterValue, .member (py "AVIONICS") (py "17")) := rfl
@[src] theorem find_ADIFilterValue_EXPERIMENTAL_EQUIPMENT : findIn .EXPERIMENTAL_EQUIPMENT [.ADIFilterValue] = some (.ADIFilterValue, .member (py "EXPERIMENTAL_EQUIPMENT") (py "18")) := rfl
@[src] theorem find_ADIFilterValue_OTHER_EMERGENCY_EQUIPMENT : findIn .OTHER_EMERGENCY_EQUIPMENT [.ADIFilterValue] = some (.ADIFilterValue, .member (py "OTHER_EMERGENCY_EQUIPMENT") (py "19")) := rfl
@[src] theorem find_ADIFilterValue_OTHER_ROTABLES : findIn .OTHER_ROTABLES [.ADIFilterValue] = some (.ADIFilterValue, .member (py "OTHER_ROTABLES") (py "20")) := rfl
@[src] theorem find_ADIFilterValue_OTHER_REPAIRABLE : findIn .OTHER_REPAIRABLE [.ADIFilterValue] = some (.ADIFilterValue, .member (py "OTHER_REPAIRABLE") (py "21")) := rfl
@[src] theorem find_ADIFilterValue_OTHER_CABIN_INTERIOR : findIn .OTHER_CABIN_INTERIOR [.ADIFilterValue] = some (.ADIFilterValue, .member (py "OTHER_CABIN_INTERIOR") (py "22")) := rfl
@[src] theorem find_ADIFilterValue_OTHER_REPAIR : findIn .OTHER_REPAIR [.ADIFilterValue] = some (.ADIFilterValue, .member (py "OTHER_REPAIR") (py "23")) := rfl
@[src] theorem find_ADIFilterValue_PASSENGER_SEATS : findIn .PASSENGER_SEATS [.ADIFilterValue] = some (.ADIFilterValue, .member (py "PASSENGER_SEATS") (py "24")) := rfl
@[src] theorem find_ADIFilterValue_IFE_SYSTEMS : findIn .IFE_SYSTEMS [.ADIFilterValue] = some (.ADIFilterValue, .member (py "IFE_SYSTEMS") (py "25")) := rfl
@[src] theorem find_ADIFilterValue_RESERVED_26 : findIn .RESERVED_26 [.ADIFilterValue] = some (.ADIFilterValue, .member (py "RESERVED_26") (py "26")) := rfl
@[src] theorem find_ADIFilterValue_RESERVED_27 : findIn .RESERVED_27 [.ADIFilterValue] = some (.ADIFilterValue, .member (py "RESERVED_27") (py "27")) := rfl
@[src] theorem find_ADIFilterValue_RESERVED_28 : findIn .RESERVED_28 [.ADIFilterValue] = some (.ADIFilterValue, .member (py "RESERVED_28") (py "28")) := rfl
@[src] theorem find_ADIFilterValue_RESERVED_29 : findIn .RESERVED_29 [.ADIFilterValue] = some (.ADIFilterValue, .member (py "RESERVED_29") (py "29")) := rfl
@[src] theorem find_ADIFilterValue_RESERVED_30 : findIn .RESERVED_30 [.ADIFilterValue] = some (.ADIFilterValue, .member (py "RESERVED_30") (py "30")) := rfl
@[src] theorem find_ADIFilterValue_RESERVED_31 : findIn .RESERVED_31 [.ADIFilterValue] = some (.ADIFilterValue, .member (py "RESERVED_31") (py "31")) := rfl
@[src] theorem find_ADIFilterValue_RESERVED_32 : findIn .RESERVED_32 [.ADIFilterValue] = some (.ADIFilterValue, .member (py "RESERVED_32") (py "32")) := rfl
@[src] theorem find_ADIFilterValue_RESERVED_33 : findIn .RESERVED_33 [.ADIFilterValue] = some (.ADIFilterValue, .member (py "RESERVED_33") (py "33")) := rfl
@[src] theorem find_ADIFilterValue_RESERVED_34 : findIn .RESERVED_34 [.ADIFilterValue] = some (.ADIFilterValue, .member (py "RESERVED_34") (py "34")) := rfl
@[src] theorem find_ADIFilterValue_RESERVED_35 : findIn .RESERVED_35 [.ADIFilterValue] = some (.ADIFilterValue, .member (py "RESERVED_35") (py "35")) := rfl
@[src] theorem find_ADIFilterValue_RESERVED_36 : findIn .RESERVED_36 [.ADIFilterValue] = some (.ADIFilterValue, .member (py "RESERVED_36") (py "36")) := rfl
@[src] theorem find_ADIFilterValue_RESERVED_37 : findIn .RESERVED_37 [.ADIFilterValue] = some (.ADIFilterValue, .member (py "RESERVED_37") (py "37")) := rfl
@[src] theorem find_ADIFilterValue_RESERVED_38 : findIn .RESERVED_38 [.ADIFilterValue] = some (.ADIFilterValue, .member (py "RESERVED_38") (py "38")) := rfl
@[src] theorem find_ADIFilterValue_RESERVED_39 : findIn .RESERVED_39 [.ADIFilterValue] = some (.ADIFilterValue, .member (py "RESERVED_39") (py "39")) := rfl
@[src] theorem find_ADIFilterValue_RESERVED_40 : findIn .RESERVED_40 [.ADIFilterValue] = some (.ADIFilterValue, .member (py "RESERVED_40") (py "40")) := rfl
@[src] theorem find_ADIFilterValue_RESERVED_41 : findIn .RESERVED_41 [.ADIFilterValue] = some (.ADIFilterValue, .member (py "RESERVED_41") (py "41")) := rfl
@[src] theorem find_ADIFilterValue_RESERVED_42 : findIn .RESERVED_42 [.ADIFilterValue] = some (.ADIFilterValue, .member (py "RESERVED_42") (py "42")) := rfl
@[src] theorem find_ADIFilterValue_RESERVED_43 : findIn .RESERVED_43 [.ADIFilterValue] = some (.ADIFilterValue, .member (py "RESERVED_43") (py "43")) := rfl
@[src] theorem find_ADIFilterValue_RESERVED_44 : findIn .RESERVED_44 [.ADIFilterValue] = some (.ADIFilterValue, .member (py "RESERVED_44") (py "44")) := rfl
@[src] theorem find_ADIFilterValue_RESERVED_45 : findIn .RESERVED_45 [.ADIFilterValue] = some (.ADIFilterValue, .member (py "RESERVED_45") (py "45")) := rfl
@[src] theorem find_ADIFilterValue_RESERVED_46 : findIn .RESERVED_46 [.ADIFilterValue] = some (.ADIFilterValue, .member (py "RESERVED_46") (py "46")) := rfl
@[src] theorem find_ADIFilterValue_RESERVED_47 : findIn .RESERVED_47 [.ADIFilterValue] = some (.ADIFilterValue, .member (py "RESERVED_47") (py "47")) := rfl
@[src] theorem find_ADIFilterValue_RESERVED_48 : findIn .RESERVED_48 [.ADIFilterValue] = some (.ADIFilterValue, .member (py "RESERVED_48") (py "48")) := rfl
@[src] theorem find_ADIFilterValue_RESERVED_49 : findIn .RESERVED_49 [.ADIFilterValue] = some (.ADIFilterValue, .member (py "RESERVED_49") (py "49")) := rfl
@[src] theorem find_ADIFilterValue_RESERVED_50 : findIn .RESERVED_50 [.ADIFilterValue] = some (.ADIFilterValue, .member (py "RESERVED_50") (py "50")) := rfl
@[src] theorem find_ADIFilterValue_RESERVED_51 : findIn .RESERVED_51 [.ADIFilterValue] = some (.ADIFilterValue, .member (py "RESERVED_51") (py "51")) := rfl
@[src] theorem find_ADIFilterValue_RESERVED_52 : findIn .RESERVED_52 [.ADIFilterValue] = some (.ADIFilterValue, .member (py "RESERVED_52") (py "52")) := rfl
@[src] theorem find_ADIFilterValue_RESERVED_53 : findIn .RESERVED_53 [.ADIFilterValue] = some (.ADIFilterValue, .member (py "RESERVED_53") (py "53")) := rfl
@[src] theorem find_ADIFilterValue_RESERVED_54 : findIn .RESERVED_54 [.ADIFilterValue] = some (.ADIFilterValue, .member (py "RESERVED_54") (py "54")) := rfl
@[src] theorem find_ADIFilterValue_RESERVED_55 : findIn .RESERVED_55 [.ADIFilterValue] = some (.ADIFilterValue, .member (py "RESERVED_55") (py "55")) := rfl
@[src] theorem find_ADIFilterValue_LOCATION_IDENTIFIER : findIn .LOCATION_IDENTIFIER [.ADIFilterValue] = some (.ADIFilterValue, .member (py "LOCATION_IDENTIFIER") (py "56")) := rfl
@[src] theorem find_ADIFilterValue_DOCUMENTATION : findIn .DOCUMENTATION [.ADIFilterValue] = some (.ADIFilterValue, .member (py "DOCUMENTATION") (py "57")) := rfl
@[src] theorem find_ADIFilterValue_TOOLS : findIn .TOOLS [.ADIFilterValue] = some (.ADIFilterValue, .member (py "TOOLS") (py "58")) := rfl
@[src] theorem find_ADIFilterValue_GROUND_SUPPORT_EQUIPMENT : findIn .GROUND_SUPPORT_EQUIPMENT [.ADIFilterValue] = some (.ADIFilterValue, .member (py "GROUND_SUPPORT_EQUIPMENT") (py "59")) := rfl
@[src] theorem find_ADIFilterValue_OTHER_NON_FLYABLE_EQUIPMENT : findIn .OTHER_NON_FLYABLE_EQUIPMENT [.ADIFilterValue] = some (.ADIFilterValue, .member (py "OTHER_NON_FLYABLE_EQUIPMENT") (py "60")) := rfl
@[src] theorem find_ADIFilterValue_RESERVED_61 : findIn .RESERVED_61 [.ADIFilterValue] = some (.ADIFilterValue, .member (py "RESERVED_61") (py "61")) := rfl
@[src] theorem find_ADIFilterValue_RESERVED_62 : findIn .RESERVED_62 [.ADIFilterValue] = some (.ADIFilterValue, .member (py "RESERVED_62") (py "62")) := rfl
@[src] theorem find_ADIFilterValue_RESERVED_63 : findIn .RESERVED_63 [.ADIFilterValue] = some (.ADIFilterValue, .member (py "RESERVED_63") (py "63")) := rfl
@[src] theorem mro_ADI : clsMro .ADI = [.ADI, .TagEncodable, .EPCScheme] := by decide +kernel
@[src] theorem chain_ADI : initChain [.ADI, .TagEncodable, .EPCScheme] = [.ADI, .TagEncodable, .EPCScheme] := by decide +kernel
@[src] theorem find_ADI_BinaryCodingScheme : findIn .BinaryCodingScheme [.ADI, .TagEncodable, .EPCScheme] = some (.ADI, .enum [(.ADI_VAR, (py "ADI_VAR"), (py "adi-var"))]) := rfl
@[src] theorem find_ADI_BinaryHeader : findIn .BinaryHeader [.ADI, .TagEncodable, .EPCScheme] = some (.ADI, .enum [(.ADI_VAR, (py "ADI_VAR"), (py "00111011"))]) := rfl
@[src] theorem find_ADI___init__ : findIn .__init__ [.ADI, .TagEncodable, .EPCScheme] = some (.ADI, .method Src.ADI.__init__) := rfl
@[src] theorem find_ADI_tag_uri : findIn .tag_uri [.ADI, .TagEncodable, .EPCScheme] = some (.ADI, .method Src.ADI.tag_uri) := rfl
@[src] theorem find_ADI_binary : findIn .binary [.ADI, .TagEncodable, .EPCScheme] = some (.ADI, .method Src.ADI.binary) := rfl
@[src] theorem find_ADI_from_binary : findIn .from_binary [.ADI, .TagEncodable, .EPCScheme] = some (.ADI, .classmethod Src.ADI.from_binary) := rfl
@[src] theorem find_ADI_TAG_URI_REGEX : findIn .TAG_URI_REGEX [.ADI, .TagEncodable, .EPCScheme] = some (.TagEncodable, .const (.call (.attr (.name .re) .compile) [(.name .TAG_URI)] [])) := rfl
@[src] theorem find_ADI_TAG_URI_PREFIX : findIn .TAG_URI_PREFIX [.ADI, .TagEncodable, .EPCScheme] = some (.TagEncodable, .const (.str (py "urn:epc:tag:"))) := rfl
@[src] theorem find_ADI_hex : findIn .hex [.ADI, .TagEncodable, .EPCScheme] = some (.TagEncodable, .method Src.TagEncodable.hex) := rfl
@[src] theorem find_ADI_base64 : findIn .base64 [.ADI, .TagEncodable, .EPCScheme] = some (.TagEncodable, .method Src.TagEncodable.base64) := rfl
@[src] theorem find_ADI_from_hex : findIn .from_hex [.ADI, .TagEncodable, .EPCScheme] = some (.TagEncodable, .classmethod Src.TagEncodable.from_hex) := rfl
@[src] theorem find_ADI_from_base64 : findIn .from_base64 [.ADI, .TagEncodable, .EPCScheme] = some (.TagEncodable, .classmethod Src.TagEncodable.from_base64) := rfl
@[src] theorem find_ADI_from_tag_uri : findIn .from_tag_uri [.ADI, .TagEncodable, .EPCScheme] = some (.TagEncodable, .classmethod Src.TagEncodable.from_tag_uri) := rfl
@[src] theorem find_ADI_header_to_schemes : findIn .header_to_schemes [.ADI, .TagEncodable, .EPCScheme] = some (.TagEncodable, .classmethod Src.TagEncodable.header_to_schemes) := rfl
@[src] theorem find_ADI___eq__ : findIn .__eq__ [.ADI, .TagEncodable, .EPCScheme] = some (.EPCScheme, .method Src.EPCScheme.__eq__) := rfl
@[src] theorem find_ADI_from_epc_uri : findIn .from_epc_uri [.ADI, .TagEncodable, .EPCScheme] = some (.EPCScheme, .classmethod Src.EPCScheme.from_epc_uri) := rfl
@[src] theorem header_ADI_ADI_VAR : getItem (.enumCls .ADI .BinaryHeader [(.ADI_VAR, (py "ADI_VAR"), (py "00111011"))]) (.str (py "ADI_VAR")) = .ok (.member .ADI .BinaryHeader .ADI_VAR (py "ADI_VAR") (py "00111011")) := rfl
@[src] theorem mro_BIC : clsMro .BIC = [.BIC, .EPCScheme] := by decide +kernel
@[src] theorem chain_BIC : initChain [.BIC, .EPCScheme] = [.BIC, .EPCScheme] := by decide +kernel
@[src] theorem find_BIC___init__ : findIn .__init__ [.BIC, .EPCScheme] = some (.BIC, .method Src.BIC.__init__) := rfl
@[src] theorem find_BIC___eq__ : findIn .__eq__ [.BIC, .EPCScheme] = some (.EPCScheme, .method Src.EPCScheme.__eq__) := rfl
@[src] theorem find_BIC_from_epc_uri : findIn .from_epc_uri [.BIC, .EPCScheme] = some (.EPCScheme, .classmethod Src.EPCScheme.from_epc_uri) := rfl
@[src] theorem mro_CPIFilterValue : clsMro .CPIFilterValue = [.CPIFilterValue] := by decide +kernel
@[src] theorem chain_CPIFilterValue : initChain [.CPIFilterValue] = [] := by decide +kernel
@[src] theorem find_CPIFilterValue_ALL_OTHERS : findIn .ALL_OTHERS [.CPIFilterValue] = some (.CPIFilterValue, .member (py "ALL_OTHERS") (py "0")) := rfl
@[src] theorem find_CPIFilterValue_RESERVED_1 : findIn .RESERVED_1 [.CPIFilterValue] = some (.CPIFilterValue, .member (py "RESERVED_1") (py "1")) := rfl
@[src] theorem find_CPIFilterValue_RESERVED_2 : findIn .RESERVED_2 [.CPIFilterValue] = some (.CPIFilterValue, .member (py "RESERVED_2") (py "2")) := rfl
@[src] theorem find_CPIFilterValue_RESERVED_3 : findIn .RESERVED_3 [.CPIFilterValue] = some (.CPIFilterValue, .member (py "RESERVED_3") (py "3")) := rfl
@[src] theorem find_CPIFilterValue_RESERVED_4 : findIn .RESERVED_4 [.CPIFilterValue] = some (.CPIFilterValue, .member (py "RESERVED_4") (py "4")) := rfl
@[src] theorem find_CPIFilterValue_RESERVED_5 : findIn .RESERVED_5 [.CPIFilterValue] = some (.CPIFilterValue, .member (py "RESERVED_5") (py "5")) := rfl
@[src] theorem find_CPIFilterValue_RESERVED_6 : findIn .RESERVED_6 [.CPIFilterValue] = some (.CPIFilterValue, .member (py "RESERVED_6") (py "6")) := rfl
@[src] theorem find_CPIFilterValue_RESERVED_7 : findIn .RESERVED_7 [.CPIFilterValue] = some (.CPIFilterValue, .member (py "RESERVED_7") (py "7")) := rfl
@[src] theorem mro_CPI : clsMro .CPI = [.CPI, .GS1Element, .TagEncodable, .EPCScheme] := by decide +kernel
@[src] theorem chain_CPI : initChain [.CPI, .GS1Element, .TagEncodable, .EPCScheme] = [.CPI, .GS1Element, .TagEncodable, .EPCScheme] := by decide +kernel
@[src] theorem find_CPI_BinaryCodingScheme : findIn .BinaryCodingScheme [.CPI, .GS1Element, .TagEncodable, .EPCScheme] = some (.CPI, .enum [(.CPI_96, (py "CPI_96"), (py "cpi-96")), (.CPI_VAR, (py "CPI_VAR"), (py "cpi-var"))]) := rfl
@[src] theorem find_CPI_BinaryHeader : findIn .BinaryHeader [.CPI, .GS1Element, .TagEncodable, .EPCScheme] = some (.CPI, .enum [(.CPI_96, (py "CPI_96"), (py "00111100")), (.CPI_VAR, (py "CPI_VAR"), (py "00111101"))]) := rfl
@[src] theorem find_CPI_gs1_element_string_regex : findIn .gs1_element_string_regex [.CPI, .GS1Element, .TagEncodable, .EPCScheme] = some (.CPI, .const (.call (.attr (.name .re) .compile) [(.name .CPI_GS1_ELEMENT_STRING)] [])) := rfl
@[src] theorem find_CPI___init__ : findIn .__init__ [.CPI, .GS1Element, .TagEncodable, .EPCScheme] = some (.CPI, .method Src.CPI.__init__) := rfl
@[src] theorem find_CPI_gs1_element_string : findIn .gs1_element_string [.CPI, .GS1Element, .TagEncodable, .EPCScheme] = some (.CPI, .method Src.CPI.gs1_element_string) := rfl
@[src] theorem find_CPI_from_gs1_element_string : findIn .from_gs1_element_string [.CPI, .GS1Element, .TagEncodable, .EPCScheme] = some (.CPI, .classmethod Src.CPI.from_gs1_element_string) := rfl
@[src] theorem find_CPI_tag_uri : findIn .tag_uri [.CPI, .GS1Element, .TagEncodable, .EPCScheme] = some (.CPI, .method Src.CPI.tag_uri) := rfl
@[src] theorem find_CPI_binary : findIn .binary [.CPI, .GS1Element, .TagEncodable, .EPCScheme] = some (.CPI, .method Src.CPI.binary) := rfl
@[src] theorem find_CPI_from_binary : findIn .from_binary [.CPI, .GS1Element, .TagEncodable, .EPCScheme] = some (.CPI, .classmethod Src.CPI.from_binary) := rfl
@[src] theorem find_CPI_TAG_URI_REGEX : findIn .TAG_URI_REGEX [.CPI, .GS1Element, .TagEncodable, .EPCScheme] = some (.TagEncodable, .const (.call (.attr (.name .re) .compile) [(.name .TAG_URI)] [])) := rfl
@[src] theorem find_CPI_TAG_URI_PREFIX : findIn .TAG_URI_PREFIX [.CPI, .GS1Element, .TagEncodable, .EPCScheme] = some (.TagEncodable, .const (.str (py "urn:epc:tag:"))) := rfl
@[src] theorem find_CPI_hex : findIn .hex [.CPI, .GS1Element, .TagEncodable, .EPCScheme] = some (.TagEncodable, .method Src.TagEncodable.hex) := rfl
@[src] theorem find_CPI_base64 : findIn .base64 [.CPI, .GS1Element, .TagEncodable, .EPCScheme] = some (.TagEncodable, .method Src.TagEncodable.base64) := rfl
@[src] theorem find_CPI_from_hex : findIn .from_hex [.CPI, .GS1Element, .TagEncodable, .EPCScheme] = some (.TagEncodable, .classmethod Src.TagEncodable.from_hex) := rfl
@[src] theorem find_CPI_from_base64 : findIn .from_base64 [.CPI, .GS1Element, .TagEncodable, .EPCScheme] = some (.TagEncodable, .classmethod Src.TagEncodable.from_base64) := rfl
@[src] theorem find_CPI_from_tag_uri : findIn .from_tag_uri [.CPI, .GS1Element, .TagEncodable, .EPCScheme] = some (.TagEncodable, .classmethod Src.TagEncodable.from_tag_uri) := rfl
@[src] theorem find_CPI_header_to_schemes : findIn .header_to_schemes [.CPI, .GS1Element, .TagEncodable, .EPCScheme] = some (.TagEncodable, .classmethod Src.TagEncodable.header_to_schemes) := rfl
@[src] theorem find_CPI___eq__ : findIn .__eq__ [.CPI, .GS1Element, .TagEncodable, .EPCScheme] = some (.EPCScheme, .method Src.EPCScheme.__eq__) := rfl
@[src] theorem find_CPI_from_epc_uri : findIn .from_epc_uri [.CPI, .GS1Element, .TagEncodable, .EPCScheme] = some (.EPCScheme, .classmethod Src.EPCScheme.from_epc_uri) := rfl
@[src] theorem header_CPI_CPI_96 : getItem (.enumCls .CPI .BinaryHeader [(.CPI_96, (py "CPI_96"), (py "00111100")), (.CPI_VAR, (py "CPI_VAR"), (py "00111101"))]) (.str (py "CPI_96")) = .ok (.member .CPI .BinaryHeader .CPI_96 (py "CPI_96") (py "00111100")) := rfl
@[src] theorem header_CPI_CPI_VAR : getItem (.enumCls .CPI .BinaryHeader [(.CPI_96, (py "CPI_96"), (py "00111100")), (.CPI_VAR, (py "CPI_VAR"), (py "00111101"))]) (.str (py "CPI_VAR")) = .ok (.member .CPI .BinaryHeader .CPI_VAR (py "CPI_VAR") (py "00111101")) := rfl
@[src] theorem mro_GDTIFilterValue : clsMro .GDTIFilterValue = [.GDTIFilterValue] := by decide +kernel
@[src] theorem chain_GDTIFilterValue : initChain [.GDTIFilterValue] = [] := by decide +kernel
@[src] theorem find_GDTIFilterValue_ALL_OTHERS : findIn .ALL_OTHERS [.GDTIFilterValue] = some (.GDTIFilterValue, .member (py "ALL_OTHERS") (py "0")) := rfl
@[src] theorem find_GDTIFilterValue_TRAVEL_DOCUMENT : findIn .TRAVEL_DOCUMENT [.GDTIFilterValue] = some (.GDTIFilterValue, .member (py "TRAVEL_DOCUMENT") (py "1")) := rfl
@[src] theorem find_GDTIFilterValue_RESERVED_2 : findIn .RESERVED_2 [.GDTIFilterValue] = some (.GDTIFilterValue, .member (py "RESERVED_2") (py "2")) := rfl
@[src] theorem find_GDTIFilterValue_RESERVED_3 : findIn .RESERVED_3 [.GDTIFilterValue] = some (.GDTIFilterValue, .member (py "RESERVED_3") (py "3")) := rfl
@[src] theorem find_GDTIFilterValue_RESERVED_4 : findIn .RESERVED_4 [.GDTIFilterValue] = some (.GDTIFilterValue, .member (py "RESERVED_4") (py "4")) := rfl
@[src] theorem find_GDTIFilterValue_RESERVED_5 : findIn .RESERVED_5 [.GDTIFilterValue] = some (.GDTIFilterValue, .member (py "RESERVED_5") (py "5")) := rfl
@[src] theorem find_GDTIFilterValue_RESERVED_6 : findIn .RESERVED_6 [.GDTIFilterValue] = some (.GDTIFilterValue, .member (py "RESERVED_6") (py "6")) := rfl
@[src] theorem find_GDTIFilterValue_RESERVED_7 : findIn .RESERVED_7 [.GDTIFilterValue] = some (.GDTIFilterValue, .member (py "RESERVED_7") (py "7")) := rfl
@[src] theorem mro_GDTI : clsMro .GDTI = [.GDTI, .TagEncodable, .GS1Keyed, .GS1Element, .EPCScheme] := by decide +kernel
@[src] theorem chain_GDTI : initChain [.GDTI, .TagEncodable, .GS1Keyed, .GS1Element, .EPCScheme] = [.GDTI, .TagEncodable, .GS1Keyed, .GS1Element, .EPCScheme] := by decide +kernel
@[src] theorem find_GDTI_BinaryCodingScheme : findIn .BinaryCodingScheme [.GDTI, .TagEncodable, .GS1Keyed, .GS1Element, .EPCScheme] = some (.GDTI, .enum [(.GDTI_96, (py "GDTI_96"), (py "gdti-96")), (.GDTI_174, (py "GDTI_174"), (py "gdti-174"))]) := rfl
@[src] theorem find_GDTI_BinaryHeader : findIn .BinaryHeader [.GDTI, .TagEncodable, .GS1Keyed, .GS1Element, .EPCScheme] = some (.GDTI, .enum [(.GDTI_96, (py "GDTI_96"), (py "00101100")), (.GDTI_174, (py "GDTI_174"), (py "00111110"))]) := rfl
@[src] theorem find_GDTI_gs1_element_string_regex : findIn .gs1_element_string_regex [.GDTI, .TagEncodable, .GS1Keyed, .GS1Element, .EPCScheme] = some (.GDTI, .const (.call (.attr (.name .re) .compile) [(.name .GDTI_GS1_ELEMENT_STRING)] [])) := rfl
@[src] theorem find_GDTI___init__ : findIn .__init__ [.GDTI, .TagEncodable, .GS1Keyed, .GS1Element, .EPCScheme] = some (.GDTI, .method Src.GDTI.__init__) := rfl
@[src] theorem find_GDTI_gs1_key : findIn .gs1_key [.GDTI, .TagEncodable, .GS1Keyed, .GS1Element, .EPCScheme] = some (.GDTI, .method Src.GDTI.gs1_key) := rfl
@[src] theorem find_GDTI_gs1_element_string : findIn .gs1_element_string [.GDTI, .TagEncodable, .GS1Keyed, .GS1Element, .EPCScheme] = some (.GDTI, .method Src.GDTI.gs1_element_string) := rfl
@[src] theorem find_GDTI_from_gs1_element_string : findIn .from_gs1_element_string [.GDTI, .TagEncodable, .GS1Keyed, .GS1Element, .EPCScheme] = some (.GDTI, .classmethod Src.GDTI.from_gs1_element_string) := rfl
@[src] theorem find_GDTI_tag_uri : findIn .tag_uri [.GDTI, .TagEncodable, .GS1Keyed, .GS1Element, .EPCScheme] = some (.GDTI, .method Src.GDTI.tag_uri) := rfl
@[src] theorem find_GDTI_binary : findIn .binary [.GDTI, .TagEncodable, .GS1Keyed, .GS1Element, .EPCScheme] = some (.GDTI, .method Src.GDTI.binary) := rfl
@[src] theorem find_GDTI_from_binary : findIn .from_binary [.GDTI, .TagEncodable, .GS1Keyed, .GS1Element, .EPCScheme] = some (.GDTI, .classmethod Src.GDTI.from_binary) := rfl
@[src] theorem find_GDTI_TAG_URI_REGEX : findIn .TAG_URI_REGEX [.GDTI, .TagEncodable, .GS1Keyed, .GS1Element, .EPCScheme] = some (.TagEncodable, .const (.call (.attr (.name .re) .compile) [(.name .TAG_URI)] [])) := rfl
@[src] theorem find_GDTI_TAG_URI_PREFIX : findIn .TAG_URI_PREFIX [.GDTI, .TagEncodable, .GS1Keyed, .GS1Element, .EPCScheme] = some (.TagEncodable, .const (.str (py "urn:epc:tag:"))) := rfl
@[src] theorem find_GDTI_hex : findIn .hex [.GDTI, .TagEncodable, .GS1Keyed, .GS1Element, .EPCScheme] = some (.TagEncodable, .method Src.TagEncodable.hex) := rfl
@[src] theorem find_GDTI_base64 : findIn .base64 [.GDTI, .TagEncodable, .GS1Keyed, .GS1Element, .EPCScheme] = some (.TagEncodable, .method Src.TagEncodable.base64) := rfl
@[src] theorem find_GDTI_from_hex : findIn .from_hex [.GDTI, .TagEncodable, .GS1Keyed, .GS1Element, .EPCScheme] = some (.TagEncodable, .classmethod Src.TagEncodable.from_hex) := rfl
@[src] theorem find_GDTI_from_base64 : findIn .from_base64 [.GDTI, .TagEncodable, .GS1Keyed, .GS1Element, .EPCScheme] = some (.TagEncodable, .classmethod Src.TagEncodable.from_base64) := rfl
@[src] theorem find_GDTI_from_tag_uri : findIn .from_tag_uri [.GDTI, .TagEncodable, .GS1Keyed, .GS1Element, .EPCScheme] = some (.TagEncodable, .classmethod Src.TagEncodable.from_tag_uri) := rfl
@[src] theorem find_GDTI_header_to_schemes : findIn .header_to_schemes [.GDTI, .TagEncodable, .GS1Keyed, .GS1Element, .EPCScheme] = some (.TagEncodable, .classmethod Src.TagEncodable.header_to_schemes) := rfl
@[src] theorem find_GDTI___eq__ : findIn .__eq__ [.GDTI, .TagEncodable, .GS1Keyed, .GS1Element, .EPCScheme] = some (.EPCScheme, .method Src.EPCScheme.__eq__) := rfl
@[src] theorem find_GDTI_from_epc_uri : findIn .from_epc_uri [.GDTI, .TagEncodable, .GS1Keyed, .GS1Element, .EPCScheme] = some (.EPCScheme, .classmethod Src.EPCScheme.from_epc_uri) := rfl
@[src] theorem header_GDTI_GDTI_96 : getItem (.enumCls .GDTI .BinaryHeader [(.GDTI_96, (py "GDTI_96"), (py "00101100")), (.GDTI_174, (py "GDTI_174"), (py "00111110"))]) (.str (py "GDTI_96")) = .ok (.member .GDTI .BinaryHeader .GDTI_96 (py "GDTI_96") (py "00101100")) := rfl
@[src] theorem header_GDTI_GDTI_174 : getItem (.enumCls .GDTI .BinaryHeader [(.GDTI_96, (py "GDTI_96"), (py "00101100")), (.GDTI_174, (py "GDTI_174"), (py "00111110"))]) (.str (py "GDTI_174")) = .ok (.member .GDTI .BinaryHeader .GDTI_174 (py "GDTI_174") (py "00111110")) := rfl
@[src] theorem mro_GIAIFilterValue : clsMro .GIAIFilterValue = [.GIAIFilterValue] := by decide +kernel
@[src] theorem chain_GIAIFilterValue : initChain [.GIAIFilterValue] = [] := by decide +kernel
@[src] theorem find_GIAIFilterValue_ALL_OTHERS : findIn .ALL_OTHERS [.GIAIFilterValue] = some (.GIAIFilterValue, .member (py "ALL_OTHERS") (py "0")) := rfl
@[src] theorem find_GIAIFilterValue_RAIL_VEHICLE : findIn .RAIL_VEHICLE [.GIAIFilterValue] = some (.GIAIFilterValue, .member (py "RAIL_VEHICLE") (py "1")) := rfl
@[src] theorem find_GIAIFilterValue_RESERVED_2 : findIn .RESERVED_2 [.GIAIFilterValue] = some (.GIAIFilterValue, .member (py "RESERVED_2") (py "2")) := rfl
@[src] theorem find_GIAIFilterValue_RESERVED_3 : findIn .RESERVED_3 [.GIAIFilterValue] = some (.GIAIFilterValue, .member (py "RESERVED_3") (py "3")) := rfl
@[src] theorem find_GIAIFilterValue_RESERVED_4 : findIn .RESERVED_4 [.GIAIFilterValue] = some (.GIAIFilterValue, .member (py "RESERVED_4") (py "4")) := rfl
@[src] theorem find_GIAIFilterValue_RESERVED_5 : findIn .RESERVED_5 [.GIAIFilterValue] = some (.GIAIFilterValue, .member (py "RESERVED_5") (py "5")) := rfl
@[src] theorem find_GIAIFilterValue_RESERVED_6 : findIn .RESERVED_6 [.GIAIFilterValue] = some (.GIAIFilterValue, .member (py "RESERVED_6") (py "6")) := rfl
@[src] theorem find_GIAIFilterValue_RESERVED_7 : findIn .RESERVED_7 [.GIAIFilterValue] = some (.GIAIFilterValue, .member (py "RESERVED_7") (py "7")) := rfl
@[src] theorem mro_GIAI : clsMro .GIAI = [.GIAI, .TagEncodable, .GS1Keyed, .GS1Element, .EPCScheme] := by decide +kernel
@[src] theorem chain_GIAI : initChain [.GIAI, .TagEncodable, .GS1Keyed, .GS1Element, .EPCScheme] = [.GIAI, .TagEncodable, .GS1Keyed, .GS1Element, .EPCScheme] := by decide +kernel
@[src] theorem find_GIAI_BinaryCodingScheme : findIn .BinaryCodingScheme [.GIAI, .TagEncodable, .GS1Keyed, .GS1Element, .EPCScheme] = some (.GIAI, .enum [(.GIAI_96, (py "GIAI_96"), (py "giai-96")), (.GIAI_202, (py "GIAI_202"), (py "giai-202"))]) := rfl
@[src] theorem find_GIAI_BinaryHeader : findIn .BinaryHeader [.GIAI, .TagEncodable, .GS1Keyed, .GS1Element, .EPCScheme] = some (.GIAI, .enum [(.GIAI_96, (py "GIAI_96"), (py "00110100")), (.GIAI_202, (py "GIAI_202"), (py "00111000"))]) := rfl
@[src] theorem find_GIAI_gs1_element_string_regex : findIn .gs1_element_string_regex [.GIAI, .TagEncodable, .GS1Keyed, .GS1Element, .EPCScheme] = some (.GIAI, .const (.call (.attr (.name .re) .compile) [(.name .GIAI_GS1_ELEMENT_STRING)] [])) := rfl
@[src] theorem find_GIAI___init__ : findIn .__init__ [.GIAI, .TagEncodable, .GS1Keyed, .GS1Element, .EPCScheme] = some (.GIAI, .method Src.GIAI.__init__) := rfl
@[src] theorem find_GIAI_gs1_key : findIn .gs1_key [.GIAI, .TagEncodable, .GS1Keyed, .GS1Element, .EPCScheme] = some (.GIAI, .method Src.GIAI.gs1_key) := rfl
@[src] theorem find_GIAI_gs1_element_string : findIn .gs1_element_string [.GIAI, .TagEncodable, .GS1Keyed, .GS1Element, .EPCScheme] = some (.GIAI, .method Src.GIAI.gs1_element_string) := rfl
@[src] theorem find_GIAI_from_gs1_element_string : findIn .from_gs1_element_string [.GIAI, .TagEncodable, .GS1Keyed, .GS1Element, .EPCScheme] = some (.GIAI, .classmethod Src.GIAI.from_gs1_element_string) := rfl
@[src] theorem find_GIAI_tag_uri : findIn .tag_uri [.GIAI, .TagEncodable, .GS1Keyed, .GS1Element, .EPCScheme] = some (.GIAI, .method Src.GIAI.tag_uri) := rfl
@[src] theorem find_GIAI_binary : findIn .binary [.GIAI, .TagEncodable, .GS1Keyed, .GS1Element, .EPCScheme] = some (.GIAI, .method Src.GIAI.binary) := rfl
@[src] theorem find_GIAI_from_binary : findIn .from_binary [.GIAI, .TagEncodable, .GS1Keyed, .GS1Element, .EPCScheme] = some (.GIAI, .classmethod Src.GIAI.from_binary) := rfl
@[src] theorem find_GIAI_TAG_URI_REGEX : findIn .TAG_URI_REGEX [.GIAI, .TagEncodable, .GS1Keyed, .GS1Element, .EPCScheme] = some (.TagEncodable, .const (.call (.attr (.name .re) .compile) [(.name .TAG_URI)] [])) := rfl
@[src] theorem find_GIAI_TAG_URI_PREFIX : findIn .TAG_URI_PREFIX [.GIAI, .TagEncodable, .GS1Keyed, .GS1Element, .EPCScheme] = some (.TagEncodable, .const (.str (py "urn:epc:tag:"))) := rfl
@[src] theorem find_GIAI_hex : findIn .hex [.GIAI, .TagEncodable, .GS1Keyed, .GS1Element, .EPCScheme] = some (.TagEncodable, .method Src.TagEncodable.hex) := rfl
@[src] theorem find_GIAI_base64 : findIn .base64 [.GIAI, .TagEncodable, .GS1Keyed, .GS1Element, .EPCScheme] = some (.TagEncodable, .method Src.TagEncodable.base64) := rfl
@[src] theorem find_GIAI_from_hex : findIn .from_hex [.GIAI, .TagEncodable, .GS1Keyed, .GS1Element, .EPCScheme] = some (.TagEncodable, .classmethod Src.TagEncodable.from_hex) := rfl
@[src] theorem find_GIAI_from_base64 : findIn .from_base64 [.GIAI, .TagEncodable, .GS1Keyed, .GS1Element, .EPCScheme] = some (.TagEncodable, .classmethod Src.TagEncodable.from_base64) := rfl
@[src] theorem find_GIAI_from_tag_uri : findIn .from_tag_uri [.GIAI, .TagEncodable, .GS1Keyed, .GS1Element, .EPCScheme] = some (.TagEncodable, .classmethod Src.TagEncodable.from_tag_uri) := rfl
@[src] theorem find_GIAI_header_to_schemes : findIn .header_to_schemes [.GIAI, .TagEncodable, .GS1Keyed, .GS1Element, .EPCScheme] = some (.TagEncodable, .classmethod Src.TagEncodable.header_to_schemes) := rfl
@[src] theorem find_GIAI___eq__ : findIn .__eq__ [.GIAI, .TagEncodable, .GS1Keyed, .GS1Element, .EPCScheme] = some (.EPCScheme, .method Src.EPCScheme.__eq__) := rfl
@[src] theorem find_GIAI_from_epc_uri : findIn .from_epc_uri [.GIAI, .TagEncodable, .GS1Keyed, .GS1Element, .EPCScheme] = some (.EPCScheme, .classmethod Src.EPCScheme.from_epc_uri) := rfl
@[src] theorem header_GIAI_GIAI_96 : getItem (.enumCls .GIAI .BinaryHeader [(.GIAI_96, (py "GIAI_96"), (py "00110100")), (.GIAI_202, (py "GIAI_202"), (py "00111000"))]) (.str (py "GIAI_96")) = .ok (.member .GIAI .BinaryHeader .GIAI_96 (py "GIAI_96") (py "00110100")) := rfl
@[src] theorem header_GIAI_GIAI_202 : getItem (.enumCls .GIAI .BinaryHeader [(.GIAI_96, (py "GIAI_96"), (py "00110100")), (.GIAI_202, (py "GIAI_202"), (py "00111000"))]) (.str (py "GIAI_202")) = .ok (.member .GIAI .BinaryHeader .GIAI_202 (py "GIAI_202") (py "00111000")) := rfl
@[src] theorem mro_GID : clsMro .GID = [.GID, .TagEncodable, .EPCScheme] := by decide +kernel
@[src] theorem chain_GID : initChain [.GID, .TagEncodable, .EPCScheme] = [.GID, .TagEncodable, .EPCScheme] := by decide +kernel
@[src] theorem find_GID_BinaryCodingScheme : findIn .BinaryCodingScheme [.GID, .TagEncodable, .EPCScheme] = some (.GID, .enum [(.GID_96, (py "GID_96"), (py "gid-96"))]) := rfl
@[src] theorem find_GID_BinaryHeader : findIn .BinaryHeader [.GID, .TagEncodable, .EPCScheme] = some (.GID, .enum [(.GID_96, (py "GID_96"), (py "00110101"))]) := rfl
@[src] theorem find_GID___init__ : findIn .__init__ [.GID, .TagEncodable, .EPCScheme] = some (.GID, .method Src.GID.__init__) := rfl
@[src] theorem find_GID_tag_uri : findIn .tag_uri [.GID, .TagEncodable, .EPCScheme] = some (.GID, .method Src.GID.tag_uri) := rfl
@[src] theorem find_GID_binary : findIn .binary [.GID, .TagEncodable, .EPCScheme] = some (.GID, .method Src.GID.binary) := rfl
@[src] theorem find_GID_from_tag_uri : findIn .from_tag_uri [.GID, .TagEncodable, .EPCScheme] = some (.GID, .classmethod Src.GID.from_tag_uri) := rfl
@[src] theorem find_GID_from_binary : findIn .from_binary [.GID, .TagEncodable, .EPCScheme] = some (.GID, .classmethod Src.GID.from_binary) := rfl
@[src] theorem find_GID_TAG_URI_REGEX : findIn .TAG_URI_REGEX [.GID, .TagEncodable, .EPCScheme] = some (.TagEncodable, .const (.call (.attr (.name .re) .compile) [(.name .TAG_URI)] [])) := rfl
@[src] theorem find_GID_TAG_URI_PREFIX : findIn .TAG_URI_PREFIX [.GID, .TagEncodable, .EPCScheme] = some (.TagEncodable, .const (.str (py "urn:epc:tag:"))) := rfl
@[src] theorem find_GID_hex : findIn .hex [.GID, .TagEncodable, .EPCScheme] = some (.TagEncodable, .method Src.TagEncodable.hex) := rfl
@[src] theorem find_GID_base64 : findIn .base64 [.GID, .TagEncodable, .EPCScheme] = some (.TagEncodable, .method Src.TagEncodable.base64) := rfl
@[src] theorem find_GID_from_hex : findIn .from_hex [.GID, .TagEncodable, .EPCScheme] = some (.TagEncodable, .classmethod Src.TagEncodable.from_hex) := rfl
@[src] theorem find_GID_from_base64 : findIn .from_base64 [.GID, .TagEncodable, .EPCScheme] = some (.TagEncodable, .classmethod Src.TagEncodable.from_base64) := rfl
@[src] theorem find_GID_header_to_schemes : findIn .header_to_schemes [.GID, .TagEncodable, .EPCScheme] = some (.TagEncodable, .classmethod Src.TagEncodable.header_to_schemes) := rfl
@[src] theorem find_GID___eq__ : findIn .__eq__ [.GID, .TagEncodable, .EPCScheme] = some (.EPCScheme, .method Src.EPCScheme.__eq__) := rfl
@[src] theorem find_GID_from_epc_uri : findIn .from_epc_uri [.GID, .TagEncodable, .EPCScheme] = some (.EPCScheme, .classmethod Src.EPCScheme.from_epc_uri) := rfl
@[src] theorem header_GID_GID_96 : getItem (.enumCls .GID .BinaryHeader [(.GID_96, (py "GID_96"), (py "00110101"))]) (.str (py "GID_96")) = .ok (.member .GID .BinaryHeader .GID_96 (py "GID_96") (py "00110101")) := rfl
@[src] theorem mro_GINC : clsMro .GINC = [.GINC, .GS1Keyed, .GS1Element, .EPCScheme] := by decide +kernel
@[src] theorem chain_GINC : initChain [.GINC, .GS1Keyed, .GS1Element, .EPCScheme] = [.GINC, .GS1Keyed, .GS1Element, .EPCScheme] := by decide +kernel
@[src] theorem find_GINC_gs1_element_string_regex : findIn .gs1_element_string_regex [.GINC, .GS1Keyed, .GS1Element, .EPCScheme] = some (.GINC, .const (.call (.attr (.name .re) .compile) [(.name .GINC_GS1_ELEMENT_STRING)] [])) := rfl
@[src] theorem find_GINC___init__ : findIn .__init__ [.GINC, .GS1Keyed, .GS1Element, .EPCScheme] = some (.GINC, .method Src.GINC.__init__) := rfl
@[src] theorem find_GINC_gs1_key : findIn .gs1_key [.GINC, .GS1Keyed, .GS1Element, .EPCScheme] = some (.GINC, .method Src.GINC.gs1_key) := rfl
@[src] theorem find_GINC_gs1_element_string : findIn .gs1_element_string [.GINC, .GS1Keyed, .GS1Element, .EPCScheme] = some (.GINC, .method Src.GINC.gs1_element_string) := rfl
@[src] theorem find_GINC_from_gs1_element_string : findIn .from_gs1_element_string [.GINC, .GS1Keyed, .GS1Element, .EPCScheme] = some (.GINC, .classmethod Src.GINC.from_gs1_element_string) := rfl
@[src] theorem find_GINC___eq__ : findIn .__eq__ [.GINC, .GS1Keyed, .GS1Element, .EPCScheme] = some (.EPCScheme, .method Src.EPCScheme.__eq__) := rfl
@[src] theorem find_GINC_from_epc_uri : findIn .from_epc_uri [.GINC, .GS1Keyed, .GS1Element, .EPCScheme] = some (.EPCScheme, .classmethod Src.EPCScheme.from_epc_uri) := rfl
@[src] theorem mro_GRAIFilterValue : clsMro .GRAIFilterValue = [.GRAIFilterValue] := by decide +kernel
@[src] theorem chain_GRAIFilterValue : initChain [.GRAIFilterValue] = [] := by decide +kernel
@[src] theorem find_GRAIFilterValue_ALL_OTHERS : findIn .ALL_OTHERS [.GRAIFilterValue] = some (.GRAIFilterValue, .member (py "ALL_OTHERS") (py "0")) := rfl
@[src] theorem find_GRAIFilterValue_RESERVED_1 : findIn .RESERVED_1 [.GRAIFilterValue] = some (.GRAIFilterValue, .member (py "RESERVED_1") (py "1")) := rfl
@[src] theorem find_GRAIFilterValue_RESERVED_2 : findIn .RESERVED_2 [.GRAIFilterValue] = some (.GRAIFilterValue, .member (py "RESERVED_2") (py "2")) := rfl
@[src] theorem find_GRAIFilterValue_RESERVED_3 : findIn .RESERVED_3 [.GRAIFilterValue] = some (.GRAIFilterValue, .member (py "RESERVED_3") (py "3")) := rfl
@[src] theorem find_GRAIFilterValue_RESERVED_4 : findIn .RESERVED_4 [.GRAIFilterValue] = some (.GRAIFilterValue, .member (py "RESERVED_4") (py "4")) := rfl
@[src] theorem find_GRAIFilterValue_RESERVED_5 : findIn .RESERVED_5 [.GRAIFilterValue] = some (.GRAIFilterValue, .member (py "RESERVED_5") (py "5")) := rfl
@[src] theorem find_GRAIFilterValue_RESERVED_6 : findIn .RESERVED_6 [.GRAIFilterValue] = some (.GRAIFilterValue, .member (py "RESERVED_6") (py "6")) := rfl
@[src] theorem find_GRAIFilterValue_RESERVED_7 : findIn .RESERVED_7 [.GRAIFilterValue] = some (.GRAIFilterValue, .member (py "RESERVED_7") (py "7")) := rfl
@[src] theorem mro_GRAI : clsMro .GRAI = [.GRAI, .TagEncodable, .GS1Keyed, .GS1Element, .EPCScheme] := by decide +kernel
@[src] theorem chain_GRAI : initChain [.GRAI, .TagEncodable, .GS1Keyed, .GS1Element, .EPCScheme] = [.GRAI, .TagEncodable, .GS1Keyed, .GS1Element, .EPCScheme] := by decide +kernel
@[src] theorem find_GRAI_BinaryCodingScheme : findIn .BinaryCodingScheme [.GRAI, .TagEncodable, .GS1Keyed, .GS1Element, .EPCScheme] = some (.GRAI, .enum [(.GRAI_96, (py "GRAI_96"), (py "grai-96")), (.GRAI_170, (py "GRAI_170"), (py "grai-170"))]) := rfl
@[src] theorem find_GRAI_BinaryHeader : findIn .BinaryHeader [.GRAI, .TagEncodable, .GS1Keyed, .GS1Element, .EPCScheme] = some (.GRAI, .enum [(.GRAI_96, (py "GRAI_96"), (py "00110011")), (.GRAI_170, (py "GRAI_170"), (py "00110111"))]) := rfl
@[src] theorem find_GRAI_gs1_element_string_regex : findIn .gs1_element_string_regex [.GRAI, .TagEncodable, .GS1Keyed, .GS1Element, .EPCScheme] = some (.GRAI, .const (.call (.attr (.name .re) .compile) [(.name .GRAI_GS1_ELEMENT_STRING)] [])) := rfl
@[src] theorem find_GRAI___init__ : findIn .__init__ [.GRAI, .TagEncodable, .GS1Keyed, .GS1Element, .EPCScheme] = some (.GRAI, .method Src.GRAI.__init__) := rfl
@[src] theorem find_GRAI_gs1_key : findIn .gs1_key [.GRAI, .TagEncodable, .GS1Keyed, .GS1Element, .EPCScheme] = some (.GRAI, .method Src.GRAI.gs1_key) := rfl
@[src] theorem find_GRAI_gs1_element_string : findIn .gs1_element_string [.GRAI, .TagEncodable, .GS1Keyed, .GS1Element, .EPCScheme] = some (.GRAI, .method Src.GRAI.gs1_element_string) := rfl
@[src] theorem find_GRAI_from_gs1_element_string : findIn .from_gs1_element_string [.GRAI, .TagEncodable, .GS1Keyed, .GS1Element, .EPCScheme] = some (.GRAI, .classmethod Src.GRAI.from_gs1_element_string) := rfl
@[src] theorem find_GRAI_tag_uri : findIn .tag_uri [.GRAI, .TagEncodable, .GS1Keyed, .GS1Element, .EPCScheme] = some (.GRAI, .method Src.GRAI.tag_uri) := rfl
@[src] theorem find_GRAI_binary : findIn .binary [.GRAI, .TagEncodable, .GS1Keyed, .GS1Element, .EPCScheme] = some (.GRAI, .method Src.GRAI.binary) := rfl
@[src] theorem find_GRAI_from_binary : findIn .from_binary [.GRAI, .TagEncodable, .GS1Keyed, .GS1Element, .EPCScheme] = some (.GRAI, .classmethod Src.GRAI.from_binary) := rfl
@[src] theorem find_GRAI_TAG_URI_REGEX : findIn .TAG_URI_REGEX [.GRAI, .TagEncodable, .GS1Keyed, .GS1Element, .EPCScheme] = some (.TagEncodable, .const (.call (.attr (.name .re) .compile) [(.name .TAG_URI)] [])) := rfl
@[src] theorem find_GRAI_TAG_URI_PREFIX : findIn .TAG_URI_PREFIX [.GRAI, .TagEncodable, .GS1Keyed, .GS1Element, .EPCScheme] = some (.TagEncodable, .const (.str (py "urn:epc:tag:"))) := rfl
@[src] theorem find_GRAI_hex : findIn .hex [.GRAI, .TagEncodable, .GS1Keyed, .GS1Element, .EPCScheme] = some (.TagEncodable, .method Src.TagEncodable.hex) := rfl
@[src] theorem find_GRAI_base64 : findIn .base64 [.GRAI, .TagEncodable, .GS1Keyed, .GS1Element, .EPCScheme] = some (.TagEncodable, .method Src.TagEncodable.base64) := rfl
@[src] theorem find_GRAI_from_hex : findIn .from_hex [.GRAI, .TagEncodable, .GS1Keyed, .GS1Element, .EPCScheme] = some (.TagEncodable, .classmethod Src.TagEncodable.from_hex) := rfl
@[src] theorem find_GRAI_from_base64 : findIn .from_base64 [.GRAI, .TagEncodable, .GS1Keyed, .GS1Element, .EPCScheme] = some (.TagEncodable, .classmethod Src.TagEncodable.from_base64) := rfl
@[src] theorem find_GRAI_from_tag_uri : findIn .from_tag_uri [.GRAI, .TagEncodable, .GS1Keyed, .GS1Element, .EPCScheme] = some (.TagEncodable, .classmethod Src.TagEncodable.from_tag_uri) := rfl
@[src] theorem find_GRAI_header_to_schemes : findIn .header_to_schemes [.GRAI, .TagEncodable, .GS1Keyed, .GS1Element, .EPCScheme] = some (.TagEncodable, .classmethod Src.TagEncodable.header_to_schemes) := rfl
@[src] theorem find_GRAI___eq__ : findIn .__eq__ [.GRAI, .TagEncodable, .GS1Keyed, .GS1Element, .EPCScheme] = some (.EPCScheme, .method Src.EPCScheme.__eq__) := rfl
@[src] theorem find_GRAI_from_epc_uri : findIn .from_epc_uri [.GRAI, .TagEncodable, .GS1Keyed, .GS1Element, .EPCScheme] = some (.EPCScheme, .classmethod Src.EPCScheme.from_epc_uri) := rfl
@[src] theorem header_GRAI_GRAI_96 : getItem (.enumCls .GRAI .BinaryHeader [(.GRAI_96, (py "GRAI_96"), (py "00110011")), (.GRAI_170, (py "GRAI_170"), (py "00110111"))]) (.str (py "GRAI_96")) = .ok (.member .GRAI .BinaryHeader .GRAI_96 (py "GRAI_96") (py "00110011")) := rfl
@[src] theorem header_GRAI_GRAI_170 : getItem (.enumCls .GRAI .BinaryHeader [(.GRAI_96, (py "GRAI_96"), (py "00110011")), (.GRAI_170, (py "GRAI_170"), (py "00110111"))]) (.str (py "GRAI_170")) = .ok (.member .GRAI .BinaryHeader .GRAI_170 (py "GRAI_170") (py "00110111")) := rfl
@[src] theorem mro_GSIN : clsMro .GSIN = [.GSIN, .GS1Keyed, .GS1Element, .EPCScheme] := by decide +kernel
@[src] theorem chain_GSIN : initChain [.GSIN, .GS1Keyed, .GS1Element, .EPCScheme] = [.GSIN, .GS1Keyed, .GS1Element, .EPCScheme] := by decide +kernel
@[src] theorem find_GSIN_gs1_element_string_regex : findIn .gs1_element_string_regex [.GSIN, .GS1Keyed, .GS1Element, .EPCScheme] = some (.GSIN, .const (.call (.attr (.name .re) .compile) [(.name .GSIN_GS1_ELEMENT_STRING)] [])) := rfl
@[src] theorem find_GSIN___init__ : findIn .__init__ [.GSIN, .GS1Keyed, .GS1Element, .EPCScheme] = some (.GSIN, .method Src.GSIN.__init__) := rfl
@[src] theorem find_GSIN_gs1_key : findIn .gs1_key [.GSIN, .GS1Keyed, .GS1Element, .EPCScheme] = some (.GSIN, .method Src.GSIN.gs1_key) := rfl
@[src] theorem find_GSIN_gs1_element_string : findIn .gs1_element_string [.GSIN, .GS1Keyed, .GS1Element, .EPCScheme] = some (.GSIN, .method Src.GSIN.gs1_element_string) := rfl
@[src] theorem find_GSIN_from_gs1_element_string : findIn .from_gs1_element_string [.GSIN, .GS1Keyed, .GS1Element, .EPCScheme] = some (.GSIN, .classmethod Src.GSIN.from_gs1_element_string) := rfl
@[src] theorem find_GSIN___eq__ : findIn .__eq__ [.GSIN, .GS1Keyed, .GS1Element, .EPCScheme] = some (.EPCScheme, .method Src.EPCScheme.__eq__) := rfl
@[src] theorem find_GSIN_from_epc_uri : findIn .from_epc_uri [.GSIN, .GS1Keyed, .GS1Element, .EPCScheme] = some (.EPCScheme, .classmethod Src.EPCScheme.from_epc_uri) := rfl
@[src] theorem mro_GSRNFilterValue : clsMro .GSRNFilterValue = [.GSRNFilterValue] := by decide +kernel
@[src] theorem chain_GSRNFilterValue : initChain [.GSRNFilterValue] = [] := by decide +kernel
@[src] theorem find_GSRNFilterValue_ALL_OTHERS : findIn .ALL_OTHERS [.GSRNFilterValue] = some (.GSRNFilterValue, .member (py "ALL_OTHERS") (py "0")) := rfl
@[src] theorem find_GSRNFilterValue_RESERVED_1 : findIn .RESERVED_1 [.GSRNFilterValue] = some (.GSRNFilterValue, .member (py "RESERVED_1") (py "1")) := rfl
@[src] theorem find_GSRNFilterValue_RESERVED_2 : findIn .RESERVED_2 [.GSRNFilterValue] = some (.GSRNFilterValue, .member (py "RESERVED_2") (py "2")) := rfl
@[src] theorem find_GSRNFilterValue_RESERVED_3 : findIn .RESERVED_3 [.GSRNFilterValue] = some (.GSRNFilterValue, .member (py "RESERVED_3") (py "3")) := rfl
@[src] theorem find_GSRNFilterValue_RESERVED_4 : findIn .RESERVED_4 [.GSRNFilterValue] = some (.GSRNFilterValue, .member (py "RESERVED_4") (py "4")) := rfl
@[src] theorem find_GSRNFilterValue_RESERVED_5 : findIn .RESERVED_5 [.GSRNFilterValue] = some (.GSRNFilterValue, .member (py "RESERVED_5") (py "5")) := rfl
@[src] theorem find_GSRNFilterValue_RESERVED_6 : findIn .RESERVED_6 [.GSRNFilterValue] = some (.GSRNFilterValue, .member (py "RESERVED_6") (py "6")) := rfl
@[src] theorem find_GSRNFilterValue_RESERVED_7 : findIn .RESERVED_7 [.GSRNFilterValue] = some (.GSRNFilterValue, .member (py "RESERVED_7") (py "7")) := rfl
@[src] theorem mro_GSRN : clsMro .GSRN = [.GSRN, .TagEncodable, .GS1Keyed, .GS1Element, .EPCScheme] := by decide +kernel
@[src] theorem chain_GSRN : initChain [.GSRN, .TagEncodable, .GS1Keyed, .GS1Element, .EPCScheme] = [.GSRN, .TagEncodable, .GS1Keyed, .GS1Element, .EPCScheme] := by decide +kernel
@[src] theorem find_GSRN_BinaryCodingScheme : findIn .BinaryCodingScheme [.GSRN, .TagEncodable, .GS1Keyed, .GS1Element, .EPCScheme] = some (.GSRN, .enum [(.GSRN_96, (py "GSRN_96"), (py "gsrn-96"))]) := rfl
@[src] theorem find_GSRN_BinaryHeader : findIn .BinaryHeader [.GSRN, .TagEncodable, .GS1Keyed, .GS1Element, .EPCScheme] = some (.GSRN, .enum [(.GSRN_96, (py "GSRN_96"), (py "00101101"))]) := rfl
@[src] theorem find_GSRN_gs1_element_string_regex : findIn .gs1_element_string_regex [.GSRN, .TagEncodable, .GS1Keyed, .GS1Element, .EPCScheme] = some (.GSRN, .const (.call (.attr (.name .re) .compile) [(.name .GSRN_GS1_ELEMENT_STRING)] [])) := rfl
@[src] theorem find_GSRN___init__ : findIn .__init__ [.GSRN, .TagEncodable, .GS1Keyed, .GS1Element, .EPCScheme] = some (.GSRN, .method Src.GSRN.__init__) := rfl
@[src] theorem find_GSRN_gs1_key : findIn .gs1_key [.GSRN, .TagEncodable, .GS1Keyed, .GS1Element, .EPCScheme] = some (.GSRN, .method Src.GSRN.gs1_key) := rfl
@[src] theorem find_GSRN_gs1_element_string : findIn .gs1_element_string [.GSRN, .TagEncodable, .GS1Keyed, .GS1Element, .EPCScheme] = some (.GSRN, .method Src.GSRN.gs1_element_string) := rfl
@[src] theorem find_GSRN_from_gs1_element_string : findIn .from_gs1_element_string [.GSRN, .TagEncodable, .GS1Keyed, .GS1Element, .EPCScheme] = some (.GSRN, .classmethod Src.GSRN.from_gs1_element_string) := rfl
@[src] theorem find_GSRN_tag_uri : findIn .tag_uri [.GSRN, .TagEncodable, .GS1Keyed, .GS1Element, .EPCScheme] = some (.GSRN, .method Src.GSRN.tag_uri) := rfl
@[src] theorem find_GSRN_binary : findIn .binary [.GSRN, .TagEncodable, .GS1Keyed, .GS1Element, .EPCScheme] = some (.GSRN, .method Src.GSRN.binary) := rfl
@[src] theorem find_GSRN_from_binary : findIn .from_binary [.GSRN, .TagEncodable, .GS1Keyed, .GS1Element, .EPCScheme] = some (.GSRN, .classmethod Src.GSRN.from_binary) := rfl
@[src] theorem find_GSRN_TAG_URI_REGEX : findIn .TAG_URI_REGEX [.GSRN, .TagEncodable, .GS1Keyed, .GS1Element, .EPCScheme] = some (.TagEncodable, .const (.call (.attr (.name .re) .compile) [(.name .TAG_URI)] [])) := rfl
@[src] theorem find_GSRN_TAG_URI_PREFIX : findIn .TAG_URI_PREFIX [.GSRN, .TagEncodable, .GS1Keyed, .GS1Element, .EPCScheme] = some (.TagEncodable, .const (.str (py "urn:epc:tag:"))) := rfl
@[src] theorem find_GSRN_hex : findIn .hex [.GSRN, .TagEncodable, .GS1Keyed, .GS1Element, .EPCScheme] = some (.TagEncodable, .method Src.TagEncodable.hex) := rfl
@[src] theorem find_GSRN_base64 : findIn .base64 [.GSRN, .TagEncodable, .GS1Keyed, .GS1Element, .EPCScheme] = some (.TagEncodable, .method Src.TagEncodable.base64) := rfl
@[src] theorem find_GSRN_from_hex : findIn .from_hex [.GSRN, .TagEncodable, .GS1Keyed, .GS1Element, .EPCScheme] = some (.TagEncodable, .classmethod Src.TagEncodable.from_hex) := rfl
@[src] theorem find_GSRN_from_base64 : findIn .from_base64 [.GSRN, .TagEncodable, .GS1Keyed, .GS1Element, .EPCScheme] = some (.TagEncodable, .classmethod Src.TagEncodable.from_base64) := rfl
@[src] theorem find_GSRN_from_tag_uri : findIn .from_tag_uri [.GSRN, .TagEncodable, .GS1Keyed, .GS1Element, .EPCScheme] = some (.TagEncodable, .classmethod Src.TagEncodable.from_tag_uri) := rfl
@[src] theorem find_GSRN_header_to_schemes : findIn .header_to_schemes [.GSRN, .TagEncodable, .GS1Keyed, .GS1Element, .EPCScheme] = some (.TagEncodable, .classmethod Src.TagEncodable.header_to_schemes) := rfl
@[src] theorem find_GSRN___eq__ : findIn .__eq__ [.GSRN, .TagEncodable, .GS1Keyed, .GS1Element, .EPCScheme] = some (.EPCScheme, .method Src.EPCScheme.__eq__) := rfl
@[src] theorem find_GSRN_from_epc_uri : findIn .from_epc_uri [.GSRN, .TagEncodable, .GS1Keyed, .GS1Element, .EPCScheme] = some (.EPCScheme, .classmethod Src.EPCScheme.from_epc_uri) := rfl
@[src] theorem header_GSRN_GSRN_96 : getItem (.enumCls .GSRN .BinaryHeader [(.GSRN_96, (py "GSRN_96"), (py "00101101"))]) (.str (py "GSRN_96")) = .ok (.member .GSRN .BinaryHeader .GSRN_96 (py "GSRN_96") (py "00101101")) := rfl
@[src] theorem mro_GSRNPFilterValue : clsMro .GSRNPFilterValue = [.GSRNPFilterValue] := by decide +kernel
@[src] theorem chain_GSRNPFilterValue : initChain [.GSRNPFilterValue] = [] := by decide +kernel
@[src] theorem find_GSRNPFilterValue_ALL_OTHERS : findIn .ALL_OTHERS [.GSRNPFilterValue] = some (.GSRNPFilterValue, .member (py "ALL_OTHERS") (py "0")) := rfl
@[src] theorem find_GSRNPFilterValue_RESERVED_1 : findIn .RESERVED_1 [.GSRNPFilterValue] = some (.GSRNPFilterValue, .member (py "RESERVED_1") (py "1")) := rfl
@[src] theorem find_GSRNPFilterValue_RESERVED_2 : findIn .RESERVED_2 [.GSRNPFilterValue] = some (.GSRNPFilterValue, .member (py "RESERVED_2") (py "2")) := rfl
@[src] theorem find_GSRNPFilterValue_RESERVED_3 : findIn .RESERVED_3 [.GSRNPFilterValue] = some (.GSRNPFilterValue, .member (py "RESERVED_3") (py "3")) := rfl
@[src] theorem find_GSRNPFilterValue_RESERVED_4 : findIn .RESERVED_4 [.GSRNPFilterValue] = some (.GSRNPFilterValue, .member (py "RESERVED_4") (py "4")) := rfl
@[src] theorem find_GSRNPFilterValue_RESERVED_5 : findIn .RESERVED_5 [.GSRNPFilterValue] = some (.GSRNPFilterValue, .member (py "RESERVED_5") (py "5")) := rfl
@[src] theorem find_GSRNPFilterValue_RESERVED_6 : findIn .RESERVED_6 [.GSRNPFilterValue] = some (.GSRNPFilterValue, .member (py "RESERVED_6") (py "6")) := rfl
@[src] theorem find_GSRNPFilterValue_RESERVED_7 : findIn .RESERVED_7 [.GSRNPFilterValue] = some (.GSRNPFilterValue, .member (py "RESERVED_7") (py "7")) := rfl
@[src] theorem mro_GSRNP : clsMro .GSRNP = [.GSRNP, .TagEncodable, .GS1Keyed, .GS1Element, .EPCScheme] := by decide +kernel
@[src] theorem chain_GSRNP : initChain [.GSRNP, .TagEncodable, .GS1Keyed, .GS1Element, .EPCScheme] = [.GSRNP, .TagEncodable, .GS1Keyed, .GS1Element, .EPCScheme] := by decide +kernel
@[src] theorem find_GSRNP_BinaryCodingScheme : findIn .BinaryCodingScheme [.GSRNP, .TagEncodable, .GS1Keyed, .GS1Element, .EPCScheme] = some (.GSRNP, .enum [(.GSRNP_96, (py "GSRNP_96"), (py "gsrnp-96"))]) := rfl
@[src] theorem find_GSRNP_BinaryHeader : findIn .BinaryHeader [.GSRNP, .TagEncodable, .GS1Keyed, .GS1Element, .EPCScheme] = some (.GSRNP, .enum [(.GSRNP_96, (py "GSRNP_96"), (py "00101110"))]) := rfl
@[src] theorem find_GSRNP_gs1_element_string_regex : findIn .gs1_element_string_regex [.GSRNP, .TagEncodable, .GS1Keyed, .GS1Element, .EPCScheme] = some (.GSRNP, .const (.call (.attr (.name .re) .compile) [(.name .GSRNP_GS1_ELEMENT_STRING)] [])) := rfl
@[src] theorem find_GSRNP___init__ : findIn .__init__ [.GSRNP, .TagEncodable, .GS1Keyed, .GS1Element, .EPCScheme] = some (.GSRNP, .method Src.GSRNP.__init__) := rfl
@[src] theorem find_GSRNP_gs1_key : findIn .gs1_key [.GSRNP, .TagEncodable, .GS1Keyed, .GS1Element, .EPCScheme] = some (.GSRNP, .method Src.GSRNP.gs1_key) := rfl
@[src] theorem find_GSRNP_gs1_element_string : findIn .gs1_element_string [.GSRNP, .TagEncodable, .GS1Keyed, .GS1Element, .EPCScheme] = some (.GSRNP, .method Src.GSRNP.gs1_element_string) := rfl
@[src] theorem find_GSRNP_from_gs1_element_string : findIn .from_gs1_element_string [.GSRNP, .TagEncodable, .GS1Keyed, .GS1Element, .EPCScheme] = some (.GSRNP, .classmethod Src.GSRNP.from_gs1_element_string) := rfl
@[src] theorem find_GSRNP_tag_uri : findIn .tag_uri [.GSRNP, .TagEncodable, .GS1Keyed, .GS1Element, .EPCScheme] = some (.GSRNP, .method Src.GSRNP.tag_uri) := rfl
@[src] theorem find_GSRNP_binary : findIn .binary [.GSRNP, .TagEncodable, .GS1Keyed, .GS1Element, .EPCScheme] = some (.GSRNP, .method Src.GSRNP.binary) := rfl
@[src] theorem find_GSRNP_from_binary : findIn .from_binary [.GSRNP, .TagEncodable, .GS1Keyed, .GS1Element, .EPCScheme] = some (.GSRNP, .classmethod Src.GSRNP.from_binary) := rfl
@[src] theorem find_GSRNP_TAG_URI_REGEX : findIn .TAG_URI_REGEX [.GSRNP, .TagEncodable, .GS1Keyed, .GS1Element, .EPCScheme] = some (.TagEncodable, .const (.call (.attr (.name .re) .compile) [(.name .TAG_URI)] [])) := rfl
@[src] theorem find_GSRNP_TAG_URI_PREFIX : findIn .TAG_URI_PREFIX [.GSRNP, .TagEncodable, .GS1Keyed, .GS1Element, .EPCScheme] = some (.TagEncodable, .const (.str (py "urn:epc:tag:"))) := rfl
@[src] theorem find_GSRNP_hex : findIn .hex [.GSRNP, .TagEncodable, .GS1Keyed, .GS1Element, .EPCScheme] = some (.TagEncodable, .method Src.TagEncodable.hex) := rfl
@[src] theorem find_GSRNP_base64 : findIn .base64 [.GSRNP, .TagEncodable, .GS1Keyed, .GS1Element, .EPCScheme] = some (.TagEncodable, .method Src.TagEncodable.base64) := rfl
@[src] theorem find_GSRNP_from_hex : findIn .from_hex [.GSRNP, .TagEncodable, .GS1Keyed, .GS1Element, .EPCScheme] = some (.TagEncodable, .classmethod Src.TagEncodable.from_hex) := rfl
@[src] theorem find_GSRNP_from_base64 : findIn .from_base64 [.GSRNP, .TagEncodable, .GS1Keyed, .GS1Element, .EPCScheme] = some (.TagEncodable, .classmethod Src.TagEncodable.from_base64) := rfl
@[src] theorem find_GSRNP_from_tag_uri : findIn .from_tag_uri [.GSRNP, .TagEncodable, .GS1Keyed, .GS1Element, .EPCScheme] = some (.TagEncodable, .classmethod Src.TagEncodable.from_tag_uri) := rfl
@[src] theorem find_GSRNP_header_to_schemes : findIn .header_to_schemes [.GSRNP, .TagEncodable, .GS1Keyed, .GS1Element, .EPCScheme] = some (.TagEncodable, .classmethod Src.TagEncodable.header_to_schemes) := rfl
@[src] theorem find_GSRNP___eq__ : findIn .__eq__ [.GSRNP, .TagEncodable, .GS1Keyed, .GS1Element, .EPCScheme] = some (.EPCScheme, .method Src.EPCScheme.__eq__) := rfl
@[src] theorem find_GSRNP_from_epc_uri : findIn .from_epc_uri [.GSRNP, .TagEncodable, .GS1Keyed, .GS1Element, .EPCScheme] = some (.EPCScheme, .classmethod Src.EPCScheme.from_epc_uri) := rfl
@[src] theorem header_GSRNP_GSRNP_96 : getItem (.enumCls .GSRNP .BinaryHeader [(.GSRNP_96, (py "GSRNP_96"), (py "00101110"))]) (.str (py "GSRNP_96")) = .ok (.member .GSRNP .BinaryHeader .GSRNP_96 (py "GSRNP_96") (py "00101110")) := rfl
@[src] theorem mro_IMOVN : clsMro .IMOVN = [.IMOVN, .EPCScheme] := by decide +kernel
@[src] theorem chain_IMOVN : initChain [.IMOVN, .EPCScheme] = [.IMOVN, .EPCScheme] := by decide +kernel
@[src] theorem find_IMOVN___init__ : findIn .__init__ [.IMOVN, .EPCScheme] = some (.IMOVN, .method Src.IMOVN.__init__) := rfl
@[src] theorem find_IMOVN___eq__ : findIn .__eq__ [.IMOVN, .EPCScheme] = some (.EPCScheme, .method Src.EPCScheme.__eq__) := rfl
@[src] theorem find_IMOVN_from_epc_uri : findIn .from_epc_uri [.IMOVN, .EPCScheme] = some (.EPCScheme, .classmethod Src.EPCScheme.from_epc_uri) := rfl
@[src] theorem mro_ITIPFilterValue : clsMro .ITIPFilterValue = [.ITIPFilterValue] := by decide +kernel
@[src] theorem chain_ITIPFilterValue : initChain [.ITIPFilterValue] = [] := by decide +kernel
@[src] theorem find_ITIPFilterValue_ALL_OTHERS : findIn .ALL_OTHERS [.ITIPFilterValue] = some (.ITIPFilterValue, .member (py "ALL_OTHERS") (py "0")) := rfl
@[src] theorem find_ITIPFilterValue_RESERVED_1 : findIn .RESERVED_1 [.ITIPFilterValue] = some (.ITIPFilterValue, .member (py "RESERVED_1") (py "1")) := rfl
@[src] theorem find_ITIPFilterValue_RESERVED_2 : findIn .RESERVED_2 [.ITIPFilterValue] = some (.ITIPFilterValue, .member (py "RESERVED_2") (py "2")) := rfl
@[src] theorem find_ITIPFilterValue_RESERVED_3 : findIn .RESERVED_3 [.ITIPFilterValue] = some (.ITIPFilterValue, .member (py "RESERVED_3") (py "3")) := rfl
@[src] theorem find_ITIPFilterValue_RESERVED_4 : findIn .RESERVED_4 [.ITIPFilterValue] = some (.ITIPFilterValue, .member (py "RESERVED_4") (py "4")) := rfl
@[src] theorem find_ITIPFilterValue_RESERVED_5 : findIn .RESERVED_5 [.ITIPFilterValue] = some (.ITIPFilterValue, .member (py "RESERVED_5") (py "5")) := rfl
@[src] theorem find_ITIPFilterValue_RESERVED_6 : findIn .RESERVED_6 [.ITIPFilterValue] = some (.ITIPFilterValue, .member (py "RESERVED_6") (py "6")) := rfl
@[src] theorem find_ITIPFilterValue_RESERVED_7 : findIn .RESERVED_7 [.ITIPFilterValue] = some (.ITIPFilterValue, .member (py "RESERVED_7") (py "7")) := rfl
@[src] theorem mro_ITIP : clsMro .ITIP = [.ITIP, .GS1Element, .TagEncodable, .EPCScheme] := by decide +kernel
@[src] theorem chain_ITIP : initChain [.ITIP, .GS1Element, .TagEncodable, .EPCScheme] = [.ITIP, .GS1Element, .TagEncodable, .EPCScheme] := by decide +kernel
@[src] theorem find_ITIP_BinaryCodingScheme : findIn .BinaryCodingScheme [.ITIP, .GS1Element, .TagEncodable, .EPCScheme] = some (.ITIP, .enum [(.ITIP_110, (py "ITIP_110"), (py "itip-110")), (.ITIP_212, (py "ITIP_212"), (py "itip-212"))]) := rfl
@[src] theorem find_ITIP_BinaryHeader : findIn .BinaryHeader [.ITIP, .GS1Element, .TagEncodable, .EPCScheme] = some (.ITIP, .enum [(.ITIP_110, (py "ITIP_110"), (py "01000000")), (.ITIP_212, (py "ITIP_212"), (py "01000001"))]) := rfl
@[src] theorem find_ITIP_gs1_element_string_regex : findIn .gs1_element_string_regex [.ITIP, .GS1Element, .TagEncodable, .EPCScheme] = some (.ITIP, .const (.call (.attr (.name .re) .compile) [(.name .ITIP_GS1_ELEMENT_STRING)] [])) := rfl
@[src] theorem find_ITIP___init__ : findIn .__init__ [.ITIP, .GS1Element, .TagEncodable, .EPCScheme] = some (.ITIP, .method Src.ITIP.__init__) := rfl
@[src] theorem find_ITIP_gs1_element_string : findIn .gs1_element_string [.ITIP, .GS1Element, .TagEncodable, .EPCScheme] = some (.ITIP, .method Src.ITIP.gs1_element_string) := rfl
@[src] theorem find_ITIP_from_gs1_element_string : findIn .from_gs1_element_string [.ITIP, .GS1Element, .TagEncodable, .EPCScheme] = some (.ITIP, .classmethod Src.ITIP.from_gs1_element_string) := rfl
@[src] theorem find_ITIP_tag_uri : findIn .tag_uri [.ITIP, .GS1Element, .TagEncodable, .EPCScheme] = some (.ITIP, .method Src.ITIP.tag_uri) := rfl
@[src] theorem find_ITIP_binary : findIn .binary [.ITIP, .GS1Element, .TagEncodable, .EPCScheme] = some (.ITIP, .method Src.ITIP.binary) := rfl
@[src] theorem find_ITIP_from_binary : findIn .from_binary [.ITIP, .GS1Element, .TagEncodable, .EPCScheme] = some (.ITIP, .classmethod Src.ITIP.from_binary) := rfl
@[src] theorem find_ITIP_TAG_URI_REGEX : findIn .TAG_URI_REGEX [.ITIP, .GS1Element, .TagEncodable, .EPCScheme] = some (.TagEncodable, .const (.call (.attr (.name .re) .compile) [(.name .TAG_URI)] [])) := rfl
@[src] theorem find_ITIP_TAG_URI_PREFIX : findIn .TAG_URI_PREFIX [.ITIP, .GS1Element, .TagEncodable, .EPCScheme] = some (.TagEncodable, .const (.str (py "urn:epc:tag:"))) := rfl
@[src] theorem find_ITIP_hex : findIn .hex [.ITIP, .GS1Element, .TagEncodable, .EPCScheme] = some (.TagEncodable, .method Src.TagEncodable.hex) := rfl
@[src] theorem find_ITIP_base64 : findIn .base64 [.ITIP, .GS1Element, .TagEncodable, .EPCScheme] = some (.TagEncodable, .method Src.TagEncodable.base64) := rfl
@[src] theorem find_ITIP_from_hex : findIn .from_hex [.ITIP, .GS1Element, .TagEncodable, .EPCScheme] = some (.TagEncodable, .classmethod Src.TagEncodable.from_hex) := rfl
@[src] theorem find_ITIP_from_base64 : findIn .from_base64 [.ITIP, .GS1Element, .TagEncodable, .EPCScheme] = some (.TagEncodable, .classmethod Src.TagEncodable.from_base64) := rfl
@[src] theorem find_ITIP_from_tag_uri : findIn .from_tag_uri [.ITIP, .GS1Element, .TagEncodable, .EPCScheme] = some (.TagEncodable, .classmethod Src.TagEncodable.from_tag_uri) := rfl
@[src] theorem find_ITIP_header_to_schemes : findIn .header_to_schemes [.ITIP, .GS1Element, .TagEncodable, .EPCScheme] = some (.TagEncodable, .classmethod Src.TagEncodable.header_to_schemes) := rfl
@[src] theorem find_ITIP___eq__ : findIn .__eq__ [.ITIP, .GS1Element, .TagEncodable, .EPCScheme] = some (.EPCScheme, .method Src.EPCScheme.__eq__) := rfl
@[src] theorem find_ITIP_from_epc_uri : findIn .from_epc_uri [.ITIP, .GS1Element, .TagEncodable, .EPCScheme] = some (.EPCScheme, .classmethod Src.EPCScheme.from_epc_uri) := rfl
@[src] theorem header_ITIP_ITIP_110 : getItem (.enumCls .ITIP .BinaryHeader [(.ITIP_110, (py "ITIP_110"), (py "01000000")), (.ITIP_212, (py "ITIP_212"), (py "01000001"))]) (.str (py "ITIP_110")) = .ok (.member .ITIP .BinaryHeader .ITIP_110 (py "ITIP_110") (py "01000000")) := rfl
@[src] theorem header_ITIP_ITIP_212 : getItem (.enumCls .ITIP .BinaryHeader [(.ITIP_110, (py "ITIP_110"), (py "01000000")), (.ITIP_212, (py "ITIP_212"), (py "01000001"))]) (.str (py "ITIP_212")) = .ok (.member .ITIP .BinaryHeader .ITIP_212 (py "ITIP_212") (py "01000001")) := rfl
@[src] theorem mro_lgtin_GTIN_TYPE : clsMro .lgtin_GTIN_TYPE = [.lgtin_GTIN_TYPE] := by decide +kernel
@[src] theorem chain_lgtin_GTIN_TYPE : initChain [.lgtin_GTIN_TYPE] = [] := by decide +kernel
@[src] theorem find_lgtin_GTIN_TYPE_GTIN8 : findIn .GTIN8 [.lgtin_GTIN_TYPE] = some (.lgtin_GTIN_TYPE, .const (.int 8)) := rfl
@[src] theorem find_lgtin_GTIN_TYPE_GTIN12 : findIn .GTIN12 [.lgtin_GTIN_TYPE] = some (.lgtin_GTIN_TYPE, .const (.int 12)) := rfl
@[src] theorem find_lgtin_GTIN_TYPE_GTIN13 : findIn .GTIN13 [.lgtin_GTIN_TYPE] = some (.lgtin_GTIN_TYPE, .const (.int 13)) := rfl
@[src] theorem find_lgtin_GTIN_TYPE_GTIN14 : findIn .GTIN14 [.lgtin_GTIN_TYPE] = some (.lgtin_GTIN_TYPE, .const (.int 14)) := rfl
@[src] theorem mro_LGTIN : clsMro .LGTIN = [.LGTIN, .GS1Keyed, .GS1Element, .EPCScheme] := by decide +kernel
@[src] theorem chain_LGTIN : initChain [.LGTIN, .GS1Keyed, .GS1Element, .EPCScheme] = [.LGTIN, .GS1Keyed, .GS1Element, .EPCScheme] := by decide +kernel
@[src] theorem find_LGTIN_gs1_element_string_regex : findIn .gs1_element_string_regex [.LGTIN, .GS1Keyed, .GS1Element, .EPCScheme] = some (.LGTIN, .const (.call (.attr (.name .re) .compile) [(.name .LGTIN_GS1_ELEMENT_STRING)] [])) := rfl
@[src] theorem find_LGTIN___init__ : findIn .__init__ [.LGTIN, .GS1Keyed, .GS1Element, .EPCScheme] = some (.LGTIN, .method Src.LGTIN.__init__) := rfl
@[src] theorem find_LGTIN_gs1_key : findIn .gs1_key [.LGTIN, .GS1Keyed, .GS1Element, .EPCScheme] = some (.LGTIN, .method Src.LGTIN.gs1_key) := rfl
@[src] theorem find_LGTIN_gtin : findIn .gtin [.LGTIN, .GS1Keyed, .GS1Element, .EPCScheme] = some (.LGTIN, .method Src.LGTIN.gtin) := rfl
@[src] theorem find_LGTIN_gs1_element_string : findIn .gs1_element_string [.LGTIN, .GS1Keyed, .GS1Element, .EPCScheme] = some (.LGTIN, .method Src.LGTIN.gs1_element_string) := rfl
@[src] theorem find_LGTIN_from_gs1_element_string : findIn .from_gs1_element_string [.LGTIN, .GS1Keyed, .GS1Element, .EPCScheme] = some (.LGTIN, .classmethod Src.LGTIN.from_gs1_element_string) := rfl
@[src] theorem find_LGTIN___eq__ : findIn .__eq__ [.LGTIN, .GS1Keyed, .GS1Element, .EPCScheme] = some (.EPCScheme, .method Src.EPCScheme.__eq__) := rfl
@[src] theorem find_LGTIN_from_epc_uri : findIn .from_epc_uri [.LGTIN, .GS1Keyed, .GS1Element, .EPCScheme] = some (.EPCScheme, .classmethod Src.EPCScheme.from_epc_uri) := rfl
@[src] theorem mro_PGLN : clsMro .PGLN = [.PGLN, .GS1Keyed, .GS1Element, .EPCScheme] := by decide +kernel
@[src] theorem chain_PGLN : initChain [.PGLN, .GS1Keyed, .GS1Element, .EPCScheme] = [.PGLN, .GS1Keyed, .GS1Element, .EPCScheme] := by decide +kernel
@[src] theorem find_PGLN_gs1_element_string_regex : findIn .gs1_element_string_regex [.PGLN, .GS1Keyed, .GS1Element, .EPCScheme] = some (.PGLN, .const (.call (.attr (.name .re) .compile) [(.name .PGLN_GS1_ELEMENT_STRING)] [])) := rfl
@[src] theorem find_PGLN___init__ : findIn .__init__ [.PGLN, .GS1Keyed, .GS1Element, .EPCScheme] = some (.PGLN, .method Src.PGLN.__init__) := rfl
@[src] theorem find_PGLN_gs1_key : findIn .gs1_key [.PGLN, .GS1Keyed, .GS1Element, .EPCScheme] = some (.PGLN, .method Src.PGLN.gs1_key) := rfl
@[src] theorem find_PGLN_gs1_element_string : findIn .gs1_element_string [.PGLN, .GS1Keyed, .GS1Element, .EPCScheme] = some (.PGLN, .method Src.PGLN.gs1_element_string) := rfl
@[src] theorem find_PGLN_from_gs1_element_string : findIn .from_gs1_element_string [.PGLN, .GS1Keyed, .GS1Element, .EPCScheme] = some (.PGLN, .classmethod Src.PGLN.from_gs1_element_string) := rfl
@[src] theorem find_PGLN___eq__ : findIn .__eq__ [.PGLN, .GS1Keyed, .GS1Element, .EPCScheme] = some (.EPCScheme, .method Src.EPCScheme.__eq__) := rfl
@[src] theorem find_PGLN_from_epc_uri : findIn .from_epc_uri [.PGLN, .GS1Keyed, .GS1Element, .EPCScheme] = some (.EPCScheme, .classmethod Src.EPCScheme.from_epc_uri) := rfl
@[src] theorem mro_SGCNFilterValue : clsMro .SGCNFilterValue = [.SGCNFilterValue] := by decide +kernel
@[src] theorem chain_SGCNFilterValue : initChain [.SGCNFilterValue] = [] := by decide +kernel
@[src] theorem find_SGCNFilterValue_ALL_OTHERS : findIn .ALL_OTHERS [.SGCNFilterValue] = some (.SGCNFilterValue, .member (py "ALL_OTHERS") (py "0")) := rfl
@[src] theorem find_SGCNFilterValue_RESERVED_1 : findIn .RESERVED_1 [.SGCNFilterValue] = some (.SGCNFilterValue, .member (py "RESERVED_1") (py "1")) := rfl
@[src] theorem find_SGCNFilterValue_RESERVED_2 : findIn .RESERVED_2 [.SGCNFilterValue] = some (.SGCNFilterValue, .member (py "RESERVED_2") (py "2")) := rfl
@[src] theorem find_SGCNFilterValue_RESERVED_3 : findIn .RESERVED_3 [.SGCNFilterValue] = some (.SGCNFilterValue, .member (py "RESERVED_3") (py "3")) := rfl
@[src] theorem find_SGCNFilterValue_RESERVED_4 : findIn .RESERVED_4 [.SGCNFilterValue] = some (.SGCNFilterValue, .member (py "RESERVED_4") (py "4")) := rfl
@[src] theorem find_SGCNFilterValue_RESERVED_5 : findIn .RESERVED_5 [.SGCNFilterValue] = some (.SGCNFilterValue, .member (py "RESERVED_5") (py "5")) := rfl
@[src] theorem find_SGCNFilterValue_RESERVED_6 : findIn .RESERVED_6 [.SGCNFilterValue] = some (.SGCNFilterValue, .member (py "RESERVED_6") (py "6")) := rfl
@[src] theorem find_SGCNFilterValue_RESERVED_7 : findIn .RESERVED_7 [.SGCNFilterValue] = some (.SGCNFilterValue, .member (py "RESERVED_7") (py "7")) := rfl
@[src] theorem mro_SGCN : clsMro .SGCN = [.SGCN, .TagEncodable, .GS1Keyed, .GS1Element, .EPCScheme] := by decide +kernel
@[src] theorem chain_SGCN : initChain [.SGCN, .TagEncodable, .GS1Keyed, .GS1Element, .EPCScheme] = [.SGCN, .TagEncodable, .GS1Keyed, .GS1Element, .EPCScheme] := by decide +kernel
@[src] theorem find_SGCN_BinaryCodingScheme : findIn .BinaryCodingScheme [.SGCN, .TagEncodable, .GS1Keyed, .GS1Element, .EPCScheme] = some (.SGCN, .enum [(.SGCN_96, (py "SGCN_96"), (py "sgcn-96"))]) := rfl
@[src] theorem find_SGCN_BinaryHeader : findIn .BinaryHeader [.SGCN, .TagEncodable, .GS1Keyed, .GS1Element, .EPCScheme] = some (.SGCN, .enum [(.SGCN_96, (py "SGCN_96"), (py "00111111"))]) := rfl
@[src] theorem find_SGCN_gs1_element_string_regex : findIn .gs1_element_string_regex [.SGCN, .TagEncodable, .GS1Keyed, .GS1Element, .EPCScheme] = some (.SGCN, .const (.call (.attr (.name .re) .compile) [(.name .SGCN_GS1_ELEMENT_STRING)] [])) := rfl
@[src] theorem find_SGCN___init__ : findIn .__init__ [.SGCN, .TagEncodable, .GS1Keyed, .GS1Element, .EPCScheme] = some (.SGCN, .method Src.SGCN.__init__) := rfl
@[src] theorem find_SGCN_gs1_key : findIn .gs1_key [.SGCN, .TagEncodable, .GS1Keyed, .GS1Element, .EPCScheme] = some (.SGCN, .method Src.SGCN.gs1_key) := rfl
@[src] theorem find_SGCN_gs1_element_string : findIn .gs1_element_string [.SGCN, .TagEncodable, .GS1Keyed, .GS1Element, .EPCScheme] = some (.SGCN, .method Src.SGCN.gs1_element_string) := rfl
@[src] theorem find_SGCN_from_gs1_element_string : findIn .from_gs1_element_string [.SGCN, .TagEncodable, .GS1Keyed, .GS1Element, .EPCScheme] = some (.SGCN, .classmethod Src.SGCN.from_gs1_element_string) := rfl
@[src] theorem find_SGCN_tag_uri : findIn .tag_uri [.SGCN, .TagEncodable, .GS1Keyed, .GS1Element, .EPCScheme] = some (.SGCN, .method Src.SGCN.tag_uri) := rfl
@[src] theorem find_SGCN_binary : findIn .binary [.SGCN, .TagEncodable, .GS1Keyed, .GS1Element, .EPCScheme] = some (.SGCN, .method Src.SGCN.binary) := rfl
@[src] theorem find_SGCN_from_binary : findIn .from_binary [.SGCN, .TagEncodable, .GS1Keyed, .GS1Element, .EPCScheme] = some (.SGCN, .classmethod Src.SGCN.from_binary) := rfl
@[src] theorem find_SGCN_TAG_URI_REGEX : findIn .TAG_URI_REGEX [.SGCN, .TagEncodable, .GS1Keyed, .GS1Element, .EPCScheme] = some (.TagEncodable, .const (.call (.attr (.name .re) .compile) [(.name .TAG_URI)] [])) := rfl
@[src] theorem find_SGCN_TAG_URI_PREFIX : findIn .TAG_URI_PREFIX [.SGCN, .TagEncodable, .GS1Keyed, .GS1Element, .EPCScheme] = some (.TagEncodable, .const (.str (py "urn:epc:tag:"))) := rfl
@[src] theorem find_SGCN_hex : findIn .hex [.SGCN, .TagEncodable, .GS1Keyed, .GS1Element, .EPCScheme] = some (.TagEncodable, .method Src.TagEncodable.hex) := rfl
@[src] theorem find_SGCN_base64 : findIn .base64 [.SGCN, .TagEncodable, .GS1Keyed, .GS1Element, .EPCScheme] = some (.TagEncodable, .method Src.TagEncodable.base64) := rfl
@[src] theorem find_SGCN_from_hex : findIn .from_hex [.SGCN, .TagEncodable, .GS1Keyed, .GS1Element, .EPCScheme] = some (.TagEncodable, .classmethod Src.TagEncodable.from_hex) := rfl
@[src] theorem find_SGCN_from_base64 : findIn .from_base64 [.SGCN, .TagEncodable, .GS1Keyed, .GS1Element, .EPCScheme] = some (.TagEncodable, .classmethod Src.TagEncodable.from_base64) := rfl
@[src] theorem find_SGCN_from_tag_uri : findIn .from_tag_uri [.SGCN, .TagEncodable, .GS1Keyed, .GS1Element, .EPCScheme] = some (.TagEncodable, .classmethod Src.TagEncodable.from_tag_uri) := rfl
@[src] theorem find_SGCN_header_to_schemes : findIn .header_to_schemes [.SGCN, .TagEncodable, .GS1Keyed, .GS1Element, .EPCScheme] = some (.TagEncodable, .classmethod Src.TagEncodable.header_to_schemes) := rfl
@[src] theorem find_SGCN___eq__ : findIn .__eq__ [.SGCN, .TagEncodable, .GS1Keyed, .GS1Element, .EPCScheme] = some (.EPCScheme, .method Src.EPCScheme.__eq__) := rfl
@[src] theorem find_SGCN_from_epc_uri : findIn .from_epc_uri [.SGCN, .TagEncodable, .GS1Keyed, .GS1Element, .EPCScheme] = some (.EPCScheme, .classmethod Src.EPCScheme.from_epc_uri) := rfl
@[src] theorem header_SGCN_SGCN_96 : getItem (.enumCls .SGCN .BinaryHeader [(.SGCN_96, (py "SGCN_96"), (py "00111111"))]) (.str (py "SGCN_96")) = .ok (.member .SGCN .BinaryHeader .SGCN_96 (py "SGCN_96") (py "00111111")) := rfl
@[src] theorem mro_SGLNFilterValue : clsMro .SGLNFilterValue = [.SGLNFilterValue] := by decide +kernel
@[src] theorem chain_SGLNFilterValue : initChain [.SGLNFilterValue] = [] := by decide +kernel
@[src] theorem find_SGLNFilterValue_ALL_OTHERS : findIn .ALL_OTHERS [.SGLNFilterValue] = some (.SGLNFilterValue, .member (py "ALL_OTHERS") (py "0")) := rfl
@[src] theorem find_SGLNFilterValue_RESERVED_1 : findIn .RESERVED_1 [.SGLNFilterValue] = some (.SGLNFilterValue, .member (py "RESERVED_1") (py "1")) := rfl
@[src] theorem find_SGLNFilterValue_RESERVED_2 : findIn .RESERVED_2 [.SGLNFilterValue] = some (.SGLNFilterValue, .member (py "RESERVED_2") (py "2")) := rfl
@[src] theorem find_SGLNFilterValue_RESERVED_3 : findIn .RESERVED_3 [.SGLNFilterValue] = some (.SGLNFilterValue, .member (py "RESERVED_3") (py "3")) := rfl
@[src] theorem find_SGLNFilterValue_RESERVED_4 : findIn .RESERVED_4 [.SGLNFilterValue] = some (.SGLNFilterValue, .member (py "RESERVED_4") (py "4")) := rfl
@[src] theorem find_SGLNFilterValue_RESERVED_5 : findIn .RESERVED_5 [.SGLNFilterValue] = some (.SGLNFilterValue, .member (py "RESERVED_5") (py "5")) := rfl
@[src] theorem find_SGLNFilterValue_RESERVED_6 : findIn .RESERVED_6 [.SGLNFilterValue] = some (.SGLNFilterValue, .member (py "RESERVED_6") (py "6")) := rfl
@[src] theorem find_SGLNFilterValue_RESERVED_7 : findIn .RESERVED_7 [.SGLNFilterValue] = some (.SGLNFilterValue, .member (py "RESERVED_7") (py "7")) := rfl
@[src] theorem mro_SGLN : clsMro .SGLN = [.SGLN, .TagEncodable, .GS1Keyed, .GS1Element, .EPCScheme] := by decide +kernel
@[src] theorem chain_SGLN : initChain [.SGLN, .TagEncodable, .GS1Keyed, .GS1Element, .EPCScheme] = [.SGLN, .TagEncodable, .GS1Keyed, .GS1Element, .EPCScheme] := by decide +kernel
@[src] theorem find_SGLN_BinaryCodingScheme : findIn .BinaryCodingScheme [.SGLN, .TagEncodable, .GS1Keyed, .GS1Element, .EPCScheme] = some (.SGLN, .enum [(.SGLN_96, (py "SGLN_96"), (py "sgln-96")), (.SGLN_195, (py "SGLN_195"), (py "sgln-195"))]) := rfl
@[src] theorem find_SGLN_BinaryHeader : findIn .BinaryHeader [.SGLN, .TagEncodable, .GS1Keyed, .GS1Element, .EPCScheme] = some (.SGLN, .enum [(.SGLN_96, (py "SGLN_96"), (py "00110010")), (.SGLN_195, (py "SGLN_195"), (py "00111001"))]) := rfl
@[src] theorem find_SGLN_gs1_element_string_regex : findIn .gs1_element_string_regex [.SGLN, .TagEncodable, .GS1Keyed, .GS1Element, .EPCScheme] = some (.SGLN, .const (.call (.attr (.name .re) .compile) [(.name .SGLN_GS1_ELEMENT_STRING)] [])) := rfl
@[src] theorem find_SGLN___init__ : findIn .__init__ [.SGLN, .TagEncodable, .GS1Keyed, .GS1Element, .EPCScheme] = some (.SGLN, .method Src.SGLN.__init__) := rfl
@[src] theorem find_SGLN_gs1_key : findIn .gs1_key [.SGLN, .TagEncodable, .GS1Keyed, .GS1Element, .EPCScheme] = some (.SGLN, .method Src.SGLN.gs1_key) := rfl
@[src] theorem find_SGLN_gs1_element_string : findIn .gs1_element_string [.SGLN, .TagEncodable, .GS1Keyed, .GS1Element, .EPCScheme] = some (.SGLN, .method Src.SGLN.gs1_element_string) := rfl
@[src] theorem find_SGLN_from_gs1_element_string : findIn .from_gs1_element_string [.SGLN, .TagEncodable, .GS1Keyed, .GS1Element, .EPCScheme] = some (.SGLN, .classmethod Src.SGLN.from_gs1_element_string) := rfl
@[src] theorem find_SGLN_tag_uri : findIn .tag_uri [.SGLN, .TagEncodable, .GS1Keyed, .GS1Element, .EPCScheme] = some (.SGLN, .method Src.SGLN.tag_uri) := rfl
@[src] theorem find_SGLN_binary : findIn .binary [.SGLN, .TagEncodable, .GS1Keyed, .GS1Element, .EPCScheme] = some (.SGLN, .method Src.SGLN.binary) := rfl
@[src] theorem find_SGLN_from_binary : findIn .from_binary [.SGLN, .TagEncodable, .GS1Keyed, .GS1Element, .EPCScheme] = some (.SGLN, .classmethod Src.SGLN.from_binary) := rfl
@[src] theorem find_SGLN_TAG_URI_REGEX : findIn .TAG_URI_REGEX [.SGLN, .TagEncodable, .GS1Keyed, .GS1Element, .EPCScheme] = some (.TagEncodable, .const (.call (.attr (.name .re) .compile) [(.name .TAG_URI)] [])) := rfl
@[src] theorem find_SGLN_TAG_URI_PREFIX : findIn .TAG_URI_PREFIX [.SGLN, .TagEncodable, .GS1Keyed, .GS1Element, .EPCScheme] = some (.TagEncodable, .const (.str (py "urn:epc:tag:"))) := rfl
@[src] theorem find_SGLN_hex : findIn .hex [.SGLN, .TagEncodable, .GS1Keyed, .GS1Element, .EPCScheme] = some (.TagEncodable, .method Src.TagEncodable.hex) := rfl
@[src] theorem find_SGLN_base64 : findIn .base64 [.SGLN, .TagEncodable, .GS1Keyed, .GS1Element, .EPCScheme] = some (.TagEncodable, .method Src.TagEncodable.base64) := rfl
@[src] theorem find_SGLN_from_hex : findIn .from_hex [.SGLN, .TagEncodable, .GS1Keyed, .GS1Element, .EPCScheme] = some (.TagEncodable, .classmethod Src.TagEncodable.from_hex) := rfl
@[src] theorem find_SGLN_from_base64 : findIn .from_base64 [.SGLN, .TagEncodable, .GS1Keyed, .GS1Element, .EPCScheme] = some (.TagEncodable, .classmethod Src.TagEncodable.from_base64) := rfl
@[src] theorem find_SGLN_from_tag_uri : findIn .from_tag_uri [.SGLN, .TagEncodable, .GS1Keyed, .GS1Element, .EPCScheme] = some (.TagEncodable, .classmethod Src.TagEncodable.from_tag_uri) := rfl
@[src] theorem find_SGLN_header_to_schemes : findIn .header_to_schemes [.SGLN, .TagEncodable, .GS1Keyed, .GS1Element, .EPCScheme] = some (.TagEncodable, .classmethod Src.TagEncodable.header_to_schemes) := rfl
@[src] theorem find_SGLN___eq__ : findIn .__eq__ [.SGLN, .TagEncodable, .GS1Keyed, .GS1Element, .EPCScheme] = some (.EPCScheme, .method Src.EPCScheme.__eq__) := rfl
@[src] theorem find_SGLN_from_epc_uri : findIn .from_epc_uri [.SGLN, .TagEncodable, .GS1Keyed, .GS1Element, .EPCScheme] = some (.EPCScheme, .classmethod Src.EPCScheme.from_epc_uri) := rfl
@[src] theorem header_SGLN_SGLN_96 : getItem (.enumCls .SGLN .BinaryHeader [(.SGLN_96, (py "SGLN_96"), (py "00110010")), (.SGLN_195, (py "SGLN_195"), (py "00111001"))]) (.str (py "SGLN_96")) = .ok (.member .SGLN .BinaryHeader .SGLN_96 (py "SGLN_96") (py "00110010")) := rfl
@[src] theorem header_SGLN_SGLN_195 : getItem (.enumCls .SGLN .BinaryHeader [(.SGLN_96, (py "SGLN_96"), (py "00110010")), (.SGLN_195, (py "SGLN_195"), (py "00111001"))]) (.str (py "SGLN_195")) = .ok (.member .SGLN .BinaryHeader .SGLN_195 (py "SGLN_195") (py "00111001")) := rfl
@[src] theorem mro_SGTINFilterValue : clsMro .SGTINFilterValue = [.SGTINFilterValue] := by decide +kernel
@[src] theorem chain_SGTINFilterValue : initChain [.SGTINFilterValue] = [] := by decide +kernel
@[src] theorem find_SGTINFilterValue_ALL_OTHERS : findIn .ALL_OTHERS [.SGTINFilterValue] = some (.SGTINFilterValue, .member (py "ALL_OTHERS") (py "0")) := rfl
@[src] theorem find_SGTINFilterValue_POS_ITEM : findIn .POS_ITEM [.SGTINFilterValue] = some (.SGTINFilterValue, .member (py "POS_ITEM") (py "1")) := rfl
@[src] theorem find_SGTINFilterValue_FULL_CASE : findIn .FULL_CASE [.SGTINFilterValue] = some (.SGTINFilterValue, .member (py "FULL_CASE") (py "2")) := rfl
@[src] theorem find_SGTINFilterValue_RESERVED_3 : findIn .RESERVED_3 [.SGTINFilterValue] = some (.SGTINFilterValue, .member (py "RESERVED_3") (py "3")) := rfl
@[src] theorem find_SGTINFilterValue_INNER_PACK : findIn .INNER_PACK [.SGTINFilterValue] = some (.SGTINFilterValue, .member (py "INNER_PACK") (py "4")) := rfl
@[src] theorem find_SGTINFilterValue_RESERVED_5 : findIn .RESERVED_5 [.SGTINFilterValue] = some (.SGTINFilterValue, .member (py "RESERVED_5") (py "5")) := rfl
@[src] theorem find_SGTINFilterValue_UNIT_LOAD : findIn .UNIT_LOAD [.SGTINFilterValue] = some (.SGTINFilterValue, .member (py "UNIT_LOAD") (py "6")) := rfl
@[src] theorem find_SGTINFilterValue_COMPONENT : findIn .COMPONENT [.SGTINFilterValue] = some (.SGTINFilterValue, .member (py "COMPONENT") (py "7")) := rfl
@[src] theorem mro_sgtin_GTIN_TYPE : clsMro .sgtin_GTIN_TYPE = [.sgtin_GTIN_TYPE] := by decide +kernel
@[src] theorem chain_sgtin_GTIN_TYPE : initChain [.sgtin_GTIN_TYPE] = [] := by decide +kernel
@[src] theorem find_sgtin_GTIN_TYPE_GTIN8 : findIn .GTIN8 [.sgtin_GTIN_TYPE] = some (.sgtin_GTIN_TYPE, .const (.int 8)) := rfl
@[src] theorem find_sgtin_GTIN_TYPE_GTIN12 : findIn .GTIN12 [.sgtin_GTIN_TYPE] = some (.sgtin_GTIN_TYPE, .const (.int 12)) := rfl
@[src] theorem find_sgtin_GTIN_TYPE_GTIN13 : findIn .GTIN13 [.sgtin_GTIN_TYPE] = some (.sgtin_GTIN_TYPE, .const (.int 13)) := rfl
@[src] theorem find_sgtin_GTIN_TYPE_GTIN14 : findIn .GTIN14 [.sgtin_GTIN_TYPE] = some (.sgtin_GTIN_TYPE, .const (.int 14)) := rfl
@[src] theorem mro_SGTIN : clsMro .SGTIN = [.SGTIN, .TagEncodable, .GS1Keyed, .GS1Element, .EPCScheme] := by decide +kernel
@[src] theorem chain_SGTIN : initChain [.SGTIN, .TagEncodable, .GS1Keyed, .GS1Element, .EPCScheme] = [.SGTIN, .TagEncodable, .GS1Keyed, .GS1Element, .EPCScheme] := by decide +kernel
@[src] theorem find_SGTIN_BinaryCodingScheme : findIn .BinaryCodingScheme [.SGTIN, .TagEncodable, .GS1Keyed, .GS1Element, .EPCScheme] = some (.SGTIN, .enum [(.SGTIN_96, (py "SGTIN_96"), (py "sgtin-96")), (.SGTIN_198, (py "SGTIN_198"), (py "sgtin-198"))]) := rfl
@[src] theorem find_SGTIN_BinaryHeader : findIn .BinaryHeader [.SGTIN, .TagEncodable, .GS1Keyed, .GS1Element, .EPCScheme] = some (.SGTIN, .enum [(.SGTIN_96, (py "SGTIN_96"), (py "00110000")), (.SGTIN_198, (py "SGTIN_198"), (py "00110110"))]) := rfl
@[src] theorem find_SGTIN_gs1_element_string_regex : findIn .gs1_element_string_regex [.SGTIN, .TagEncodable, .GS1Keyed, .GS1Element, .EPCScheme] = some (.SGTIN, .const (.call (.attr (.name .re) .compile) [(.name .SGTIN_GS1_ELEMENT_STRING)] [])) := rfl
@[src] theorem find_SGTIN___init__ : findIn .__init__ [.SGTIN, .TagEncodable, .GS1Keyed, .GS1Element, .EPCScheme] = some (.SGTIN, .method Src.SGTIN.__init__) := rfl
@[src] theorem find_SGTIN_from_gtin_plus_serial : findIn .from_gtin_plus_serial [.SGTIN, .TagEncodable, .GS1Keyed, .GS1Element, .EPCScheme] = some (.SGTIN, .classmethod Src.SGTIN.from_gtin_plus_serial) := rfl
@[src] theorem find_SGTIN_gs1_key : findIn .gs1_key [.SGTIN, .TagEncodable, .GS1Keyed, .GS1Element, .EPCScheme] = some (.SGTIN, .method Src.SGTIN.gs1_key) := rfl
@[src] theorem find_SGTIN_gtin : findIn .gtin [.SGTIN, .TagEncodable, .GS1Keyed, .GS1Element, .EPCScheme] = some (.SGTIN, .method Src.SGTIN.gtin) := rfl
@[src] theorem find_SGTIN_gs1_element_string : findIn .gs1_element_string [.SGTIN, .TagEncodable, .GS1Keyed, .GS1Element, .EPCScheme] = some (.SGTIN, .method Src.SGTIN.gs1_element_string) := rfl
@[src] theorem find_SGTIN_from_gs1_element_string : findIn .from_gs1_element_string [.SGTIN, .TagEncodable, .GS1Keyed, .GS1Element, .EPCScheme] = some (.SGTIN, .classmethod Src.SGTIN.from_gs1_element_string) := rfl
@[src] theorem find_SGTIN_tag_uri : findIn .tag_uri [.SGTIN, .TagEncodable, .GS1Keyed, .GS1Element, .EPCScheme] = some (.SGTIN, .method Src.SGTIN.tag_uri) := rfl
@[src] theorem find_SGTIN_binary : findIn .binary [.SGTIN, .TagEncodable, .GS1Keyed, .GS1Element, .EPCScheme] = some (.SGTIN, .method Src.SGTIN.binary) := rfl
@[src] theorem find_SGTIN_from_binary : findIn .from_binary [.SGTIN, .TagEncodable, .GS1Keyed, .GS1Element, .EPCScheme] = some (.SGTIN, .classmethod Src.SGTIN.from_binary) := rfl
@[src] theorem find_SGTIN_TAG_URI_REGEX : findIn .TAG_URI_REGEX [.SGTIN, .TagEncodable, .GS1Keyed, .GS1Element, .EPCScheme] = some (.TagEncodable, .const (.call (.attr (.name .re) .compile) [(.name .TAG_URI)] [])) := rfl
@[src] theorem find_SGTIN_TAG_URI_PREFIX : findIn .TAG_URI_PREFIX [.SGTIN, .TagEncodable, .GS1Keyed, .GS1Element, .EPCScheme] = some (.TagEncodable, .const (.str (py "urn:epc:tag:"))) := rfl
@[src] theorem find_SGTIN_hex : findIn .hex [.SGTIN, .TagEncodable, .GS1Keyed, .GS1Element, .EPCScheme] = some (.TagEncodable, .method Src.TagEncodable.hex) := rfl
@[src] theorem find_SGTIN_base64 : findIn .base64 [.SGTIN, .TagEncodable, .GS1Keyed, .GS1Element, .EPCScheme] = some (.TagEncodable, .method Src.TagEncodable.base64) := rfl
@[src] theorem find_SGTIN_from_hex : findIn .from_hex [.SGTIN, .TagEncodable, .GS1Keyed, .GS1Element, .EPCScheme] = some (.TagEncodable, .classmethod Src.TagEncodable.from_hex) := rfl
@[src] theorem find_SGTIN_from_base64 : findIn .from_base64 [.SGTIN, .TagEncodable, .GS1Keyed, .GS1Element, .EPCScheme] = some (.TagEncodable, .classmethod Src.TagEncodable.from_base64) := rfl
@[src] theorem find_SGTIN_from_tag_uri : findIn .from_tag_uri [.SGTIN, .TagEncodable, .GS1Keyed, .GS1Element, .EPCScheme] = some (.TagEncodable, .classmethod Src.TagEncodable.from_tag_uri) := rfl
@[src] theorem find_SGTIN_header_to_schemes : findIn .header_to_schemes [.SGTIN, .TagEncodable, .GS1Keyed, .GS1Element, .EPCScheme] = some (.TagEncodable, .classmethod Src.TagEncodable.header_to_schemes) := rfl
@[src] theorem find_SGTIN___eq__ : findIn .__eq__ [.SGTIN, .TagEncodable, .GS1Keyed, .GS1Element, .EPCScheme] = some (.EPCScheme, .method Src.EPCScheme.__eq__) := rfl
@[src] theorem find_SGTIN_from_epc_uri : findIn .from_epc_uri [.SGTIN, .TagEncodable, .GS1Keyed, .GS1Element, .EPCScheme] = some (.EPCScheme, .classmethod Src.EPCScheme.from_epc_uri) := rfl
@[src] theorem header_SGTIN_SGTIN_96 : getItem (.enumCls .SGTIN .BinaryHeader [(.SGTIN_96, (py "SGTIN_96"), (py "00110000")), (.SGTIN_198, (py "SGTIN_198"), (py "00110110"))]) (.str (py "SGTIN_96")) = .ok (.member .SGTIN .BinaryHeader .SGTIN_96 (py "SGTIN_96") (py "00110000")) := rfl
@[src] theorem header_SGTIN_SGTIN_198 : getItem (.enumCls .SGTIN .BinaryHeader [(.SGTIN_96, (py "SGTIN_96"), (py "00110000")), (.SGTIN_198, (py "SGTIN_198"), (py "00110110"))]) (.str (py "SGTIN_198")) = .ok (.member .SGTIN .BinaryHeader .SGTIN_198 (py "SGTIN_198") (py "00110110")) := rfl
@[src] theorem mro_SSCCFilterValue : clsMro .SSCCFilterValue = [.SSCCFilterValue] := by decide +kernel
@[src] theorem chain_SSCCFilterValue : initChain [.SSCCFilterValue] = [] := by decide +kernel
@[src] theorem find_SSCCFilterValue_ALL_OTHERS : findIn .ALL_OTHERS [.SSCCFilterValue] = some (.SSCCFilterValue, .member (py "ALL_OTHERS") (py "0")) := rfl
@[src] theorem find_SSCCFilterValue_RESERVED_1 : findIn .RESERVED_1 [.SSCCFilterValue] = some (.SSCCFilterValue, .member (py "RESERVED_1") (py "1")) := rfl
@[src] theorem find_SSCCFilterValue_FULL_CASE : findIn .FULL_CASE [.SSCCFilterValue] = some (.SSCCFilterValue, .member (py "FULL_CASE") (py "2")) := rfl
@[src] theorem find_SSCCFilterValue_RESERVED_3 : findIn .RESERVED_3 [.SSCCFilterValue] = some (.SSCCFilterValue, .member (py "RESERVED_3") (py "3")) := rfl
@[src] theorem find_SSCCFilterValue_RESERVED_4 : findIn .RESERVED_4 [.SSCCFilterValue] = some (.SSCCFilterValue, .member (py "RESERVED_4") (py "4")) := rfl
@[src] theorem find_SSCCFilterValue_RESERVED_5 : findIn .RESERVED_5 [.SSCCFilterValue] = some (.SSCCFilterValue, .member (py "RESERVED_5") (py "5")) := rfl
@[src] theorem find_SSCCFilterValue_UNIT_LOAD : findIn .UNIT_LOAD [.SSCCFilterValue] = some (.SSCCFilterValue, .member (py "UNIT_LOAD") (py "6")) := rfl
@[src] theorem find_SSCCFilterValue_RESERVED_7 : findIn .RESERVED_7 [.SSCCFilterValue] = some (.SSCCFilterValue, .member (py "RESERVED_7") (py "7")) := rfl
@[src] theorem mro_SSCC : clsMro .SSCC = [.SSCC, .TagEncodable, .GS1Keyed, .GS1Element, .EPCScheme] := by decide +kernel
@[src] theorem chain_SSCC : initChain [.SSCC, .TagEncodable, .GS1Keyed, .GS1Element, .EPCScheme] = [.SSCC, .TagEncodable, .GS1Keyed, .GS1Element, .EPCScheme] := by decide +kernel
@[src] theorem find_SSCC_BinaryCodingScheme : findIn .BinaryCodingScheme [.SSCC, .TagEncodable, .GS1Keyed, .GS1Element, .EPCScheme] = some (.SSCC, .enum [(.SSCC_96, (py "SSCC_96"), (py "sscc-96"))]) := rfl
@[src] theorem find_SSCC_BinaryHeader : findIn .BinaryHeader [.SSCC, .TagEncodable, .GS1Keyed, .GS1Element, .EPCScheme] = some (.SSCC, .enum [(.SSCC_96, (py "SSCC_96"), (py "00110001"))]) := rfl
@[src] theorem find_SSCC_gs1_element_string_regex : findIn .gs1_element_string_regex [.SSCC, .TagEncodable, .GS1Keyed, .GS1Element, .EPCScheme] = some (.SSCC, .const (.call (.attr (.name .re) .compile) [(.name .SSCC_GS1_ELEMENT_STRING)] [])) := rfl
@[src] theorem find_SSCC___init__ : findIn .__init__ [.SSCC, .TagEncodable, .GS1Keyed, .GS1Element, .EPCScheme] = some (.SSCC, .method Src.SSCC.__init__) := rfl
@[src] theorem find_SSCC_gs1_key : findIn .gs1_key [.SSCC, .TagEncodable, .GS1Keyed, .GS1Element, .EPCScheme] = some (.SSCC, .method Src.SSCC.gs1_key) := rfl
@[src] theorem find_SSCC_gs1_element_string : findIn .gs1_element_string [.SSCC, .TagEncodable, .GS1Keyed, .GS1Element, .EPCScheme] = some (.SSCC, .method Src.SSCC.gs1_element_string) := rfl
@[src] theorem find_SSCC_from_gs1_element_string : findIn .from_gs1_element_string [.SSCC, .TagEncodable, .GS1Keyed, .GS1Element, .EPCScheme] = some (.SSCC, .classmethod Src.SSCC.from_gs1_element_string) := rfl
@[src] theorem find_SSCC_tag_uri : findIn .tag_uri [.SSCC, .TagEncodable, .GS1Keyed, .GS1Element, .EPCScheme] = some (.SSCC, .method Src.SSCC.tag_uri) := rfl
@[src] theorem find_SSCC_binary : findIn .binary [.SSCC, .TagEncodable, .GS1Keyed, .GS1Element, .EPCScheme] = some (.SSCC, .method Src.SSCC.binary) := rfl
@[src] theorem find_SSCC_from_binary : findIn .from_binary [.SSCC, .TagEncodable, .GS1Keyed, .GS1Element, .EPCScheme] = some (.SSCC, .classmethod Src.SSCC.from_binary) := rfl
@[src] theorem find_SSCC_TAG_URI_REGEX : findIn .TAG_URI_REGEX [.SSCC, .TagEncodable, .GS1Keyed, .GS1Element, .EPCScheme] = some (.TagEncodable, .const (.call (.attr (.name .re) .compile) [(.name .TAG_URI)] [])) := rfl
@[src] theorem find_SSCC_TAG_URI_PREFIX : findIn .TAG_URI_PREFIX [.SSCC, .TagEncodable, .GS1Keyed, .GS1Element, .EPCScheme] = some (.TagEncodable, .const (.str (py "urn:epc:tag:"))) := rfl
@[src] theorem find_SSCC_hex : findIn .hex [.SSCC, .TagEncodable, .GS1Keyed, .GS1Element, .EPCScheme] = some (.TagEncodable, .method Src.TagEncodable.hex) := rfl
@[src] theorem find_SSCC_base64 : findIn .base64 [.SSCC, .TagEncodable, .GS1Keyed, .GS1Element, .EPCScheme] = some (.TagEncodable, .method Src.TagEncodable.base64) := rfl
@[src] theorem find_SSCC_from_hex : findIn .from_hex [.SSCC, .TagEncodable, .GS1Keyed, .GS1Element, .EPCScheme] = some (.TagEncodable, .classmethod Src.TagEncodable.from_hex) := rfl
@[src] theorem find_SSCC_from_base64 : findIn .from_base64 [.SSCC, .TagEncodable, .GS1Keyed, .GS1Element, .EPCScheme] = some (.TagEncodable, .classmethod Src.TagEncodable.from_base64) := rfl
@[src] theorem find_SSCC_from_tag_uri : findIn .from_tag_uri [.SSCC, .TagEncodable, .GS1Keyed, .GS1Element, .EPCScheme] = some (.TagEncodable, .classmethod Src.TagEncodable.from_tag_uri) := rfl
@[src] theorem find_SSCC_header_to_schemes : findIn .header_to_schemes [.SSCC, .TagEncodable, .GS1Keyed, .GS1Element, .EPCScheme] = some (.TagEncodable, .classmethod Src.TagEncodable.header_to_schemes) := rfl
@[src] theorem find_SSCC___eq__ : findIn .__eq__ [.SSCC, .TagEncodable, .GS1Keyed, .GS1Element, .EPCScheme] = some (.EPCScheme, .method Src.EPCScheme.__eq__) := rfl
@[src] theorem find_SSCC_from_epc_uri : findIn .from_epc_uri [.SSCC, .TagEncodable, .GS1Keyed, .GS1Element, .EPCScheme] = some (.EPCScheme, .classmethod Src.EPCScheme.from_epc_uri) := rfl
@[src] theorem header_SSCC_SSCC_96 : getItem (.enumCls .SSCC .BinaryHeader [(.SSCC_96, (py "SSCC_96"), (py "00110001"))]) (.str (py "SSCC_96")) = .ok (.member .SSCC .BinaryHeader .SSCC_96 (py "SSCC_96") (py "00110001")) := rfl
@[src] theorem mro_UPUI : clsMro .UPUI = [.UPUI, .GS1Element, .EPCScheme] := by decide +kernel
@[src] theorem chain_UPUI : initChain [.UPUI, .GS1Element, .EPCScheme] = [.UPUI, .GS1Element, .EPCScheme] := by decide +kernel
@[src] theorem find_UPUI_gs1_element_string_regex : findIn .gs1_element_string_regex [.UPUI, .GS1Element, .EPCScheme] = some (.UPUI, .const (.call (.attr (.name .re) .compile) [(.name .UPUI_GS1_ELEMENT_STRING)] [])) := rfl
@[src] theorem find_UPUI___init__ : findIn .__init__ [.UPUI, .GS1Element, .EPCScheme] = some (.UPUI, .method Src.UPUI.__init__) := rfl
@[src] theorem find_UPUI_gs1_element_string : findIn .gs1_element_string [.UPUI, .GS1Element, .EPCScheme] = some (.UPUI, .method Src.UPUI.gs1_element_string) := rfl
@[src] theorem find_UPUI_from_gs1_element_string : findIn .from_gs1_element_string [.UPUI, .GS1Element, .EPCScheme] = some (.UPUI, .classmethod Src.UPUI.from_gs1_element_string) := rfl
@[src] theorem find_UPUI___eq__ : findIn .__eq__ [.UPUI, .GS1Element, .EPCScheme] = some (.EPCScheme, .method Src.EPCScheme.__eq__) := rfl
@[src] theorem find_UPUI_from_epc_uri : findIn .from_epc_uri [.UPUI, .GS1Element, .EPCScheme] = some (.EPCScheme, .classmethod Src.EPCScheme.from_epc_uri) := rfl
@[src] theorem mro_USDODFilterValue : clsMro .USDODFilterValue = [.USDODFilterValue] := by decide +kernel
@[src] theorem chain_USDODFilterValue : initChain [.USDODFilterValue] = [] := by decide +kernel
@[src] theorem find_USDODFilterValue_PALLET : findIn .PALLET [.USDODFilterValue] = some (.USDODFilterValue, .member (py "PALLET") (py "0")) := rfl
@[src] theorem find_USDODFilterValue_CASE : findIn .CASE [.USDODFilterValue] = some (.USDODFilterValue, .member (py "CASE") (py "1")) := rfl
@[src] theorem find_USDODFilterValue_UNIT_PACK : findIn .UNIT_PACK [.USDODFilterValue] = some (.USDODFilterValue, .member (py "UNIT_PACK") (py "2")) := rfl
@[src] theorem find_USDODFilterValue_RESERVED_3 : findIn .RESERVED_3 [.USDODFilterValue] = some (.USDODFilterValue, .member (py "RESERVED_3") (py "3")) := rfl
@[src] theorem find_USDODFilterValue_RESERVED_4 : findIn .RESERVED_4 [.USDODFilterValue] = some (.USDODFilterValue, .member (py "RESERVED_4") (py "4")) := rfl
@[src] theorem find_USDODFilterValue_RESERVED_5 : findIn .RESERVED_5 [.USDODFilterValue] = some (.USDODFilterValue, .member (py "RESERVED_5") (py "5")) := rfl
@[src] theorem find_USDODFilterValue_RESERVED_6 : findIn .RESERVED_6 [.USDODFilterValue] = some (.USDODFilterValue, .member (py "RESERVED_6") (py "6")) := rfl
@[src] theorem find_USDODFilterValue_RESERVED_7 : findIn .RESERVED_7 [.USDODFilterValue] = some (.USDODFilterValue, .member (py "RESERVED_7") (py "7")) := rfl
@[src] theorem find_USDODFilterValue_RESERVED_8 : findIn .RESERVED_8 [.USDODFilterValue] = some (.USDODFilterValue, .member (py "RESERVED_8") (py "8")) := rfl
@[src] theorem find_USDODFilterValue_RESERVED_9 : findIn .RESERVED_9 [.USDODFilterValue] = some (.USDODFilterValue, .member (py "RESERVED_9") (py "9")) := rfl
@[src] theorem find_USDODFilterValue_RESERVED_10 : findIn .RESERVED_10 [.USDODFilterValue] = some (.USDODFilterValue, .member (py "RESERVED_10") (py "10")) := rfl
@[src] theorem find_USDODFilterValue_RESERVED_11 : findIn .RESERVED_11 [.USDODFilterValue] = some (.USDODFilterValue, .member (py "RESERVED_11") (py "11")) := rfl
@[src] theorem find_USDODFilterValue_RESERVED_12 : findIn .RESERVED_12 [.USDODFilterValue] = some (.USDODFilterValue, .member (py "RESERVED_12") (py "12")) := rfl
@[src] theorem find_USDODFilterValue_RESERVED_13 : findIn .RESERVED_13 [.USDODFilterValue] = some (.USDODFilterValue, .member (py "RESERVED_13") (py "13")) := rfl
@[src] theorem find_USDODFilterValue_RESERVED_14 : findIn .RESERVED_14 [.USDODFilterValue] = some (.USDODFilterValue, .member (py "RESERVED_14") (py "14")) := rfl
@[src] theorem find_USDODFilterValue_RESERVED_15 : findIn .RESERVED_15 [.USDODFilterValue] = some (.USDODFilterValue, .member (py "RESERVED_15") (py "15")) := rfl
@[src] theorem mro_USDOD : clsMro .USDOD = [.USDOD, .TagEncodable, .EPCScheme] := by decide +kernel
@[src] theorem chain_USDOD : initChain [.USDOD, .TagEncodable, .EPCScheme] = [.USDOD, .TagEncodable, .EPCScheme] := by decide +kernel
@[src] theorem find_USDOD_BinaryCodingScheme : findIn .BinaryCodingScheme [.USDOD, .TagEncodable, .EPCScheme] = some (.USDOD, .enum [(.USDOD_96, (py "USDOD_96"), (py "usdod-96"))]) := rfl
@[src] theorem find_USDOD_BinaryHeader : findIn .BinaryHeader [.USDOD, .TagEncodable, .EPCScheme] = some (.USDOD, .enum [(.USDOD_96, (py "USDOD_96"), (py "00101111"))]) := rfl
@[src] theorem find_USDOD___init__ : findIn .__init__ [.USDOD, .TagEncodable, .EPCScheme] = some (.USDOD, .method Src.USDOD.__init__) := rfl
@[src] theorem find_USDOD_tag_uri : findIn .tag_uri [.USDOD, .TagEncodable, .EPCScheme] = some (.USDOD, .method Src.USDOD.tag_uri) := rfl
@[src] theorem find_USDOD_binary : findIn .binary [.USDOD, .TagEncodable, .EPCScheme] = some (.USDOD, .method Src.USDOD.binary) := rfl
@[src] theorem find_USDOD_from_binary : findIn .from_binary [.USDOD, .TagEncodable, .EPCScheme] = some (.USDOD, .classmethod Src.USDOD.from_binary) := rfl
@[src] theorem find_USDOD_TAG_URI_REGEX : findIn .TAG_URI_REGEX [.USDOD, .TagEncodable, .EPCScheme] = some (.TagEncodable, .const (.call (.attr (.name .re) .compile) [(.name .TAG_URI)] [])) := rfl
@[src] theorem find_USDOD_TAG_URI_PREFIX : findIn .TAG_URI_PREFIX [.USDOD, .TagEncodable, .EPCScheme] = some (.TagEncodable, .const (.str (py "urn:epc:tag:"))) := rfl
@[src] theorem find_USDOD_hex : findIn .hex [.USDOD, .TagEncodable, .EPCScheme] = some (.TagEncodable, .method Src.TagEncodable.hex) := rfl
@[src] theorem find_USDOD_base64 : findIn .base64 [.USDOD, .TagEncodable, .EPCScheme] = some (.TagEncodable, .method Src.TagEncodable.base64) := rfl
@[src] theorem find_USDOD_from_hex : findIn .from_hex [.USDOD, .TagEncodable, .EPCScheme] = some (.TagEncodable, .classmethod Src.TagEncodable.from_hex) := rfl
@[src] theorem find_USDOD_from_base64 : findIn .from_base64 [.USDOD, .TagEncodable, .EPCScheme] = some (.TagEncodable, .classmethod Src.TagEncodable.from_base64) := rfl
@[src] theorem find_USDOD_from_tag_uri : findIn .from_tag_uri [.USDOD, .TagEncodable, .EPCScheme] = some (.TagEncodable, .classmethod Src.TagEncodable.from_tag_uri) := rfl
@[src] theorem find_USDOD_header_to_schemes : findIn .header_to_schemes [.USDOD, .TagEncodable, .EPCScheme] = some (.TagEncodable, .classmethod Src.TagEncodable.header_to_schemes) := rfl
@[src] theorem find_USDOD___eq__ : findIn .__eq__ [.USDOD, .TagEncodable, .EPCScheme] = some (.EPCScheme, .method Src.EPCScheme.__eq__) := rfl
@[src] theorem find_USDOD_from_epc_uri : findIn .from_epc_uri [.USDOD, .TagEncodable, .EPCScheme] = some (.EPCScheme, .classmethod Src.EPCScheme.from_epc_uri) := rfl
@[src] theorem header_USDOD_USDOD_96 : getItem (.enumCls .USDOD .BinaryHeader [(.USDOD_96, (py "USDOD_96"), (py "00101111"))]) (.str (py "USDOD_96")) = .ok (.member .USDOD .BinaryHeader .USDOD_96 (py "USDOD_96") (py "00101111")) := rfl

end Epc.Src
