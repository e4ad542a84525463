/-
The modules and classes of the source as tables of names.
Generated by tools/gen_src.py from the syntax trees of /repo/epcpy.
-/
import Verif.Src.Code.Regex
import Verif.Src.Code.Common
import Verif.Src.Code.BaseScheme
import Verif.Src.Code.Adi
import Verif.Src.Code.Bic
import Verif.Src.Code.Cpi
import Verif.Src.Code.Gdti
import Verif.Src.Code.Giai
import Verif.Src.Code.Gid
import Verif.Src.Code.Ginc
import Verif.Src.Code.Grai
import Verif.Src.Code.Gsin
import Verif.Src.Code.Gsrn
import Verif.Src.Code.Gsrnp
import Verif.Src.Code.Imovn
import Verif.Src.Code.Itip
import Verif.Src.Code.Lgtin
import Verif.Src.Code.Pgln
import Verif.Src.Code.Sgcn
import Verif.Src.Code.Sgln
import Verif.Src.Code.Sgtin
import Verif.Src.Code.Sscc
import Verif.Src.Code.Upui
import Verif.Src.Code.Usdod
import Verif.Src.Code.Parsers

namespace Epc.Src

/-- What the names of a module are bound to.  The patterns of /repo/epcpy/utils/regex.py are bound to their texts. -/
def modDict : Mod → List (Nm × Global)
  | .common => [
      (.base64, .module .base64),
      (.re, .module .re),
      (.log, .builtin .log),
      (.VERIFY_GS3A3_CHARS, .text Src.regex.VERIFY_GS3A3_CHARS),
      (.ESCAPE_CHARACTERS, .const Src.common.ESCAPE_CHARACTERS),
      (.VERIFY_GS3A3_CHARS_REGEX, .const Src.common.VERIFY_GS3A3_CHARS_REGEX),
      (.ConvertException, .cls .ConvertException),
      (.replace_uri_escapes, .fn Src.common.replace_uri_escapes),
      (.revert_uri_escapes, .fn Src.common.revert_uri_escapes),
      (.int_to_binary, .fn Src.common.int_to_binary),
      (.binary_to_int, .fn Src.common.binary_to_int),
      (.str_to_binary, .fn Src.common.str_to_binary),
      (.base64_to_hex, .fn Src.common.base64_to_hex),
      (.hex_to_base64, .fn Src.common.hex_to_base64),
      (.hex_to_binary, .fn Src.common.hex_to_binary),
      (.binary_to_hex, .fn Src.common.binary_to_hex),
      (.encode_string, .fn Src.common.encode_string),
      (.decode_string_six_bits, .fn Src.common.decode_string_six_bits),
      (.encode_string_six_bits, .fn Src.common.encode_string_six_bits),
      (.decode_binary_char, .fn Src.common.decode_binary_char),
      (.decode_string, .fn Src.common.decode_string),
      (.encode_partition_table, .fn Src.common.encode_partition_table),
      (.decode_partition_table, .fn Src.common.decode_partition_table),
      (.encode_numeric_string, .fn Src.common.encode_numeric_string),
      (.decode_numeric_string, .fn Src.common.decode_numeric_string),
      (.encode_fixed_width_integer, .fn Src.common.encode_fixed_width_integer),
      (.decode_fixed_width_integer, .fn Src.common.decode_fixed_width_integer),
      (.decode_cage_code, .fn Src.common.decode_cage_code),
      (.encode_cage_code, .fn Src.common.encode_cage_code),
      (.decode_cage_code_six_bits, .fn Src.common.decode_cage_code_six_bits),
      (.encode_cage_code_six_bits, .fn Src.common.encode_cage_code_six_bits),
      (.verify_gs3a3_component, .fn Src.common.verify_gs3a3_component),
      (.calculate_checksum, .fn Src.common.calculate_checksum),
      (.parse_header_and_truncate_binary, .fn Src.common.parse_header_and_truncate_binary)]
  | .base_scheme => [
      (.re, .module .re),
      (.ConvertException, .imported .common .ConvertException),
      (.base64_to_hex, .imported .common .base64_to_hex),
      (.hex_to_base64, .imported .common .hex_to_base64),
      (.hex_to_binary, .imported .common .hex_to_binary),
      (.TAG_URI, .text Src.regex.TAG_URI),
      (.EPCScheme, .cls .EPCScheme),
      (.TagEncodable, .cls .TagEncodable),
      (.GS1Element, .cls .GS1Element),
      (.GS1Keyed, .cls .GS1Keyed)]
  | .adi => [
      (.re, .module .re),
      (.TagEncodable, .imported .base_scheme .TagEncodable),
      (.ConvertException, .imported .common .ConvertException),
      (.binary_to_int, .imported .common .binary_to_int),
      (.decode_cage_code_six_bits, .imported .common .decode_cage_code_six_bits),
      (.decode_string_six_bits, .imported .common .decode_string_six_bits),
      (.encode_cage_code_six_bits, .imported .common .encode_cage_code_six_bits),
      (.encode_string_six_bits, .imported .common .encode_string_six_bits),
      (.parse_header_and_truncate_binary, .imported .common .parse_header_and_truncate_binary),
      (.str_to_binary, .imported .common .str_to_binary),
      (.ADI_URI, .text Src.regex.ADI_URI),
      (.ADI_URI_REGEX, .const Src.adi.ADI_URI_REGEX),
      (.ADIFilterValue, .cls .ADIFilterValue),
      (.ADI, .cls .ADI)]
  | .bic => [
      (.re, .module .re),
      (.EPCScheme, .imported .base_scheme .EPCScheme),
      (.ConvertException, .imported .common .ConvertException),
      (.BIC_URI, .text Src.regex.BIC_URI),
      (.BIC_URI_REGEX, .const Src.bic.BIC_URI_REGEX),
      (.BIC, .cls .BIC)]
  | .cpi => [
      (.re, .module .re),
      (.GS1Element, .imported .base_scheme .GS1Element),
      (.TagEncodable, .imported .base_scheme .TagEncodable),
      (.ConvertException, .imported .common .ConvertException),
      (.binary_to_int, .imported .common .binary_to_int),
      (.decode_partition_table, .imported .common .decode_partition_table),
      (.encode_partition_table, .imported .common .encode_partition_table),
      (.parse_header_and_truncate_binary, .imported .common .parse_header_and_truncate_binary),
      (.str_to_binary, .imported .common .str_to_binary),
      (.CPI_GS1_ELEMENT_STRING, .text Src.regex.CPI_GS1_ELEMENT_STRING),
      (.CPI_URI, .text Src.regex.CPI_URI),
      (.CPI_URI_REGEX, .const Src.cpi.CPI_URI_REGEX),
      (.PARTITION_TABLE_P_96, .const Src.cpi.PARTITION_TABLE_P_96),
      (.PARTITION_TABLE_L_96, .const Src.cpi.PARTITION_TABLE_L_96),
      (.PARTITION_TABLE_P_VAR, .const Src.cpi.PARTITION_TABLE_P_VAR),
      (.PARTITION_TABLE_L_VAR, .const Src.cpi.PARTITION_TABLE_L_VAR),
      (.CPIFilterValue, .cls .CPIFilterValue),
      (.replace_cpi_escapes, .fn Src.cpi.replace_cpi_escapes),
      (.revert_cpi_escapes, .fn Src.cpi.revert_cpi_escapes),
      (.CPI, .cls .CPI)]
  | .gdti => [
      (.re, .module .re),
      (.GS1Keyed, .imported .base_scheme .GS1Keyed),
      (.TagEncodable, .imported .base_scheme .TagEncodable),
      (.ConvertException, .imported .common .ConvertException),
      (.binary_to_int, .imported .common .binary_to_int),
      (.calculate_checksum, .imported .common .calculate_checksum),
      (.decode_partition_table, .imported .common .decode_partition_table),
      (.decode_string, .imported .common .decode_string),
      (.encode_partition_table, .imported .common .encode_partition_table),
      (.encode_string, .imported .common .encode_string),
      (.parse_header_and_truncate_binary, .imported .common .parse_header_and_truncate_binary),
      (.replace_uri_escapes, .imported .common .replace_uri_escapes),
      (.revert_uri_escapes, .imported .common .revert_uri_escapes),
      (.str_to_binary, .imported .common .str_to_binary),
      (.verify_gs3a3_component, .imported .common .verify_gs3a3_component),
      (.GDTI_GS1_ELEMENT_STRING, .text Src.regex.GDTI_GS1_ELEMENT_STRING),
      (.GDTI_URI, .text Src.regex.GDTI_URI),
      (.GDTI_URI_REGEX, .const Src.gdti.GDTI_URI_REGEX),
      (.PARTITION_TABLE_P, .const Src.gdti.PARTITION_TABLE_P),
      (.PARTITION_TABLE_L, .const Src.gdti.PARTITION_TABLE_L),
      (.GDTIFilterValue, .cls .GDTIFilterValue),
      (.GDTI, .cls .GDTI)]
  | .giai => [
      (.re, .module .re),
      (.GS1Keyed, .imported .base_scheme .GS1Keyed),
      (.TagEncodable, .imported .base_scheme .TagEncodable),
      (.ConvertException, .imported .common .ConvertException),
      (.binary_to_int, .imported .common .binary_to_int),
      (.decode_partition_table, .imported .common .decode_partition_table),
      (.encode_partition_table, .imported .common .encode_partition_table),
      (.parse_header_and_truncate_binary, .imported .common .parse_header_and_truncate_binary),
      (.replace_uri_escapes, .imported .common .replace_uri_escapes),
      (.revert_uri_escapes, .imported .common .revert_uri_escapes),
      (.str_to_binary, .imported .common .str_to_binary),
      (.verify_gs3a3_component, .imported .common .verify_gs3a3_component),
      (.GIAI_GS1_ELEMENT_STRING, .text Src.regex.GIAI_GS1_ELEMENT_STRING),
      (.GIAI_URI, .text Src.regex.GIAI_URI),
      (.GIAI_URI_REGEX, .const Src.giai.GIAI_URI_REGEX),
      (.PARTITION_TABLE_P_96, .const Src.giai.PARTITION_TABLE_P_96),
      (.PARTITION_TABLE_L_96, .const Src.giai.PARTITION_TABLE_L_96),
      (.PARTITION_TABLE_P_202, .const Src.giai.PARTITION_TABLE_P_202),
      (.PARTITION_TABLE_L_202, .const Src.giai.PARTITION_TABLE_L_202),
      (.GIAIFilterValue, .cls .GIAIFilterValue),
      (.GIAI, .cls .GIAI)]
  | .gid => [
      (.re, .module .re),
      (.TagEncodable, .imported .base_scheme .TagEncodable),
      (.ConvertException, .imported .common .ConvertException),
      (.binary_to_int, .imported .common .binary_to_int),
      (.parse_header_and_truncate_binary, .imported .common .parse_header_and_truncate_binary),
      (.str_to_binary, .imported .common .str_to_binary),
      (.GID_URI, .text Src.regex.GID_URI),
      (.GID_URI_REGEX, .const Src.gid.GID_URI_REGEX),
      (.GID, .cls .GID)]
  | .ginc => [
      (.re, .module .re),
      (.GS1Keyed, .imported .base_scheme .GS1Keyed),
      (.ConvertException, .imported .common .ConvertException),
      (.replace_uri_escapes, .imported .common .replace_uri_escapes),
      (.revert_uri_escapes, .imported .common .revert_uri_escapes),
      (.verify_gs3a3_component, .imported .common .verify_gs3a3_component),
      (.GINC_GS1_ELEMENT_STRING, .text Src.regex.GINC_GS1_ELEMENT_STRING),
      (.GINC_URI, .text Src.regex.GINC_URI),
      (.GINC_URI_REGEX, .const Src.ginc.GINC_URI_REGEX),
      (.GINC, .cls .GINC)]
  | .grai => [
      (.re, .module .re),
      (.GS1Keyed, .imported .base_scheme .GS1Keyed),
      (.TagEncodable, .imported .base_scheme .TagEncodable),
      (.ConvertException, .imported .common .ConvertException),
      (.binary_to_int, .imported .common .binary_to_int),
      (.calculate_checksum, .imported .common .calculate_checksum),
      (.decode_partition_table, .imported .common .decode_partition_table),
      (.decode_string, .imported .common .decode_string),
      (.encode_partition_table, .imported .common .encode_partition_table),
      (.encode_string, .imported .common .encode_string),
      (.parse_header_and_truncate_binary, .imported .common .parse_header_and_truncate_binary),
      (.replace_uri_escapes, .imported .common .replace_uri_escapes),
      (.revert_uri_escapes, .imported .common .revert_uri_escapes),
      (.str_to_binary, .imported .common .str_to_binary),
      (.verify_gs3a3_component, .imported .common .verify_gs3a3_component),
      (.GRAI_GS1_ELEMENT_STRING, .text Src.regex.GRAI_GS1_ELEMENT_STRING),
      (.GRAI_URI, .text Src.regex.GRAI_URI),
      (.GRAI_URI_REGEX, .const Src.grai.GRAI_URI_REGEX),
      (.PARTITION_TABLE_P, .const Src.grai.PARTITION_TABLE_P),
      (.PARTITION_TABLE_L, .const Src.grai.PARTITION_TABLE_L),
      (.GRAIFilterValue, .cls .GRAIFilterValue),
      (.GRAI, .cls .GRAI)]
  | .gsin => [
      (.re, .module .re),
      (.GS1Keyed, .imported .base_scheme .GS1Keyed),
      (.ConvertException, .imported .common .ConvertException),
      (.GSIN_GS1_ELEMENT_STRING, .text Src.regex.GSIN_GS1_ELEMENT_STRING),
      (.GSIN_URI, .text Src.regex.GSIN_URI),
      (.GSIN_URI_REGEX, .const Src.gsin.GSIN_URI_REGEX),
      (.calculate_checksum, .fn Src.gsin.calculate_checksum),
      (.GSIN, .cls .GSIN)]
  | .gsrn => [
      (.re, .module .re),
      (.GS1Keyed, .imported .base_scheme .GS1Keyed),
      (.TagEncodable, .imported .base_scheme .TagEncodable),
      (.ConvertException, .imported .common .ConvertException),
      (.binary_to_int, .imported .common .binary_to_int),
      (.calculate_checksum, .imported .common .calculate_checksum),
      (.decode_partition_table, .imported .common .decode_partition_table),
      (.encode_partition_table, .imported .common .encode_partition_table),
      (.parse_header_and_truncate_binary, .imported .common .parse_header_and_truncate_binary),
      (.str_to_binary, .imported .common .str_to_binary),
      (.GSRN_GS1_ELEMENT_STRING, .text Src.regex.GSRN_GS1_ELEMENT_STRING),
      (.GSRN_URI, .text Src.regex.GSRN_URI),
      (.GSRN_URI_REGEX, .const Src.gsrn.GSRN_URI_REGEX),
      (.PARTITION_TABLE_P, .const Src.gsrn.PARTITION_TABLE_P),
      (.PARTITION_TABLE_L, .const Src.gsrn.PARTITION_TABLE_L),
      (.GSRNFilterValue, .cls .GSRNFilterValue),
      (.GSRN, .cls .GSRN)]
  | .gsrnp => [
      (.re, .module .re),
      (.GS1Keyed, .imported .base_scheme .GS1Keyed),
      (.TagEncodable, .imported .base_scheme .TagEncodable),
      (.ConvertException, .imported .common .ConvertException),
      (.binary_to_int, .imported .common .binary_to_int),
      (.calculate_checksum, .imported .common .calculate_checksum),
      (.decode_partition_table, .imported .common .decode_partition_table),
      (.encode_partition_table, .imported .common .encode_partition_table),
      (.parse_header_and_truncate_binary, .imported .common .parse_header_and_truncate_binary),
      (.str_to_binary, .imported .common .str_to_binary),
      (.GSRNP_GS1_ELEMENT_STRING, .text Src.regex.GSRNP_GS1_ELEMENT_STRING),
      (.GSRNP_URI, .text Src.regex.GSRNP_URI),
      (.GSRNP_URI_REGEX, .const Src.gsrnp.GSRNP_URI_REGEX),
      (.PARTITION_TABLE_P, .const Src.gsrnp.PARTITION_TABLE_P),
      (.PARTITION_TABLE_L, .const Src.gsrnp.PARTITION_TABLE_L),
      (.GSRNPFilterValue, .cls .GSRNPFilterValue),
      (.GSRNP, .cls .GSRNP)]
  | .imovn => [
      (.re, .module .re),
      (.EPCScheme, .imported .base_scheme .EPCScheme),
      (.ConvertException, .imported .common .ConvertException),
      (.IMOVN_URI, .text Src.regex.IMOVN_URI),
      (.IMOVN_URI_REGEX, .const Src.imovn.IMOVN_URI_REGEX),
      (.IMOVN, .cls .IMOVN)]
  | .itip => [
      (.re, .module .re),
      (.GS1Element, .imported .base_scheme .GS1Element),
      (.TagEncodable, .imported .base_scheme .TagEncodable),
      (.ConvertException, .imported .common .ConvertException),
      (.binary_to_int, .imported .common .binary_to_int),
      (.calculate_checksum, .imported .common .calculate_checksum),
      (.decode_fixed_width_integer, .imported .common .decode_fixed_width_integer),
      (.decode_partition_table, .imported .common .decode_partition_table),
      (.decode_string, .imported .common .decode_string),
      (.encode_fixed_width_integer, .imported .common .encode_fixed_width_integer),
      (.encode_partition_table, .imported .common .encode_partition_table),
      (.encode_string, .imported .common .encode_string),
      (.parse_header_and_truncate_binary, .imported .common .parse_header_and_truncate_binary),
      (.replace_uri_escapes, .imported .common .replace_uri_escapes),
      (.revert_uri_escapes, .imported .common .revert_uri_escapes),
      (.str_to_binary, .imported .common .str_to_binary),
      (.verify_gs3a3_component, .imported .common .verify_gs3a3_component),
      (.ITIP_GS1_ELEMENT_STRING, .text Src.regex.ITIP_GS1_ELEMENT_STRING),
      (.ITIP_URI, .text Src.regex.ITIP_URI),
      (.ITIP_URI_REGEX, .const Src.itip.ITIP_URI_REGEX),
      (.PARTITION_TABLE_P, .const Src.itip.PARTITION_TABLE_P),
      (.PARTITION_TABLE_L, .const Src.itip.PARTITION_TABLE_L),
      (.ITIPFilterValue, .cls .ITIPFilterValue),
      (.ITIP, .cls .ITIP)]
  | .lgtin => [
      (.re, .module .re),
      (.GS1Keyed, .imported .base_scheme .GS1Keyed),
      (.ConvertException, .imported .common .ConvertException),
      (.calculate_checksum, .imported .common .calculate_checksum),
      (.replace_uri_escapes, .imported .common .replace_uri_escapes),
      (.revert_uri_escapes, .imported .common .revert_uri_escapes),
      (.verify_gs3a3_component, .imported .common .verify_gs3a3_component),
      (.LGTIN_CLASS, .text Src.regex.LGTIN_CLASS),
      (.LGTIN_GS1_ELEMENT_STRING, .text Src.regex.LGTIN_GS1_ELEMENT_STRING),
      (.LGTIN_CLASS_REGEX, .const Src.lgtin.LGTIN_CLASS_REGEX),
      (.GTIN_TYPE, .cls .lgtin_GTIN_TYPE),
      (.LGTIN, .cls .LGTIN)]
  | .pgln => [
      (.re, .module .re),
      (.GS1Keyed, .imported .base_scheme .GS1Keyed),
      (.ConvertException, .imported .common .ConvertException),
      (.calculate_checksum, .imported .common .calculate_checksum),
      (.PGLN_GS1_ELEMENT_STRING, .text Src.regex.PGLN_GS1_ELEMENT_STRING),
      (.PGLN_URI, .text Src.regex.PGLN_URI),
      (.PGLN_URI_REGEX, .const Src.pgln.PGLN_URI_REGEX),
      (.PGLN, .cls .PGLN)]
  | .sgcn => [
      (.re, .module .re),
      (.GS1Keyed, .imported .base_scheme .GS1Keyed),
      (.TagEncodable, .imported .base_scheme .TagEncodable),
      (.ConvertException, .imported .common .ConvertException),
      (.binary_to_int, .imported .common .binary_to_int),
      (.calculate_checksum, .imported .common .calculate_checksum),
      (.decode_numeric_string, .imported .common .decode_numeric_string),
      (.decode_partition_table, .imported .common .decode_partition_table),
      (.encode_numeric_string, .imported .common .encode_numeric_string),
      (.encode_partition_table, .imported .common .encode_partition_table),
      (.parse_header_and_truncate_binary, .imported .common .parse_header_and_truncate_binary),
      (.revert_uri_escapes, .imported .common .revert_uri_escapes),
      (.str_to_binary, .imported .common .str_to_binary),
      (.SGCN_GS1_ELEMENT_STRING, .text Src.regex.SGCN_GS1_ELEMENT_STRING),
      (.SGCN_URI, .text Src.regex.SGCN_URI),
      (.SGCN_URI_REGEX, .const Src.sgcn.SGCN_URI_REGEX),
      (.PARTITION_TABLE_P, .const Src.sgcn.PARTITION_TABLE_P),
      (.PARTITION_TABLE_L, .const Src.sgcn.PARTITION_TABLE_L),
      (.SGCNFilterValue, .cls .SGCNFilterValue),
      (.SGCN, .cls .SGCN)]
  | .sgln => [
      (.re, .module .re),
      (.GS1Keyed, .imported .base_scheme .GS1Keyed),
      (.TagEncodable, .imported .base_scheme .TagEncodable),
      (.ConvertException, .imported .common .ConvertException),
      (.binary_to_int, .imported .common .binary_to_int),
      (.calculate_checksum, .imported .common .calculate_checksum),
      (.decode_partition_table, .imported .common .decode_partition_table),
      (.decode_string, .imported .common .decode_string),
      (.encode_partition_table, .imported .common .encode_partition_table),
      (.encode_string, .imported .common .encode_string),
      (.parse_header_and_truncate_binary, .imported .common .parse_header_and_truncate_binary),
      (.replace_uri_escapes, .imported .common .replace_uri_escapes),
      (.revert_uri_escapes, .imported .common .revert_uri_escapes),
      (.str_to_binary, .imported .common .str_to_binary),
      (.verify_gs3a3_component, .imported .common .verify_gs3a3_component),
      (.SGLN_GS1_ELEMENT_STRING, .text Src.regex.SGLN_GS1_ELEMENT_STRING),
      (.SGLN_URI, .text Src.regex.SGLN_URI),
      (.SGLN_URI_REGEX, .const Src.sgln.SGLN_URI_REGEX),
      (.PARTITION_TABLE_P, .const Src.sgln.PARTITION_TABLE_P),
      (.PARTITION_TABLE_L, .const Src.sgln.PARTITION_TABLE_L),
      (.SGLNFilterValue, .cls .SGLNFilterValue),
      (.SGLN, .cls .SGLN)]
  | .sgtin => [
      (.re, .module .re),
      (.GS1Keyed, .imported .base_scheme .GS1Keyed),
      (.TagEncodable, .imported .base_scheme .TagEncodable),
      (.ConvertException, .imported .common .ConvertException),
      (.binary_to_int, .imported .common .binary_to_int),
      (.calculate_checksum, .imported .common .calculate_checksum),
      (.decode_partition_table, .imported .common .decode_partition_table),
      (.decode_string, .imported .common .decode_string),
      (.encode_partition_table, .imported .common .encode_partition_table),
      (.encode_string, .imported .common .encode_string),
      (.parse_header_and_truncate_binary, .imported .common .parse_header_and_truncate_binary),
      (.replace_uri_escapes, .imported .common .replace_uri_escapes),
      (.revert_uri_escapes, .imported .common .revert_uri_escapes),
      (.str_to_binary, .imported .common .str_to_binary),
      (.verify_gs3a3_component, .imported .common .verify_gs3a3_component),
      (.SGTIN_GS1_ELEMENT_STRING, .text Src.regex.SGTIN_GS1_ELEMENT_STRING),
      (.SGTIN_URI, .text Src.regex.SGTIN_URI),
      (.SGTIN_REGEX, .const Src.sgtin.SGTIN_REGEX),
      (.PARTITION_TABLE_P, .const Src.sgtin.PARTITION_TABLE_P),
      (.PARTITION_TABLE_L, .const Src.sgtin.PARTITION_TABLE_L),
      (.SGTINFilterValue, .cls .SGTINFilterValue),
      (.GTIN_TYPE, .cls .sgtin_GTIN_TYPE),
      (.SGTIN, .cls .SGTIN)]
  | .sscc => [
      (.re, .module .re),
      (.GS1Keyed, .imported .base_scheme .GS1Keyed),
      (.TagEncodable, .imported .base_scheme .TagEncodable),
      (.ConvertException, .imported .common .ConvertException),
      (.binary_to_int, .imported .common .binary_to_int),
      (.calculate_checksum, .imported .common .calculate_checksum),
      (.decode_partition_table, .imported .common .decode_partition_table),
      (.encode_partition_table, .imported .common .encode_partition_table),
      (.parse_header_and_truncate_binary, .imported .common .parse_header_and_truncate_binary),
      (.str_to_binary, .imported .common .str_to_binary),
      (.SSCC_GS1_ELEMENT_STRING, .text Src.regex.SSCC_GS1_ELEMENT_STRING),
      (.SSCC_URI, .text Src.regex.SSCC_URI),
      (.SSCC_URI_REGEX, .const Src.sscc.SSCC_URI_REGEX),
      (.PARTITION_TABLE_P, .const Src.sscc.PARTITION_TABLE_P),
      (.PARTITION_TABLE_L, .const Src.sscc.PARTITION_TABLE_L),
      (.SSCCFilterValue, .cls .SSCCFilterValue),
      (.SSCC, .cls .SSCC)]
  | .upui => [
      (.re, .module .re),
      (.GS1Element, .imported .base_scheme .GS1Element),
      (.ConvertException, .imported .common .ConvertException),
      (.calculate_checksum, .imported .common .calculate_checksum),
      (.replace_uri_escapes, .imported .common .replace_uri_escapes),
      (.revert_uri_escapes, .imported .common .revert_uri_escapes),
      (.verify_gs3a3_component, .imported .common .verify_gs3a3_component),
      (.UPUI_GS1_ELEMENT_STRING, .text Src.regex.UPUI_GS1_ELEMENT_STRING),
      (.UPUI_URI, .text Src.regex.UPUI_URI),
      (.UPUI_URI_REGEX, .const Src.upui.UPUI_URI_REGEX),
      (.UPUI, .cls .UPUI)]
  | .usdod => [
      (.re, .module .re),
      (.TagEncodable, .imported .base_scheme .TagEncodable),
      (.ConvertException, .imported .common .ConvertException),
      (.binary_to_int, .imported .common .binary_to_int),
      (.decode_cage_code, .imported .common .decode_cage_code),
      (.encode_cage_code, .imported .common .encode_cage_code),
      (.parse_header_and_truncate_binary, .imported .common .parse_header_and_truncate_binary),
      (.str_to_binary, .imported .common .str_to_binary),
      (.USDOD_URI, .text Src.regex.USDOD_URI),
      (.USDOD_URI_REGEX, .const Src.usdod.USDOD_URI_REGEX),
      (.USDODFilterValue, .cls .USDODFilterValue),
      (.USDOD, .cls .USDOD)]
  | .parsers => [
      (.re, .module .re),
      (.ADI, .imported .adi .ADI),
      (.BIC, .imported .bic .BIC),
      (.CPI, .imported .cpi .CPI),
      (.GDTI, .imported .gdti .GDTI),
      (.GIAI, .imported .giai .GIAI),
      (.GID, .imported .gid .GID),
      (.GINC, .imported .ginc .GINC),
      (.GRAI, .imported .grai .GRAI),
      (.GSIN, .imported .gsin .GSIN),
      (.GSRN, .imported .gsrn .GSRN),
      (.GSRNP, .imported .gsrnp .GSRNP),
      (.IMOVN, .imported .imovn .IMOVN),
      (.ITIP, .imported .itip .ITIP),
      (.LGTIN, .imported .lgtin .LGTIN),
      (.PGLN, .imported .pgln .PGLN),
      (.SGCN, .imported .sgcn .SGCN),
      (.SGLN, .imported .sgln .SGLN),
      (.SGTIN, .imported .sgtin .SGTIN),
      (.SSCC, .imported .sscc .SSCC),
      (.UPUI, .imported .upui .UPUI),
      (.USDOD, .imported .usdod .USDOD),
      (.EPCScheme, .imported .base_scheme .EPCScheme),
      (.GS1Element, .imported .base_scheme .GS1Element),
      (.GS1Keyed, .imported .base_scheme .GS1Keyed),
      (.TagEncodable, .imported .base_scheme .TagEncodable),
      (.ConvertException, .imported .common .ConvertException),
      (.base64_to_hex, .imported .common .base64_to_hex),
      (.binary_to_hex, .imported .common .binary_to_hex),
      (.hex_to_binary, .imported .common .hex_to_binary),
      (.EPC_URI, .text Src.regex.EPC_URI),
      (.GS1_ELEMENT_STRING, .text Src.regex.GS1_ELEMENT_STRING),
      (.IDPAT_URI, .text Src.regex.IDPAT_URI),
      (.TAG_URI, .text Src.regex.TAG_URI),
      (.EPC_URI_REGEX, .const Src.parsers.EPC_URI_REGEX),
      (.GS1_ELEMENT_STRING_REGEX, .const Src.parsers.GS1_ELEMENT_STRING_REGEX),
      (.IDPAT_URI_REGEX, .const Src.parsers.IDPAT_URI_REGEX),
      (.TAG_URI_REGEX, .const Src.parsers.TAG_URI_REGEX),
      (.EPC_SCHEMES, .const Src.parsers.EPC_SCHEMES),
      (.GS1_KEYED_CLASSES, .const Src.parsers.GS1_KEYED_CLASSES),
      (.TAG_ENCODABLE_CLASSES, .const Src.parsers.TAG_ENCODABLE_CLASSES),
      (.TAG_ENCODABLE_BINARY_HEADERS, .const Src.parsers.TAG_ENCODABLE_BINARY_HEADERS),
      (.TAG_ENCODABLE_HEX_HEADERS, .const Src.parsers.TAG_ENCODABLE_HEX_HEADERS),
      (.GS1_ELEMENT_STRING_REGEX_TO_SCHEME, .const Src.parsers.GS1_ELEMENT_STRING_REGEX_TO_SCHEME),
      (.EPC_SCHEME_IDENTIFIERS, .const Src.parsers.EPC_SCHEME_IDENTIFIERS),
      (.TAG_ENCODABLE_SCHEME_IDENTIFIERS, .const Src.parsers.TAG_ENCODABLE_SCHEME_IDENTIFIERS),
      (.GS1_KEYED_SCHEME_IDENTIFIERS, .const Src.parsers.GS1_KEYED_SCHEME_IDENTIFIERS),
      (.get_gs1_key, .fn Src.parsers.get_gs1_key),
      (.epc_pure_identity_to_scheme, .fn Src.parsers.epc_pure_identity_to_scheme),
      (.epc_pure_identity_to_gs1_element, .fn Src.parsers.epc_pure_identity_to_gs1_element),
      (.epc_pure_identity_to_gs1_element_string, .fn Src.parsers.epc_pure_identity_to_gs1_element_string),
      (.epc_pure_identity_to_gs1_keyed, .fn Src.parsers.epc_pure_identity_to_gs1_keyed),
      (.epc_pure_identity_to_gs1_key, .fn Src.parsers.epc_pure_identity_to_gs1_key),
      (.epc_pure_identity_to_tag_encodable, .fn Src.parsers.epc_pure_identity_to_tag_encodable),
      (.gs1_element_string_to_gs1_element, .fn Src.parsers.gs1_element_string_to_gs1_element),
      (.ONE_ESCAPE_ALLOWED_SCHEMES, .const Src.parsers.ONE_ESCAPE_ALLOWED_SCHEMES),
      (._idpat_to_gs1_keyed_scheme, .fn Src.parsers._idpat_to_gs1_keyed_scheme),
      (.tag_uri_to_tag_encodable, .fn Src.parsers.tag_uri_to_tag_encodable),
      (.binary_to_tag_encodable, .fn Src.parsers.binary_to_tag_encodable),
      (.hex_to_tag_encodable, .fn Src.parsers.hex_to_tag_encodable),
      (.base64_to_tag_encodable, .fn Src.parsers.base64_to_tag_encodable)]

/-- What the names of a class body are bound to. -/
def clsDict : Cl → List (Nm × Member)
  | .EPCScheme => [(.__init__, .method Src.EPCScheme.__init__), (.__eq__, .method Src.EPCScheme.__eq__), (.from_epc_uri, .classmethod Src.EPCScheme.from_epc_uri)]
  | .TagEncodable => [(.BinaryCodingScheme, .enum []), (.BinaryHeader, .enum []), (.TAG_URI_REGEX, .const (.call (.attr (.name .re) .compile) [(.name .TAG_URI)] [])), (.TAG_URI_PREFIX, .const (.str (py "urn:epc:tag:"))), (.__init__, .method Src.TagEncodable.__init__), (.tag_uri, .method Src.TagEncodable.tag_uri), (.binary, .method Src.TagEncodable.binary), (.hex, .method Src.TagEncodable.hex), (.base64, .method Src.TagEncodable.base64), (.from_binary, .classmethod Src.TagEncodable.from_binary), (.from_hex, .classmethod Src.TagEncodable.from_hex), (.from_base64, .classmethod Src.TagEncodable.from_base64), (.from_tag_uri, .classmethod Src.TagEncodable.from_tag_uri), (.header_to_schemes, .classmethod Src.TagEncodable.header_to_schemes)]
  | .GS1Element => [(.__init__, .method Src.GS1Element.__init__), (.gs1_element_string, .method Src.GS1Element.gs1_element_string), (.from_gs1_element_string, .classmethod Src.GS1Element.from_gs1_element_string)]
  | .GS1Keyed => [(.__init__, .method Src.GS1Keyed.__init__), (.gs1_key, .method Src.GS1Keyed.gs1_key)]
  | .ADIFilterValue => [(.ALL_OTHERS, .member (py "ALL_OTHERS") (py "0")), (.ITEM_OTHER, .member (py "ITEM_OTHER") (py "1")), (.CARTON, .member (py "CARTON") (py "2")), (.RESERVED_3, .member (py "RESERVED_3") (py "3")), (.RESERVED_4, .member (py "RESERVED_4") (py "4")), (.RESERVED_5, .member (py "RESERVED_5") (py "5")), (.PALLET, .member (py "PALLET") (py "6")), (.RESERVED_7, .member (py "RESERVED_7") (py "7")), (.SEAT_CUSHIONS, .member (py "SEAT_CUSHIONS") (py "8")), (.SEAT_COVERS, .member (py "SEAT_COVERS") (py "9")), (.SEAT_BELTS, .member (py "SEAT_BELTS") (py "10")), (.GALLEY, .member (py "GALLEY") (py "11")), (.UNIT_LOAD_DEVICES, .member (py "UNIT_LOAD_DEVICES") (py "12")), (.AIRCRAFT_SECURITY_ITEMS, .member (py "AIRCRAFT_SECURITY_ITEMS") (py "13")), (.LIFE_VESTS, .member (py "LIFE_VESTS") (py "14")), (.OXYGEN_GENERATOR, .member (py "OXYGEN_GENERATOR") (py "15")), (.ENGINE_COMPONENTS, .member (py "ENGINE_COMPONENTS") (py "16")), (.AVIONICS, .member (py "AVIONICS") (py "17")), (.EXPERIMENTAL_EQUIPMENT, .member (py "EXPERIMENTAL_EQUIPMENT") (py "18")), (.OTHER_EMERGENCY_EQUIPMENT, .member (py "OTHER_EMERGENCY_EQUIPMENT") (py "19")), (.OTHER_ROTABLES, .member (py "OTHER_ROTABLES") (py "20")), (.OTHER_REPAIRABLE, .member (py "OTHER_REPAIRABLE") (py "21")), (.OTHER_CABIN_INTERIOR, .member (py "OTHER_CABIN_INTERIOR") (py "22")), (.OTHER_REPAIR, .member (py "OTHER_REPAIR") (py "23")), (.PASSENGER_SEATS, .member (py "PASSENGER_SEATS") (py "24")), (.IFE_SYSTEMS, .member (py "IFE_SYSTEMS") (py "25")), (.RESERVED_26, .member (py "RESERVED_26") (py "26")), (.RESERVED_27, .member (py "RESERVED_27") (py "27")), (.RESERVED_28, .member (py "RESERVED_28") (py "28")), (.RESERVED_29, .member (py "RESERVED_29") (py "29")), (.RESERVED_30, .member (py "RESERVED_30") (py "30")), (.RESERVED_31, .member (py "RESERVED_31") (py "31")), (.RESERVED_32, .member (py "RESERVED_32") (py "32")), (.RESERVED_33, .member (py "RESERVED_33") (py "33")), (.RESERVED_34, .member (py "RESERVED_34") (py "34")), (.RESERVED_35, .member (py "RESERVED_35") (py "35")), (.RESERVED_36, .member (py "RESERVED_36") (py "36")), (.RESERVED_37, .member (py "RESERVED_37") (py "37")), (.RESERVED_38, .member (py "RESERVED_38") (py "38")), (.RESERVED_39, .member (py "RESERVED_39") (py "39")), (.RESERVED_40, .member (py "RESERVED_40") (py "40")), (.RESERVED_41, .member (py "RESERVED_41") (py "41")), (.RESERVED_42, .member (py "RESERVED_42") (py "42")), (.RESERVED_43, .member (py "RESERVED_43") (py "43")), (.RESERVED_44, .member (py "RESERVED_44") (py "44")), (.RESERVED_45, .member (py "RESERVED_45") (py "45")), (.RESERVED_46, .member (py "RESERVED_46") (py "46")), (.RESERVED_47, .member (py "RESERVED_47") (py "47")), (.RESERVED_48, .member (py "RESERVED_48") (py "48")), (.RESERVED_49, .member (py "RESERVED_49") (py "49")), (.RESERVED_50, .member (py "RESERVED_50") (py "50")), (.RESERVED_51, .member (py "RESERVED_51") (py "51")), (.RESERVED_52, .member (py "RESERVED_52") (py "52")), (.RESERVED_53, .member (py "RESERVED_53") (py "53")), (.RESERVED_54, .member (py "RESERVED_54") (py "54")), (.RESERVED_55, .member (py "RESERVED_55") (py "55")), (.LOCATION_IDENTIFIER, .member (py "LOCATION_IDENTIFIER") (py "56")), (.DOCUMENTATION, .member (py "DOCUMENTATION") (py "57")), (.TOOLS, .member (py "TOOLS") (py "58")), (.GROUND_SUPPORT_EQUIPMENT, .member (py "GROUND_SUPPORT_EQUIPMENT") (py "59")), (.OTHER_NON_FLYABLE_EQUIPMENT, .member (py "OTHER_NON_FLYABLE_EQUIPMENT") (py "60")), (.RESERVED_61, .member (py "RESERVED_61") (py "61")), (.RESERVED_62, .member (py "RESERVED_62") (py "62")), (.RESERVED_63, .member (py "RESERVED_63") (py "63"))]
  | .ADI => [(.BinaryCodingScheme, .enum [(.ADI_VAR, (py "ADI_VAR"), (py "adi-var"))]), (.BinaryHeader, .enum [(.ADI_VAR, (py "ADI_VAR"), (py "00111011"))]), (.__init__, .method Src.ADI.__init__), (.tag_uri, .method Src.ADI.tag_uri), (.binary, .method Src.ADI.binary), (.from_binary, .classmethod Src.ADI.from_binary)]
  | .BIC => [(.__init__, .method Src.BIC.__init__)]
  | .CPIFilterValue => [(.ALL_OTHERS, .member (py "ALL_OTHERS") (py "0")), (.RESERVED_1, .member (py "RESERVED_1") (py "1")), (.RESERVED_2, .member (py "RESERVED_2") (py "2")), (.RESERVED_3, .member (py "RESERVED_3") (py "3")), (.RESERVED_4, .member (py "RESERVED_4") (py "4")), (.RESERVED_5, .member (py "RESERVED_5") (py "5")), (.RESERVED_6, .member (py "RESERVED_6") (py "6")), (.RESERVED_7, .member (py "RESERVED_7") (py "7"))]
  | .CPI => [(.BinaryCodingScheme, .enum [(.CPI_96, (py "CPI_96"), (py "cpi-96")), (.CPI_VAR, (py "CPI_VAR"), (py "cpi-var"))]), (.BinaryHeader, .enum [(.CPI_96, (py "CPI_96"), (py "00111100")), (.CPI_VAR, (py "CPI_VAR"), (py "00111101"))]), (.gs1_element_string_regex, .const (.call (.attr (.name .re) .compile) [(.name .CPI_GS1_ELEMENT_STRING)] [])), (.__init__, .method Src.CPI.__init__), (.gs1_element_string, .method Src.CPI.gs1_element_string), (.from_gs1_element_string, .classmethod Src.CPI.from_gs1_element_string), (.tag_uri, .method Src.CPI.tag_uri), (.binary, .method Src.CPI.binary), (.from_binary, .classmethod Src.CPI.from_binary)]
  | .GDTIFilterValue => [(.ALL_OTHERS, .member (py "ALL_OTHERS") (py "0")), (.TRAVEL_DOCUMENT, .member (py "TRAVEL_DOCUMENT") (py "1")), (.RESERVED_2, .member (py "RESERVED_2") (py "2")), (.RESERVED_3, .member (py "RESERVED_3") (py "3")), (.RESERVED_4, .member (py "RESERVED_4") (py "4")), (.RESERVED_5, .member (py "RESERVED_5") (py "5")), (.RESERVED_6, .member (py "RESERVED_6") (py "6")), (.RESERVED_7, .member (py "RESERVED_7") (py "7"))]
  | .GDTI => [(.BinaryCodingScheme, .enum [(.GDTI_96, (py "GDTI_96"), (py "gdti-96")), (.GDTI_174, (py "GDTI_174"), (py "gdti-174"))]), (.BinaryHeader, .enum [(.GDTI_96, (py "GDTI_96"), (py "00101100")), (.GDTI_174, (py "GDTI_174"), (py "00111110"))]), (.gs1_element_string_regex, .const (.call (.attr (.name .re) .compile) [(.name .GDTI_GS1_ELEMENT_STRING)] [])), (.__init__, .method Src.GDTI.__init__), (.gs1_key, .method Src.GDTI.gs1_key), (.gs1_element_string, .method Src.GDTI.gs1_element_string), (.from_gs1_element_string, .classmethod Src.GDTI.from_gs1_element_string), (.tag_uri, .method Src.GDTI.tag_uri), (.binary, .method Src.GDTI.binary), (.from_binary, .classmethod Src.GDTI.from_binary)]
  | .GIAIFilterValue => [(.ALL_OTHERS, .member (py "ALL_OTHERS") (py "0")), (.RAIL_VEHICLE, .member (py "RAIL_VEHICLE") (py "1")), (.RESERVED_2, .member (py "RESERVED_2") (py "2")), (.RESERVED_3, .member (py "RESERVED_3") (py "3")), (.RESERVED_4, .member (py "RESERVED_4") (py "4")), (.RESERVED_5, .member (py "RESERVED_5") (py "5")), (.RESERVED_6, .member (py "RESERVED_6") (py "6")), (.RESERVED_7, .member (py "RESERVED_7") (py "7"))]
  | .GIAI => [(.BinaryCodingScheme, .enum [(.GIAI_96, (py "GIAI_96"), (py "giai-96")), (.GIAI_202, (py "GIAI_202"), (py "giai-202"))]), (.BinaryHeader, .enum [(.GIAI_96, (py "GIAI_96"), (py "00110100")), (.GIAI_202, (py "GIAI_202"), (py "00111000"))]), (.gs1_element_string_regex, .const (.call (.attr (.name .re) .compile) [(.name .GIAI_GS1_ELEMENT_STRING)] [])), (.__init__, .method Src.GIAI.__init__), (.gs1_key, .method Src.GIAI.gs1_key), (.gs1_element_string, .method Src.GIAI.gs1_element_string), (.from_gs1_element_string, .classmethod Src.GIAI.from_gs1_element_string), (.tag_uri, .method Src.GIAI.tag_uri), (.binary, .method Src.GIAI.binary), (.from_binary, .classmethod Src.GIAI.from_binary)]
  | .GID => [(.BinaryCodingScheme, .enum [(.GID_96, (py "GID_96"), (py "gid-96"))]), (.BinaryHeader, .enum [(.GID_96, (py "GID_96"), (py "00110101"))]), (.__init__, .method Src.GID.__init__), (.tag_uri, .method Src.GID.tag_uri), (.binary, .method Src.GID.binary), (.from_tag_uri, .classmethod Src.GID.from_tag_uri), (.from_binary, .classmethod Src.GID.from_binary)]
  | .GINC => [(.gs1_element_string_regex, .const (.call (.attr (.name .re) .compile) [(.name .GINC_GS1_ELEMENT_STRING)] [])), (.__init__, .method Src.GINC.__init__), (.gs1_key, .method Src.GINC.gs1_key), (.gs1_element_string, .method Src.GINC.gs1_element_string), (.from_gs1_element_string, .classmethod Src.GINC.from_gs1_element_string)]
  | .GRAIFilterValue => [(.ALL_OTHERS, .member (py "ALL_OTHERS") (py "0")), (.RESERVED_1, .member (py "RESERVED_1") (py "1")), (.RESERVED_2, .member (py "RESERVED_2") (py "2")), (.RESERVED_3, .member (py "RESERVED_3") (py "3")), (.RESERVED_4, .member (py "RESERVED_4") (py "4")), (.RESERVED_5, .member (py "RESERVED_5") (py "5")), (.RESERVED_6, .member (py "RESERVED_6") (py "6")), (.RESERVED_7, .member (py "RESERVED_7") (py "7"))]
  | .GRAI => [(.BinaryCodingScheme, .enum [(.GRAI_96, (py "GRAI_96"), (py "grai-96")), (.GRAI_170, (py "GRAI_170"), (py "grai-170"))]), (.BinaryHeader, .enum [(.GRAI_96, (py "GRAI_96"), (py "00110011")), (.GRAI_170, (py "GRAI_170"), (py "00110111"))]), (.gs1_element_string_regex, .const (.call (.attr (.name .re) .compile) [(.name .GRAI_GS1_ELEMENT_STRING)] [])), (.__init__, .method Src.GRAI.__init__), (.gs1_key, .method Src.GRAI.gs1_key), (.gs1_element_string, .method Src.GRAI.gs1_element_string), (.from_gs1_element_string, .classmethod Src.GRAI.from_gs1_element_string), (.tag_uri, .method Src.GRAI.tag_uri), (.binary, .method Src.GRAI.binary), (.from_binary, .classmethod Src.GRAI.from_binary)]
  | .GSIN => [(.gs1_element_string_regex, .const (.call (.attr (.name .re) .compile) [(.name .GSIN_GS1_ELEMENT_STRING)] [])), (.__init__, .method Src.GSIN.__init__), (.gs1_key, .method Src.GSIN.gs1_key), (.gs1_element_string, .method Src.GSIN.gs1_element_string), (.from_gs1_element_string, .classmethod Src.GSIN.from_gs1_element_string)]
  | .GSRNFilterValue => [(.ALL_OTHERS, .member (py "ALL_OTHERS") (py "0")), (.RESERVED_1, .member (py "RESERVED_1") (py "1")), (.RESERVED_2, .member (py "RESERVED_2") (py "2")), (.RESERVED_3, .member (py "RESERVED_3") (py "3")), (.RESERVED_4, .member (py "RESERVED_4") (py "4")), (.RESERVED_5, .member (py "RESERVED_5") (py "5")), (.RESERVED_6, .member (py "RESERVED_6") (py "6")), (.RESERVED_7, .member (py "RESERVED_7") (py "7"))]
  | .GSRN => [(.BinaryCodingScheme, .enum [(.GSRN_96, (py "GSRN_96"), (py "gsrn-96"))]), (.BinaryHeader, .enum [(.GSRN_96, (py "GSRN_96"), (py "00101101"))]), (.gs1_element_string_regex, .const (.call (.attr (.name .re) .compile) [(.name .GSRN_GS1_ELEMENT_STRING)] [])), (.__init__, .method Src.GSRN.__init__), (.gs1_key, .method Src.GSRN.gs1_key), (.gs1_element_string, .method Src.GSRN.gs1_element_string), (.from_gs1_element_string, .classmethod Src.GSRN.from_gs1_element_string), (.tag_uri, .method Src.GSRN.tag_uri), (.binary, .method Src.GSRN.binary), (.from_binary, .classmethod Src.GSRN.from_binary)]
  | .GSRNPFilterValue => [(.ALL_OTHERS, .member (py "ALL_OTHERS") (py "0")), (.RESERVED_1, .member (py "RESERVED_1") (py "1")), (.RESERVED_2, .member (py "RESERVED_2") (py "2")), (.RESERVED_3, .member (py "RESERVED_3") (py "3")), (.RESERVED_4, .member (py "RESERVED_4") (py "4")), (.RESERVED_5, .member (py "RESERVED_5") (py "5")), (.RESERVED_6, .member (py "RESERVED_6") (py "6")), (.RESERVED_7, .member (py "RESERVED_7") (py "7"))]
  | .GSRNP => [(.BinaryCodingScheme, .enum [(.GSRNP_96, (py "GSRNP_96"), (py "gsrnp-96"))]), (.BinaryHeader, .enum [(.GSRNP_96, (py "GSRNP_96"), (py "00101110"))]), (.gs1_element_string_regex, .const (.call (.attr (.name .re) .compile) [(.name .GSRNP_GS1_ELEMENT_STRING)] [])), (.__init__, .method Src.GSRNP.__init__), (.gs1_key, .method Src.GSRNP.gs1_key), (.gs1_element_string, .method Src.GSRNP.gs1_element_string), (.from_gs1_element_string, .classmethod Src.GSRNP.from_gs1_element_string), (.tag_uri, .method Src.GSRNP.tag_uri), (.binary, .method Src.GSRNP.binary), (.from_binary, .classmethod Src.GSRNP.from_binary)]
  | .IMOVN => [(.__init__, .method Src.IMOVN.__init__)]
  | .ITIPFilterValue => [(.ALL_OTHERS, .member (py "ALL_OTHERS") (py "0")), (.RESERVED_1, .member (py "RESERVED_1") (py "1")), (.RESERVED_2, .member (py "RESERVED_2") (py "2")), (.RESERVED_3, .member (py "RESERVED_3") (py "3")), (.RESERVED_4, .member (py "RESERVED_4") (py "4")), (.RESERVED_5, .member (py "RESERVED_5") (py "5")), (.RESERVED_6, .member (py "RESERVED_6") (py "6")), (.RESERVED_7, .member (py "RESERVED_7") (py "7"))]
  | .ITIP => [(.BinaryCodingScheme, .enum [(.ITIP_110, (py "ITIP_110"), (py "itip-110")), (.ITIP_212, (py "ITIP_212"), (py "itip-212"))]), (.BinaryHeader, .enum [(.ITIP_110, (py "ITIP_110"), (py "01000000")), (.ITIP_212, (py "ITIP_212"), (py "01000001"))]), (.gs1_element_string_regex, .const (.call (.attr (.name .re) .compile) [(.name .ITIP_GS1_ELEMENT_STRING)] [])), (.__init__, .method Src.ITIP.__init__), (.gs1_element_string, .method Src.ITIP.gs1_element_string), (.from_gs1_element_string, .classmethod Src.ITIP.from_gs1_element_string), (.tag_uri, .method Src.ITIP.tag_uri), (.binary, .method Src.ITIP.binary), (.from_binary, .classmethod Src.ITIP.from_binary)]
  | .lgtin_GTIN_TYPE => [(.GTIN8, .const (.int 8)), (.GTIN12, .const (.int 12)), (.GTIN13, .const (.int 13)), (.GTIN14, .const (.int 14))]
  | .LGTIN => [(.gs1_element_string_regex, .const (.call (.attr (.name .re) .compile) [(.name .LGTIN_GS1_ELEMENT_STRING)] [])), (.__init__, .method Src.LGTIN.__init__), (.gs1_key, .method Src.LGTIN.gs1_key), (.gtin, .method Src.LGTIN.gtin), (.gs1_element_string, .method Src.LGTIN.gs1_element_string), (.from_gs1_element_string, .classmethod Src.LGTIN.from_gs1_element_string)]
  | .PGLN => [(.gs1_element_string_regex, .const (.call (.attr (.name .re) .compile) [(.name .PGLN_GS1_ELEMENT_STRING)] [])), (.__init__, .method Src.PGLN.__init__), (.gs1_key, .method Src.PGLN.gs1_key), (.gs1_element_string, .method Src.PGLN.gs1_element_string), (.from_gs1_element_string, .classmethod Src.PGLN.from_gs1_element_string)]
  | .SGCNFilterValue => [(.ALL_OTHERS, .member (py "ALL_OTHERS") (py "0")), (.RESERVED_1, .member (py "RESERVED_1") (py "1")), (.RESERVED_2, .member (py "RESERVED_2") (py "2")), (.RESERVED_3, .member (py "RESERVED_3") (py "3")), (.RESERVED_4, .member (py "RESERVED_4") (py "4")), (.RESERVED_5, .member (py "RESERVED_5") (py "5")), (.RESERVED_6, .member (py "RESERVED_6") (py "6")), (.RESERVED_7, .member (py "RESERVED_7") (py "7"))]
  | .SGCN => [(.BinaryCodingScheme, .enum [(.SGCN_96, (py "SGCN_96"), (py "sgcn-96"))]), (.BinaryHeader, .enum [(.SGCN_96, (py "SGCN_96"), (py "00111111"))]), (.gs1_element_string_regex, .const (.call (.attr (.name .re) .compile) [(.name .SGCN_GS1_ELEMENT_STRING)] [])), (.__init__, .method Src.SGCN.__init__), (.gs1_key, .method Src.SGCN.gs1_key), (.gs1_element_string, .method Src.SGCN.gs1_element_string), (.from_gs1_element_string, .classmethod Src.SGCN.from_gs1_element_string), (.tag_uri, .method Src.SGCN.tag_uri), (.binary, .method Src.SGCN.binary), (.from_binary, .classmethod Src.SGCN.from_binary)]
  | .SGLNFilterValue => [(.ALL_OTHERS, .member (py "ALL_OTHERS") (py "0")), (.RESERVED_1, .member (py "RESERVED_1") (py "1")), (.RESERVED_2, .member (py "RESERVED_2") (py "2")), (.RESERVED_3, .member (py "RESERVED_3") (py "3")), (.RESERVED_4, .member (py "RESERVED_4") (py "4")), (.RESERVED_5, .member (py "RESERVED_5") (py "5")), (.RESERVED_6, .member (py "RESERVED_6") (py "6")), (.RESERVED_7, .member (py "RESERVED_7") (py "7"))]
  | .SGLN => [(.BinaryCodingScheme, .enum [(.SGLN_96, (py "SGLN_96"), (py "sgln-96")), (.SGLN_195, (py "SGLN_195"), (py "sgln-195"))]), (.BinaryHeader, .enum [(.SGLN_96, (py "SGLN_96"), (py "00110010")), (.SGLN_195, (py "SGLN_195"), (py "00111001"))]), (.gs1_element_string_regex, .const (.call (.attr (.name .re) .compile) [(.name .SGLN_GS1_ELEMENT_STRING)] [])), (.__init__, .method Src.SGLN.__init__), (.gs1_key, .method Src.SGLN.gs1_key), (.gs1_element_string, .method Src.SGLN.gs1_element_string), (.from_gs1_element_string, .classmethod Src.SGLN.from_gs1_element_string), (.tag_uri, .method Src.SGLN.tag_uri), (.binary, .method Src.SGLN.binary), (.from_binary, .classmethod Src.SGLN.from_binary)]
  | .SGTINFilterValue => [(.ALL_OTHERS, .member (py "ALL_OTHERS") (py "0")), (.POS_ITEM, .member (py "POS_ITEM") (py "1")), (.FULL_CASE, .member (py "FULL_CASE") (py "2")), (.RESERVED_3, .member (py "RESERVED_3") (py "3")), (.INNER_PACK, .member (py "INNER_PACK") (py "4")), (.RESERVED_5, .member (py "RESERVED_5") (py "5")), (.UNIT_LOAD, .member (py "UNIT_LOAD") (py "6")), (.COMPONENT, .member (py "COMPONENT") (py "7"))]
  | .sgtin_GTIN_TYPE => [(.GTIN8, .const (.int 8)), (.GTIN12, .const (.int 12)), (.GTIN13, .const (.int 13)), (.GTIN14, .const (.int 14))]
  | .SGTIN => [(.BinaryCodingScheme, .enum [(.SGTIN_96, (py "SGTIN_96"), (py "sgtin-96")), (.SGTIN_198, (py "SGTIN_198"), (py "sgtin-198"))]), (.BinaryHeader, .enum [(.SGTIN_96, (py "SGTIN_96"), (py "00110000")), (.SGTIN_198, (py "SGTIN_198"), (py "00110110"))]), (.gs1_element_string_regex, .const (.call (.attr (.name .re) .compile) [(.name .SGTIN_GS1_ELEMENT_STRING)] [])), (.__init__, .method Src.SGTIN.__init__), (.from_gtin_plus_serial, .classmethod Src.SGTIN.from_gtin_plus_serial), (.gs1_key, .method Src.SGTIN.gs1_key), (.gtin, .method Src.SGTIN.gtin), (.gs1_element_string, .method Src.SGTIN.gs1_element_string), (.from_gs1_element_string, .classmethod Src.SGTIN.from_gs1_element_string), (.tag_uri, .method Src.SGTIN.tag_uri), (.binary, .method Src.SGTIN.binary), (.from_binary, .classmethod Src.SGTIN.from_binary)]
  | .SSCCFilterValue => [(.ALL_OTHERS, .member (py "ALL_OTHERS") (py "0")), (.RESERVED_1, .member (py "RESERVED_1") (py "1")), (.FULL_CASE, .member (py "FULL_CASE") (py "2")), (.RESERVED_3, .member (py "RESERVED_3") (py "3")), (.RESERVED_4, .member (py "RESERVED_4") (py "4")), (.RESERVED_5, .member (py "RESERVED_5") (py "5")), (.UNIT_LOAD, .member (py "UNIT_LOAD") (py "6")), (.RESERVED_7, .member (py "RESERVED_7") (py "7"))]
  | .SSCC => [(.BinaryCodingScheme, .enum [(.SSCC_96, (py "SSCC_96"), (py "sscc-96"))]), (.BinaryHeader, .enum [(.SSCC_96, (py "SSCC_96"), (py "00110001"))]), (.gs1_element_string_regex, .const (.call (.attr (.name .re) .compile) [(.name .SSCC_GS1_ELEMENT_STRING)] [])), (.__init__, .method Src.SSCC.__init__), (.gs1_key, .method Src.SSCC.gs1_key), (.gs1_element_string, .method Src.SSCC.gs1_element_string), (.from_gs1_element_string, .classmethod Src.SSCC.from_gs1_element_string), (.tag_uri, .method Src.SSCC.tag_uri), (.binary, .method Src.SSCC.binary), (.from_binary, .classmethod Src.SSCC.from_binary)]
  | .UPUI => [(.gs1_element_string_regex, .const (.call (.attr (.name .re) .compile) [(.name .UPUI_GS1_ELEMENT_STRING)] [])), (.__init__, .method Src.UPUI.__init__), (.gs1_element_string, .method Src.UPUI.gs1_element_string), (.from_gs1_element_string, .classmethod Src.UPUI.from_gs1_element_string)]
  | .USDODFilterValue => [(.PALLET, .member (py "PALLET") (py "0")), (.CASE, .member (py "CASE") (py "1")), (.UNIT_PACK, .member (py "UNIT_PACK") (py "2")), (.RESERVED_3, .member (py "RESERVED_3") (py "3")), (.RESERVED_4, .member (py "RESERVED_4") (py "4")), (.RESERVED_5, .member (py "RESERVED_5") (py "5")), (.RESERVED_6, .member (py "RESERVED_6") (py "6")), (.RESERVED_7, .member (py "RESERVED_7") (py "7")), (.RESERVED_8, .member (py "RESERVED_8") (py "8")), (.RESERVED_9, .member (py "RESERVED_9") (py "9")), (.RESERVED_10, .member (py "RESERVED_10") (py "10")), (.RESERVED_11, .member (py "RESERVED_11") (py "11")), (.RESERVED_12, .member (py "RESERVED_12") (py "12")), (.RESERVED_13, .member (py "RESERVED_13") (py "13")), (.RESERVED_14, .member (py "RESERVED_14") (py "14")), (.RESERVED_15, .member (py "RESERVED_15") (py "15"))]
  | .USDOD => [(.BinaryCodingScheme, .enum [(.USDOD_96, (py "USDOD_96"), (py "usdod-96"))]), (.BinaryHeader, .enum [(.USDOD_96, (py "USDOD_96"), (py "00101111"))]), (.__init__, .method Src.USDOD.__init__), (.tag_uri, .method Src.USDOD.tag_uri), (.binary, .method Src.USDOD.binary), (.from_binary, .classmethod Src.USDOD.from_binary)]
  | .ConvertException => []

/-- The base classes in the class statement (`object` left out). -/
def clsBases : Cl → List Cl
  | .TagEncodable => [.EPCScheme]
  | .GS1Element => [.EPCScheme]
  | .GS1Keyed => [.GS1Element]
  | .ADI => [.TagEncodable]
  | .BIC => [.EPCScheme]
  | .CPI => [.GS1Element, .TagEncodable]
  | .GDTI => [.TagEncodable, .GS1Keyed]
  | .GIAI => [.TagEncodable, .GS1Keyed]
  | .GID => [.TagEncodable]
  | .GINC => [.GS1Keyed]
  | .GRAI => [.TagEncodable, .GS1Keyed]
  | .GSIN => [.GS1Keyed]
  | .GSRN => [.TagEncodable, .GS1Keyed]
  | .GSRNP => [.TagEncodable, .GS1Keyed]
  | .IMOVN => [.EPCScheme]
  | .ITIP => [.GS1Element, .TagEncodable]
  | .LGTIN => [.GS1Keyed]
  | .PGLN => [.GS1Keyed]
  | .SGCN => [.TagEncodable, .GS1Keyed]
  | .SGLN => [.TagEncodable, .GS1Keyed]
  | .SGTIN => [.TagEncodable, .GS1Keyed]
  | .SSCC => [.TagEncodable, .GS1Keyed]
  | .UPUI => [.GS1Element]
  | .USDOD => [.TagEncodable]
  | _ => []

/-- The module of a class. -/
def clsMod : Cl → Mod
  | .EPCScheme => .base_scheme
  | .TagEncodable => .base_scheme
  | .GS1Element => .base_scheme
  | .GS1Keyed => .base_scheme
  | .ADIFilterValue => .adi
  | .ADI => .adi
  | .BIC => .bic
  | .CPIFilterValue => .cpi
  | .CPI => .cpi
  | .GDTIFilterValue => .gdti
  | .GDTI => .gdti
  | .GIAIFilterValue => .giai
  | .GIAI => .giai
  | .GID => .gid
  | .GINC => .ginc
  | .GRAIFilterValue => .grai
  | .GRAI => .grai
  | .GSIN => .gsin
  | .GSRNFilterValue => .gsrn
  | .GSRN => .gsrn
  | .GSRNPFilterValue => .gsrnp
  | .GSRNP => .gsrnp
  | .IMOVN => .imovn
  | .ITIPFilterValue => .itip
  | .ITIP => .itip
  | .lgtin_GTIN_TYPE => .lgtin
  | .LGTIN => .lgtin
  | .PGLN => .pgln
  | .SGCNFilterValue => .sgcn
  | .SGCN => .sgcn
  | .SGLNFilterValue => .sgln
  | .SGLN => .sgln
  | .SGTINFilterValue => .sgtin
  | .sgtin_GTIN_TYPE => .sgtin
  | .SGTIN => .sgtin
  | .SSCCFilterValue => .sscc
  | .SSCC => .sscc
  | .UPUI => .upui
  | .USDODFilterValue => .usdod
  | .USDOD => .usdod
  | .ConvertException => .common

/-- `cls.__name__`. -/
def clsName : Cl → Str
  | .EPCScheme => py "EPCScheme"
  | .TagEncodable => py "TagEncodable"
  | .GS1Element => py "GS1Element"
  | .GS1Keyed => py "GS1Keyed"
  | .ADIFilterValue => py "ADIFilterValue"
  | .ADI => py "ADI"
  | .BIC => py "BIC"
  | .CPIFilterValue => py "CPIFilterValue"
  | .CPI => py "CPI"
  | .GDTIFilterValue => py "GDTIFilterValue"
  | .GDTI => py "GDTI"
  | .GIAIFilterValue => py "GIAIFilterValue"
  | .GIAI => py "GIAI"
  | .GID => py "GID"
  | .GINC => py "GINC"
  | .GRAIFilterValue => py "GRAIFilterValue"
  | .GRAI => py "GRAI"
  | .GSIN => py "GSIN"
  | .GSRNFilterValue => py "GSRNFilterValue"
  | .GSRN => py "GSRN"
  | .GSRNPFilterValue => py "GSRNPFilterValue"
  | .GSRNP => py "GSRNP"
  | .IMOVN => py "IMOVN"
  | .ITIPFilterValue => py "ITIPFilterValue"
  | .ITIP => py "ITIP"
  | .lgtin_GTIN_TYPE => py "lgtin_GTIN_TYPE"
  | .LGTIN => py "LGTIN"
  | .PGLN => py "PGLN"
  | .SGCNFilterValue => py "SGCNFilterValue"
  | .SGCN => py "SGCN"
  | .SGLNFilterValue => py "SGLNFilterValue"
  | .SGLN => py "SGLN"
  | .SGTINFilterValue => py "SGTINFilterValue"
  | .sgtin_GTIN_TYPE => py "sgtin_GTIN_TYPE"
  | .SGTIN => py "SGTIN"
  | .SSCCFilterValue => py "SSCCFilterValue"
  | .SSCC => py "SSCC"
  | .UPUI => py "UPUI"
  | .USDODFilterValue => py "USDODFilterValue"
  | .USDOD => py "USDOD"
  | .ConvertException => py "ConvertException"

end Epc.Src
