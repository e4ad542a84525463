/-
Names of the source: identifiers, modules and classes.
Generated by tools/gen_src.py from the syntax trees of /repo/epcpy.
-/

namespace Epc.Src

/-- The identifiers that occur in the source. -/
inductive Nm where
  | ADI
  | ADIFilterValue
  | ADI_URI
  | ADI_URI_REGEX
  | ADI_VAR
  | AIRCRAFT_SECURITY_ITEMS
  | ALL_OTHERS
  | AVIONICS
  | BIC
  | BIC_URI
  | BIC_URI_REGEX
  | BinaryCodingScheme
  | BinaryHeader
  | C
  | CARTON
  | CASE
  | COMPONENT
  | CPI
  | CPIFilterValue
  | CPI_96
  | CPI_GS1_ELEMENT_STRING
  | CPI_URI
  | CPI_URI_REGEX
  | CPI_VAR
  | C_bin
  | ConvertException
  | D
  | DOCUMENTATION
  | D_bin
  | ENGINE_COMPONENTS
  | EPCScheme
  | EPC_SCHEMES
  | EPC_SCHEME_IDENTIFIERS
  | EPC_URI
  | EPC_URI_REGEX
  | ESCAPE_CHARACTERS
  | EXPERIMENTAL_EQUIPMENT
  | FULL_CASE
  | GALLEY
  | GDTI
  | GDTIFilterValue
  | GDTI_174
  | GDTI_96
  | GDTI_GS1_ELEMENT_STRING
  | GDTI_URI
  | GDTI_URI_REGEX
  | GIAI
  | GIAIFilterValue
  | GIAI_202
  | GIAI_96
  | GIAI_GS1_ELEMENT_STRING
  | GIAI_URI
  | GIAI_URI_REGEX
  | GID
  | GID_96
  | GID_URI
  | GID_URI_REGEX
  | GINC
  | GINC_GS1_ELEMENT_STRING
  | GINC_URI
  | GINC_URI_REGEX
  | GRAI
  | GRAIFilterValue
  | GRAI_170
  | GRAI_96
  | GRAI_GS1_ELEMENT_STRING
  | GRAI_URI
  | GRAI_URI_REGEX
  | GROUND_SUPPORT_EQUIPMENT
  | GS1Element
  | GS1Keyed
  | GS1_ELEMENT_STRING
  | GS1_ELEMENT_STRING_REGEX
  | GS1_ELEMENT_STRING_REGEX_TO_SCHEME
  | GS1_KEYED_CLASSES
  | GS1_KEYED_SCHEME_IDENTIFIERS
  | GSIN
  | GSIN_GS1_ELEMENT_STRING
  | GSIN_URI
  | GSIN_URI_REGEX
  | GSRN
  | GSRNFilterValue
  | GSRNP
  | GSRNPFilterValue
  | GSRNP_96
  | GSRNP_GS1_ELEMENT_STRING
  | GSRNP_URI
  | GSRNP_URI_REGEX
  | GSRN_96
  | GSRN_GS1_ELEMENT_STRING
  | GSRN_URI
  | GSRN_URI_REGEX
  | GTIN12
  | GTIN13
  | GTIN14
  | GTIN8
  | GTIN_TYPE
  | IDPAT_URI
  | IDPAT_URI_REGEX
  | IFE_SYSTEMS
  | IMOVN
  | IMOVN_URI
  | IMOVN_URI_REGEX
  | IMPLICIT
  | INNER_PACK
  | ITEM_OTHER
  | ITIP
  | ITIPFilterValue
  | ITIP_110
  | ITIP_212
  | ITIP_GS1_ELEMENT_STRING
  | ITIP_URI
  | ITIP_URI_REGEX
  | LGTIN
  | LGTIN_CLASS
  | LGTIN_CLASS_REGEX
  | LGTIN_GS1_ELEMENT_STRING
  | LIFE_VESTS
  | LOCATION_IDENTIFIER
  | NotImplementedError
  | ONE_ESCAPE_ALLOWED_SCHEMES
  | OTHER_CABIN_INTERIOR
  | OTHER_EMERGENCY_EQUIPMENT
  | OTHER_NON_FLYABLE_EQUIPMENT
  | OTHER_REPAIR
  | OTHER_REPAIRABLE
  | OTHER_ROTABLES
  | OXYGEN_GENERATOR
  | PALLET
  | PARTITION_TABLE_L
  | PARTITION_TABLE_L_202
  | PARTITION_TABLE_L_96
  | PARTITION_TABLE_L_VAR
  | PARTITION_TABLE_P
  | PARTITION_TABLE_P_202
  | PARTITION_TABLE_P_96
  | PARTITION_TABLE_P_VAR
  | PASSENGER_SEATS
  | PGLN
  | PGLN_GS1_ELEMENT_STRING
  | PGLN_URI
  | PGLN_URI_REGEX
  | POS_ITEM
  | P_bin
  | RAIL_VEHICLE
  | RESERVED_1
  | RESERVED_10
  | RESERVED_11
  | RESERVED_12
  | RESERVED_13
  | RESERVED_14
  | RESERVED_15
  | RESERVED_2
  | RESERVED_26
  | RESERVED_27
  | RESERVED_28
  | RESERVED_29
  | RESERVED_3
  | RESERVED_30
  | RESERVED_31
  | RESERVED_32
  | RESERVED_33
  | RESERVED_34
  | RESERVED_35
  | RESERVED_36
  | RESERVED_37
  | RESERVED_38
  | RESERVED_39
  | RESERVED_4
  | RESERVED_40
  | RESERVED_41
  | RESERVED_42
  | RESERVED_43
  | RESERVED_44
  | RESERVED_45
  | RESERVED_46
  | RESERVED_47
  | RESERVED_48
  | RESERVED_49
  | RESERVED_5
  | RESERVED_50
  | RESERVED_51
  | RESERVED_52
  | RESERVED_53
  | RESERVED_54
  | RESERVED_55
  | RESERVED_6
  | RESERVED_61
  | RESERVED_62
  | RESERVED_63
  | RESERVED_7
  | RESERVED_8
  | RESERVED_9
  | SEAT_BELTS
  | SEAT_COVERS
  | SEAT_CUSHIONS
  | SGCN
  | SGCNFilterValue
  | SGCN_96
  | SGCN_GS1_ELEMENT_STRING
  | SGCN_URI
  | SGCN_URI_REGEX
  | SGLN
  | SGLNFilterValue
  | SGLN_195
  | SGLN_96
  | SGLN_GS1_ELEMENT_STRING
  | SGLN_URI
  | SGLN_URI_REGEX
  | SGTIN
  | SGTINFilterValue
  | SGTIN_198
  | SGTIN_96
  | SGTIN_GS1_ELEMENT_STRING
  | SGTIN_REGEX
  | SGTIN_URI
  | SSCC
  | SSCCFilterValue
  | SSCC_96
  | SSCC_GS1_ELEMENT_STRING
  | SSCC_URI
  | SSCC_URI_REGEX
  | TAG_ENCODABLE_BINARY_HEADERS
  | TAG_ENCODABLE_CLASSES
  | TAG_ENCODABLE_HEX_HEADERS
  | TAG_ENCODABLE_SCHEME_IDENTIFIERS
  | TAG_URI
  | TAG_URI_PREFIX
  | TAG_URI_REGEX
  | TOOLS
  | TRAVEL_DOCUMENT
  | TagEncodable
  | UNIT_LOAD
  | UNIT_LOAD_DEVICES
  | UNIT_PACK
  | UPUI
  | UPUI_GS1_ELEMENT_STRING
  | UPUI_URI
  | UPUI_URI_REGEX
  | USDOD
  | USDODFilterValue
  | USDOD_96
  | USDOD_URI
  | USDOD_URI_REGEX
  | VERIFY_GS3A3_CHARS
  | VERIFY_GS3A3_CHARS_REGEX
  | us
  | __eq__
  | __init__
  | __name__
  | _asset_ref
  | _asset_type
  | _base64
  | _binary
  | _cage_dodaac
  | _check_digit
  | _company_pref
  | _company_prefix
  | _container_code
  | _coupon_ref
  | _cp_ref
  | _doc_type
  | _equipment_category_identifier
  | _gcn
  | _gdti
  | _giai
  | _ginc
  | _gln
  | _grai
  | _gsin
  | _gsrn
  | _gsrnp
  | _gtin
  | _hex
  | _idpat_to_gs1_keyed_scheme
  | _item_ref
  | _location_ref
  | _lot
  | _manager
  | _object
  | _owner_code
  | _part_number
  | _party_ref
  | _pgln
  | _piece
  | _serial
  | _service_ref
  | _shipper_ref
  | _sscc
  | _tag_uri
  | _total
  | _tpx
  | _vessel_number
  | args
  | asset_reference
  | b64decode
  | b64encode
  | base64
  | base64_string
  | base64_to_hex
  | base64_to_tag_encodable
  | binary
  | binary_coding_scheme
  | binary_header
  | binary_string
  | binary_to_hex
  | binary_to_int
  | binary_to_tag_encodable
  | bit_count
  | bytes
  | cage_code_binary
  | cage_code_string
  | calculate_checksum
  | char
  | chars
  | check_digit
  | checksum
  | chr
  | cls
  | company_prefix
  | company_prefix_length
  | compare_D
  | compile
  | consignment_reference
  | consignment_reference_components
  | container_code
  | cp_ref
  | cpi
  | cpi_binary
  | cpi_string
  | d
  | decode
  | decode_binary_char
  | decode_cage_code
  | decode_cage_code_six_bits
  | decode_fixed_width_integer
  | decode_numeric_string
  | decode_partition_table
  | decode_string
  | decode_string_six_bits
  | digit_list
  | digits
  | dummy_uri
  | encode_cage_code
  | encode_cage_code_six_bits
  | encode_fixed_width_integer
  | encode_numeric_string
  | encode_partition_table
  | encode_string
  | encode_string_six_bits
  | epc_class
  | epc_pure_identity_to_gs1_element
  | epc_pure_identity_to_gs1_element_string
  | epc_pure_identity_to_gs1_key
  | epc_pure_identity_to_gs1_keyed
  | epc_pure_identity_to_scheme
  | epc_pure_identity_to_tag_encodable
  | epc_pure_identity_uri
  | epc_scheme
  | epc_tag_uri
  | epc_uri
  | even
  | extension
  | filter_binary
  | filter_string
  | filter_val
  | filter_value
  | findall
  | from_base64
  | from_binary
  | from_epc_uri
  | from_gs1_element_string
  | from_gtin_plus_serial
  | from_hex
  | from_tag_uri
  | fromhex
  | fullmatch
  | g
  | gdti_binary
  | gdti_string
  | get_gs1_key
  | giai_binary
  | giai_string
  | gln_binary
  | gln_string
  | grai_binary
  | grai_string
  | gs1_element_string
  | gs1_element_string_regex
  | gs1_element_string_to_gs1_element
  | gs1_key
  | gs3a3_component
  | gsrn_binary
  | gsrn_string
  | gsrnp_binary
  | gsrnp_string
  | gtin
  | gtin_binary
  | gtin_string
  | gtin_type
  | h
  | header
  | header_to_schemes
  | hex
  | hex_string
  | hex_to_base64
  | hex_to_binary
  | hex_to_tag_encodable
  | identifier
  | idpat
  | includes_filter
  | indicator
  | int
  | int_to_binary
  | integer
  | is_serial
  | isinstance
  | isnumeric
  | issubclass
  | items
  | join
  | keys
  | kwargs
  | len
  | list
  | log
  | lot
  | lower
  | manager_binary
  | manager_string
  | map
  | «match»
  | max_chars
  | message
  | name
  | num_bits
  | object_binary
  | object_string
  | odd
  | ord
  | other
  | padded_binary
  | padding
  | parse_header_and_truncate_binary
  | part_number_binary
  | part_number_string
  | partition
  | partition_table
  | parts
  | piece_binary
  | piece_string
  | possible_serial_binary
  | pow
  | re
  | regex
  | replace
  | replace_cpi_escapes
  | replace_uri_escapes
  | res
  | revert_cpi_escapes
  | revert_uri_escapes
  | s
  | scheme
  | self
  | serial
  | serial_binary
  | serial_binary_trimmed
  | serial_digits
  | serial_string
  | sgcn_binary
  | sgcn_string
  | six_bit_variable_partition
  | size
  | source
  | split
  | sscc_binary
  | sscc_string
  | startswith
  | str
  | str_to_binary
  | string
  | string_partition
  | sub
  | sum
  | super
  | tag_base64_string
  | tag_binary_string
  | tag_hex_string
  | tag_uri
  | tag_uri_to_tag_encodable
  | total_binary
  | total_string
  | tpx
  | tpx_components
  | truncated_binary
  | unpadded_partition
  | upper
  | uri
  | val1
  | val2
  | value
  | verify_gs3a3_component
  | zfill
  deriving DecidableEq

/-- The modules. -/
inductive Mod where
  | common
  | base_scheme
  | adi
  | bic
  | cpi
  | gdti
  | giai
  | gid
  | ginc
  | grai
  | gsin
  | gsrn
  | gsrnp
  | imovn
  | itip
  | lgtin
  | pgln
  | sgcn
  | sgln
  | sgtin
  | sscc
  | upui
  | usdod
  | parsers
  deriving DecidableEq

/-- The classes defined at module level. -/
inductive Cl where
  | EPCScheme
  | TagEncodable
  | GS1Element
  | GS1Keyed
  | ADIFilterValue
  | ADI
  | BIC
  | CPIFilterValue
  | CPI
  | GDTIFilterValue
  | GDTI
  | GIAIFilterValue
  | GIAI
  | GID
  | GINC
  | GRAIFilterValue
  | GRAI
  | GSIN
  | GSRNFilterValue
  | GSRN
  | GSRNPFilterValue
  | GSRNP
  | IMOVN
  | ITIPFilterValue
  | ITIP
  | lgtin_GTIN_TYPE
  | LGTIN
  | PGLN
  | SGCNFilterValue
  | SGCN
  | SGLNFilterValue
  | SGLN
  | SGTINFilterValue
  | sgtin_GTIN_TYPE
  | SGTIN
  | SSCCFilterValue
  | SSCC
  | UPUI
  | USDODFilterValue
  | USDOD
  | ConvertException
  deriving DecidableEq

end Epc.Src
