/-
The source of /repo/epcpy/utils/common.py.
Generated by tools/gen_src.py from the syntax trees of /repo/epcpy.
-/
import Verif.Src.Syntax

namespace Epc.Src

/-- `ESCAPE_CHARACTERS`.  /repo/epcpy/utils/common.py:9-17 -/
def common.ESCAPE_CHARACTERS : Expr :=
  (.dict [((.str (py "0100010")), (.str (py "%22"))), ((.str (py "0100101")), (.str (py "%25"))), ((.str (py "0100110")), (.str (py "%26"))), ((.str (py "0101111")), (.str (py "%2F"))), ((.str (py "0111100")), (.str (py "%3C"))), ((.str (py "0111110")), (.str (py "%3E"))), ((.str (py "0111111")), (.str (py "%3F")))])

/-- `VERIFY_GS3A3_CHARS_REGEX`.  /repo/epcpy/utils/common.py:20-20 -/
def common.VERIFY_GS3A3_CHARS_REGEX : Expr :=
  (.call (.attr (.name .re) .compile) [(.name .VERIFY_GS3A3_CHARS)] [])

/-- `common.replace_uri_escapes`.  /repo/epcpy/utils/common.py:31-48 -/
def common.replace_uri_escapes : FunDef :=
  ⟨.common, none, [⟨.uri, none⟩], none, none,
    [.ret (.call (.attr (.call (.attr (.call (.attr (.call (.attr (.call (.attr (.call (.attr (.call (.attr (.name .uri) .replace) [(.str (py "%22")), (.str (py "\""))] []) .replace) [(.str (py "%26")), (.str (py "&"))] []) .replace) [(.str (py "%2F")), (.str (py "/"))] []) .replace) [(.str (py "%3C")), (.str (py "<"))] []) .replace) [(.str (py "%3E")), (.str (py ">"))] []) .replace) [(.str (py "%3F")), (.str (py "?"))] []) .replace) [(.str (py "%25")), (.str (py "%"))] [])]⟩

/-- `common.revert_uri_escapes`.  /repo/epcpy/utils/common.py:51-68 -/
def common.revert_uri_escapes : FunDef :=
  ⟨.common, none, [⟨.uri, none⟩], none, none,
    [.ret (.call (.attr (.call (.attr (.call (.attr (.call (.attr (.call (.attr (.call (.attr (.call (.attr (.name .uri) .replace) [(.str (py "%")), (.str (py "%25"))] []) .replace) [(.str (py "\"")), (.str (py "%22"))] []) .replace) [(.str (py "&")), (.str (py "%26"))] []) .replace) [(.str (py "/")), (.str (py "%2F"))] []) .replace) [(.str (py "<")), (.str (py "%3C"))] []) .replace) [(.str (py ">")), (.str (py "%3E"))] []) .replace) [(.str (py "?")), (.str (py "%3F"))] [])]⟩

/-- `common.int_to_binary`.  /repo/epcpy/utils/common.py:71-81 -/
def common.int_to_binary : FunDef :=
  ⟨.common, none, [⟨.integer, none⟩, ⟨.num_bits, none⟩], none, none,
    [.ret (.fmt (.name .integer) (.cat (.str (py "0")) (.cat (.fmt (.name .num_bits) (.str [])) (.str (py "b")))))]⟩

/-- `common.binary_to_int`.  /repo/epcpy/utils/common.py:84-93 -/
def common.binary_to_int : FunDef :=
  ⟨.common, none, [⟨.binary, none⟩], none, none,
    [.ret (.call (.name .int) [(.name .binary), (.int 2)] [])]⟩

/-- `common.str_to_binary`.  /repo/epcpy/utils/common.py:96-106 -/
def common.str_to_binary : FunDef :=
  ⟨.common, none, [⟨.string, none⟩, ⟨.num_bits, none⟩], none, none,
    [.ret (.call (.name .int_to_binary) [(.call (.name .int) [(.name .string)] []), (.name .num_bits)] [])]⟩

/-- `common.base64_to_hex`.  /repo/epcpy/utils/common.py:109-119 -/
def common.base64_to_hex : FunDef :=
  ⟨.common, none, [⟨.base64_string, none⟩], none, none,
    [.ret (.call (.attr (.call (.attr (.name .base64) .b64decode) [(.cat (.fmt (.name .base64_string) (.str [])) (.str (py "==")))] []) .hex) [] [])]⟩

/-- `common.hex_to_base64`.  /repo/epcpy/utils/common.py:122-131 -/
def common.hex_to_base64 : FunDef :=
  ⟨.common, none, [⟨.hex_string, none⟩], none, none,
    [.ret (.call (.attr (.call (.attr (.name .base64) .b64encode) [(.call (.attr (.name .bytes) .fromhex) [(.name .hex_string)] [])] []) .decode) [(.str (py "utf-8"))] [])]⟩

/-- `common.hex_to_binary`.  /repo/epcpy/utils/common.py:134-143 -/
def common.hex_to_binary : FunDef :=
  ⟨.common, none, [⟨.hex_string, none⟩], none, none,
    [.ret (.fmt (.call (.name .int) [(.name .hex_string), (.int 16)] []) (.cat (.str (py "0")) (.cat (.fmt (.call (.name .len) [(.bin .mul (.name .hex_string) (.int 4))] []) (.str [])) (.str (py "b")))))]⟩

/-- `common.binary_to_hex`.  /repo/epcpy/utils/common.py:146-156 -/
def common.binary_to_hex : FunDef :=
  ⟨.common, none, [⟨.binary_string, none⟩], none, none,
    [.ret (.call (.attr (.fmt (.call (.name .int) [(.name .binary_string), (.int 2)] []) (.str (py "x"))) .upper) [] [])]⟩

/-- The element of a comprehension of `common.encode_string`. -/
def common.encode_string.elt1 : Expr :=
  (.call (.name .str_to_binary) [(.call (.name .str) [(.call (.name .ord) [(.name .s)] [])] []), (.int 7)] [])

/-- The body of a loop of `common.encode_string`. -/
def common.encode_string.loop1 : List Stmt :=
  [.ite (.cmp .eq (.call (.name .len) [(.name .g)] []) (.int 0)) [.cont] [.ite (.cmp .ne (.item (.name .g) (.int 0)) (.str (py "%"))) [.aug .res (.call (.attr (.str (py "")) .join) [(.map common.encode_string.elt1 .s (.name .g))] [])] [.aug .res (.call (.name .str_to_binary) [(.call (.name .str) [(.call (.name .int) [(.slice (.name .g) (.int 1) .none .none), (.int 16)] [])] []), (.int 7)] [])]]]

/-- `common.encode_string`.  /repo/epcpy/utils/common.py:159-177 -/
def common.encode_string : FunDef :=
  ⟨.common, none, [⟨.string, none⟩, ⟨.num_bits, none⟩], none, none,
    [.assign (.var .res) (.str (py "")),
     .for_ .g (.call (.attr (.name .re) .split) [(.str (py "(%[0-9a-fA-F]{2})")), (.name .string)] []) common.encode_string.loop1,
     .ret (.fmt (.name .res) (.cat (.str (py "<0")) (.fmt (.name .num_bits) (.str []))))]⟩

/-- The body of a loop of `common.decode_string_six_bits`. -/
def common.decode_string_six_bits.loop1 : List Stmt :=
  [.ite (.cmp .eq (.name .g) (.str (py "000000"))) [.brk] [], .ite (.cmp .lt (.call (.name .len) [(.name .g)] []) (.int 6)) [.cont] [.ite (.or (.call (.attr (.name .g) .startswith) [(.str (py "10"))] []) (.call (.attr (.name .g) .startswith) [(.str (py "11"))] [])) [.aug .res (.call (.name .chr) [(.call (.name .int) [(.name .g), (.int 2)] [])] [])] [.aug .res (.call (.name .chr) [(.bin .add (.int 64) (.call (.name .int) [(.name .g), (.int 2)] []))] [])]]]

/-- `common.decode_string_six_bits`.  /repo/epcpy/utils/common.py:180-207 -/
def common.decode_string_six_bits : FunDef :=
  ⟨.common, none, [⟨.binary, none⟩, ⟨.max_chars, none⟩], none, none,
    [.assign (.var .res) (.str (py "")),
     .for_ .g (.call (.attr (.name .re) .split) [(.str (py "([0-1]{6})")), (.name .binary)] []) common.decode_string_six_bits.loop1,
     .ite (.cmp .gt (.call (.name .len) [(.name .res)] []) (.name .max_chars)) [.raise (.call (.name .ConvertException) [] [(.message, (.str (py "Too many characters decoded!")))])] [],
     .ret (.call (.attr (.call (.attr (.name .res) .replace) [(.str (py "#")), (.str (py "%23"))] []) .replace) [(.str (py "/")), (.str (py "%2F"))] [])]⟩

/-- The element of a comprehension of `common.encode_string_six_bits`. -/
def common.encode_string_six_bits.elt1 : Expr :=
  (.ite (.call (.attr (.name .s) .isnumeric) [] []) (.cat (.str (py "11")) (.fmt (.call (.name .int) [(.name .s)] []) (.str (py "04b")))) (.fmt (.call (.name .int) [(.bin .sub (.call (.name .ord) [(.name .s)] []) (.int 64))] []) (.str (py "06b"))))

/-- The body of a loop of `common.encode_string_six_bits`. -/
def common.encode_string_six_bits.loop1 : List Stmt :=
  [.ite (.cmp .eq (.call (.name .len) [(.name .g)] []) (.int 0)) [.cont] [.ite (.cmp .eq (.name .g) (.str (py "-"))) [.aug .res (.str (py "101101"))] [.ite (.cmp .ne (.item (.name .g) (.int 0)) (.str (py "%"))) [.aug .res (.call (.attr (.str (py "")) .join) [(.map common.encode_string_six_bits.elt1 .s (.name .g))] [])] [.aug .res (.call (.name .str_to_binary) [(.call (.name .str) [(.call (.name .int) [(.slice (.name .g) (.int 1) .none .none), (.int 16)] [])] []), (.int 6)] [])]]]]

/-- `common.encode_string_six_bits`.  /repo/epcpy/utils/common.py:210-234 -/
def common.encode_string_six_bits : FunDef :=
  ⟨.common, none, [⟨.string, none⟩], none, none,
    [.assign (.var .res) (.str (py "")),
     .for_ .g (.call (.attr (.name .re) .split) [(.str (py "(%[0-9a-fA-F]{2}|-)")), (.name .string)] []) common.encode_string_six_bits.loop1,
     .ret (.cat (.fmt (.name .res) (.str [])) (.str (py "000000")))]⟩

/-- `common.decode_binary_char`.  /repo/epcpy/utils/common.py:237-251 -/
def common.decode_binary_char : FunDef :=
  ⟨.common, none, [⟨.binary, none⟩], none, none,
    [.ite (.cmp .eq (.name .binary) (.str (py "0000000"))) [.ret (.str (py ""))] [.ite (.cmp .isIn (.name .binary) (.name .ESCAPE_CHARACTERS)) [.ret (.item (.name .ESCAPE_CHARACTERS) (.name .binary))] [.ret (.call (.name .chr) [(.call (.name .int) [(.name .binary), (.int 2)] [])] [])]]]⟩

/-- `common.decode_string`.  /repo/epcpy/utils/common.py:254-270 -/
def common.decode_string : FunDef :=
  ⟨.common, none, [⟨.binary, none⟩], none, none,
    [.ret (.call (.attr (.str (py "")) .join) [(.call (.name .list) [(.call (.name .map) [(.name .decode_binary_char), (.call (.attr (.name .re) .findall) [(.bin .mul (.str (py ".")) (.int 7)), (.name .binary)] [])] [])] [])] [])]⟩

/-- `common.encode_partition_table`.  /repo/epcpy/utils/common.py:273-311 -/
def common.encode_partition_table : FunDef :=
  ⟨.common, none, [⟨.parts, none⟩, ⟨.partition_table, none⟩, ⟨.string_partition, (some (.bool false))⟩, ⟨.six_bit_variable_partition, (some (.bool false))⟩], none, none,
    [.assign (.var .C) (.item (.name .parts) (.int 0)),
     .assign (.var .D) (.item (.name .parts) (.int 1)),
     .assign (.var .partition) (.item (.name .partition_table) (.call (.name .len) [(.name .C)] [])),
     .assign (.var .P_bin) (.call (.name .int_to_binary) [(.item (.name .partition) (.str (py "P"))), (.int 3)] []),
     .assign (.var .C_bin) (.call (.name .str_to_binary) [(.name .C), (.item (.name .partition) (.str (py "M")))] []),
     .ite (.name .string_partition) [.assign (.var .D_bin) (.call (.name .encode_string) [(.name .D), (.item (.name .partition) (.str (py "N")))] [])] [.ite (.name .six_bit_variable_partition) [.assign (.var .D_bin) (.call (.name .encode_string_six_bits) [(.name .D)] [])] [.assign (.var .D_bin) (.ite (.cmp .ne (.item (.name .partition) (.str (py "K"))) (.int 0)) (.call (.name .str_to_binary) [(.name .D), (.item (.name .partition) (.str (py "N")))] []) (.bin .mul (.str (py "0")) (.item (.name .partition) (.str (py "N")))))]],
     .ret (.bin .add (.bin .add (.name .P_bin) (.name .C_bin)) (.name .D_bin))]⟩

/-- `common.decode_partition_table`.  /repo/epcpy/utils/common.py:314-363 -/
def common.decode_partition_table : FunDef :=
  ⟨.common, none, [⟨.binary_string, none⟩, ⟨.partition_table, none⟩, ⟨.unpadded_partition, (some (.bool false))⟩, ⟨.string_partition, (some (.bool false))⟩, ⟨.six_bit_variable_partition, (some (.bool false))⟩], none, none,
    [.try_ [.assign (.var .partition) (.item (.name .partition_table) (.call (.name .binary_to_int) [(.slice (.name .binary_string) .none (.int 3) .none)] []))] (.err .key) [.raise (.call (.name .ConvertException) [] [(.message, (.cat (.str (py "Invalid partition header ")) (.fmt (.slice (.name .binary_string) .none (.int 3) .none) (.str []))))])],
     .assign (.var .C) (.call (.name .binary_to_int) [(.slice (.name .binary_string) (.int 3) (.bin .add (.int 3) (.item (.name .partition) (.str (py "M")))) .none)] []),
     .assign (.var .D_bin) (.slice (.name .binary_string) (.bin .add (.int 3) (.item (.name .partition) (.str (py "M")))) (.bin .add (.bin .add (.int 3) (.item (.name .partition) (.str (py "M")))) (.item (.name .partition) (.str (py "N")))) .none),
     .ite (.name .string_partition) [.assign (.var .D) (.call (.name .decode_string) [(.name .D_bin)] [])] [.ite (.name .six_bit_variable_partition) [.assign (.var .D) (.call (.name .decode_string_six_bits) [(.name .D_bin), (.item (.name .partition) (.str (py "K")))] [])] [.assign (.var .D) (.ite (.cmp .ne (.item (.name .partition) (.str (py "K"))) (.int 0)) (.call (.name .str) [(.call (.name .binary_to_int) [(.name .D_bin)] [])] []) (.str (py "")))]],
     .assign (.var .compare_D) (.not (.or (.name .unpadded_partition) (.or (.name .string_partition) (.name .six_bit_variable_partition)))),
     .ite (.not (.cmp .lt (.name .C) (.call (.name .pow) [(.int 10), (.item (.name .partition) (.str (py "L")))] []))) [.raise (.call (.name .ConvertException) [] [(.message, (.str (py "Company prefix length too large")))])] [],
     .ite (.and (.cmp .ne (.name .D) (.str (py ""))) (.and (.name .compare_D) (.not (.cmp .lt (.call (.name .int) [(.name .D)] []) (.call (.name .pow) [(.int 10), (.item (.name .partition) (.str (py "K")))] []))))) [.raise (.call (.name .ConvertException) [] [(.message, (.str (py "Item reference length too large")))])] [],
     .ret (.cat (.fmt (.name .C) (.cat (.str (py ">0")) (.fmt (.item (.name .partition) (.str (py "L"))) (.str [])))) (.cat (.str (py ".")) (.fmt (.name .D) (.cat (.str (py ">0")) (.fmt (.ite (.name .compare_D) (.item (.name .partition) (.str (py "K"))) (.int 0)) (.str []))))))]⟩

/-- `common.encode_numeric_string`.  /repo/epcpy/utils/common.py:366-382 -/
def common.encode_numeric_string : FunDef :=
  ⟨.common, none, [⟨.string, none⟩, ⟨.bit_count, none⟩], none, none,
    [.ite (.cmp .ge (.bin .mul (.int 2) (.call (.name .pow) [(.int 10), (.call (.name .len) [(.name .string)] [])] [])) (.call (.name .pow) [(.int 2), (.name .bit_count)] [])) [.raise (.call (.name .ConvertException) [] [(.message, (.str (py "Invalid character string")))])] [],
     .ret (.call (.name .str_to_binary) [(.cat (.str (py "1")) (.fmt (.name .string) (.str []))), (.name .bit_count)] [])]⟩

/-- `common.decode_numeric_string`.  /repo/epcpy/utils/common.py:385-402 -/
def common.decode_numeric_string : FunDef :=
  ⟨.common, none, [⟨.binary, none⟩], none, none,
    [.assign (.var .string) (.fmt (.call (.name .int) [(.name .binary), (.int 2)] []) (.str [])),
     .ite (.or (.cmp .le (.call (.name .len) [(.name .string)] []) (.int 1)) (.cmp .ne (.item (.name .string) (.int 0)) (.str (py "1")))) [.raise (.call (.name .ConvertException) [] [(.message, (.str (py "Invalid numeric string")))])] [],
     .ret (.slice (.name .string) (.int 1) .none .none)]⟩

/-- `common.encode_fixed_width_integer`.  /repo/epcpy/utils/common.py:405-421 -/
def common.encode_fixed_width_integer : FunDef :=
  ⟨.common, none, [⟨.string, none⟩, ⟨.bit_count, none⟩], none, none,
    [.ite (.cmp .ge (.call (.name .int) [(.name .string)] []) (.bin .sub (.call (.name .pow) [(.int 10), (.call (.name .int) [(.bin .div (.bin .mul (.name .bit_count) (.call (.name .log) [(.int 2)] [])) (.call (.name .log) [(.int 10)] []))] [])] []) (.int 1))) [.raise (.call (.name .ConvertException) [] [(.message, (.str (py "Fixed width numeric integer too large")))])] [],
     .ret (.call (.name .str_to_binary) [(.name .string), (.name .bit_count)] [])]⟩

/-- `common.decode_fixed_width_integer`.  /repo/epcpy/utils/common.py:424-440 -/
def common.decode_fixed_width_integer : FunDef :=
  ⟨.common, none, [⟨.binary, none⟩], none, none,
    [.assign (.var .D) (.call (.name .int) [(.bin .div (.bin .mul (.call (.name .len) [(.name .binary)] []) (.call (.name .log) [(.int 2)] [])) (.call (.name .log) [(.int 10)] []))] []),
     .ite (.cmp .gt (.call (.name .int) [(.name .binary), (.int 2)] []) (.bin .sub (.call (.name .pow) [(.int 10), (.name .D)] []) (.int 1))) [.raise (.call (.name .ConvertException) [] [(.message, (.cat (.str (py "Bits cannot be converted to ")) (.cat (.fmt (.name .D) (.str [])) (.str (py " digits")))))])] [],
     .ret (.fmt (.call (.name .int) [(.name .binary), (.int 2)] []) (.cat (.str (py "0>")) (.fmt (.name .D) (.str []))))]⟩

/-- The element of a comprehension of `common.decode_cage_code`. -/
def common.decode_cage_code.elt1 : Expr :=
  (.ite (.cmp .ne (.name .g) (.str (py ""))) (.call (.name .chr) [(.call (.name .int) [(.name .g), (.int 2)] [])] []) (.str (py "")))

/-- `common.decode_cage_code`.  /repo/epcpy/utils/common.py:443-454 -/
def common.decode_cage_code : FunDef :=
  ⟨.common, none, [⟨.binary, none⟩], none, none,
    [.ret (.call (.attr (.call (.attr (.str (py "")) .join) [(.map common.decode_cage_code.elt1 .g (.call (.attr (.name .re) .split) [(.str (py "([0-1]{8})")), (.name .binary)] []))] []) .replace) [(.str (py " ")), (.str (py ""))] [])]⟩

/-- The element of a comprehension of `common.encode_cage_code`. -/
def common.encode_cage_code.elt1 : Expr :=
  (.fmt (.call (.name .ord) [(.name .char)] []) (.str (py "0>8b")))

/-- `common.encode_cage_code`.  /repo/epcpy/utils/common.py:457-466 -/
def common.encode_cage_code : FunDef :=
  ⟨.common, none, [⟨.chars, none⟩], none, none,
    [.ret (.call (.attr (.str (py "")) .join) [(.map common.encode_cage_code.elt1 .char (.name .chars))] [])]⟩

/-- `common.decode_cage_code_six_bits`.  /repo/epcpy/utils/common.py:469-481 -/
def common.decode_cage_code_six_bits : FunDef :=
  ⟨.common, none, [⟨.binary, none⟩], none, none,
    [.ite (.call (.attr (.name .binary) .startswith) [(.str (py "100000"))] []) [.assign (.var .binary) (.slice (.name .binary) (.int 6) .none .none)] [],
     .ret (.call (.name .decode_string_six_bits) [(.name .binary), (.int 6)] [])]⟩

/-- `common.encode_cage_code_six_bits`.  /repo/epcpy/utils/common.py:484-496 -/
def common.encode_cage_code_six_bits : FunDef :=
  ⟨.common, none, [⟨.chars, none⟩], none, none,
    [.assign (.var .binary) (.fmt (.slice (.call (.name .encode_string_six_bits) [(.name .chars)] []) .none (.neg (.int 6)) .none) (.str [])),
     .ite (.cmp .eq (.call (.name .len) [(.name .binary)] []) (.int 30)) [.assign (.var .binary) (.bin .add (.str (py "100000")) (.name .binary))] [],
     .ret (.name .binary)]⟩

/-- The body of a loop of `common.verify_gs3a3_component`. -/
def common.verify_gs3a3_component.loop1 : List Stmt :=
  [.ite (.cmp .eq (.call (.name .len) [(.name .g)] []) (.int 0)) [.cont] [.ite (.cmp .ne (.item (.name .g) (.int 0)) (.str (py "%"))) [.aug .res (.name .g)] [.aug .res (.call (.name .chr) [(.call (.name .int) [(.slice (.name .g) (.int 1) .none .none), (.int 16)] [])] [])]]]

/-- `common.verify_gs3a3_component`.  /repo/epcpy/utils/common.py:499-518 -/
def common.verify_gs3a3_component : FunDef :=
  ⟨.common, none, [⟨.gs3a3_component, none⟩], none, none,
    [.assign (.var .res) (.str (py "")),
     .for_ .g (.call (.attr (.name .re) .split) [(.str (py "(%\\d\\d)")), (.name .gs3a3_component)] []) common.verify_gs3a3_component.loop1,
     .ite (.not (.call (.attr (.name .VERIFY_GS3A3_CHARS_REGEX) .fullmatch) [(.name .res)] [])) [.raise (.call (.name .ConvertException) [] [])] []]⟩

/-- The element of a comprehension of `common.calculate_checksum`. -/
def common.calculate_checksum.elt1 : Expr :=
  (.call (.name .int) [(.name .d)] [])

/-- `common.calculate_checksum`.  /repo/epcpy/utils/common.py:521-542 -/
def common.calculate_checksum : FunDef :=
  ⟨.common, none, [⟨.digits, none⟩], none, none,
    [.assign (.var .digit_list) (.map common.calculate_checksum.elt1 .d (.name .digits)),
     .unpack [(.var .odd), (.var .even)] none (.list [(.slice (.name .digit_list) (.int 1) .none (.int 2)), (.slice (.name .digit_list) (.int 0) .none (.int 2))]),
     .ite (.cmp .eq (.bin .mod (.call (.name .len) [(.name .digits)] []) (.int 2)) (.int 0)) [.assign (.var .val1) (.call (.name .sum) [(.name .odd)] []), .assign (.var .val2) (.call (.name .sum) [(.name .even)] [])] [.assign (.var .val1) (.call (.name .sum) [(.name .even)] []), .assign (.var .val2) (.call (.name .sum) [(.name .odd)] [])],
     .assign (.var .checksum) (.bin .mod (.bin .sub (.int 10) (.bin .mod (.bin .add (.bin .mul (.int 3) (.name .val1)) (.name .val2)) (.int 10))) (.int 10)),
     .ret (.name .checksum)]⟩

/-- `common.parse_header_and_truncate_binary`.  /repo/epcpy/utils/common.py:545-578 -/
def common.parse_header_and_truncate_binary : FunDef :=
  ⟨.common, none, [⟨.binary_string, none⟩, ⟨.header_to_schemes, none⟩], none, none,
    [.assign (.var .header) (.slice (.name .binary_string) .none (.int 8) .none),
     .try_ [.assign (.var .scheme) (.item (.name .header_to_schemes) (.name .header))] (.err .value) [.raise (.call (.name .ConvertException) [] [(.message, (.cat (.fmt (.name .header) (.str [])) (.str (py " is not a valid header"))))])],
     .unpack [(.var .us), (.var .size)] none (.call (.attr (.attr (.name .scheme) .value) .split) [(.str (py "-"))] []),
     .assign (.var .size) (.ite (.call (.attr (.name .size) .isnumeric) [] []) (.call (.name .int) [(.name .size)] []) .none),
     .ite (.and (.name .size) (.cmp .gt (.name .size) (.call (.name .len) [(.name .binary_string)] []))) [.raise (.call (.name .ConvertException) [] [(.message, (.cat (.str (py "Invalid binary size, expected (>=): ")) (.cat (.fmt (.name .size) (.str [])) (.cat (.str (py " actual: ")) (.fmt (.call (.name .len) [(.name .binary_string)] []) (.str []))))))])] [],
     .assign (.var .truncated_binary) (.slice (.name .binary_string) .none (.name .size) .none),
     .ret (.list [(.name .scheme), (.name .truncated_binary)])]⟩

end Epc.Src
