/-
Model of /repo/epcpy/utils/common.py.
-/
import Verif.Py.ReSplit
import Verif.Py.Base64

namespace Epc

/-- Hexadecimal digit class `[0-9a-fA-F]`. -/
def isHexA (c : Char) : Bool :=
  isDigitA c || (decide ('a' ≤ c) && decide (c ≤ 'f')) || (decide ('A' ≤ c) && decide (c ≤ 'F'))

/-- Class `[0-1]`. -/
def isBit (c : Char) : Bool := c == '0' || c == '1'

/-- Class `[a-zA-Z]`. -/
def isAlphaA (c : Char) : Bool :=
  (decide ('a' ≤ c) && decide (c ≤ 'z')) || (decide ('A' ≤ c) && decide (c ≤ 'Z'))

/-- The punctuation of the class `[a-zA-Z0-9!'()*+,-.:;=_]`; `,-.` is the range of the three
characters `,`, `-`, `.`.  /repo/epcpy/utils/regex.py:4 -/
def isGs3a3Punct (c : Char) : Bool :=
  c == '!' || c == '\'' || c == '(' || c == ')' || c == '*' || c == '+' || c == ',' || c == '-' || c == '.' ||
    c == ':' || c == ';' || c == '=' || c == '_'

/-- Class `[a-zA-Z0-9!'()*+,-.:;=_]`.  /repo/epcpy/utils/regex.py:4 -/
def isGs3a3Plain (c : Char) : Bool := isAlphaA c || isDigitA c || isGs3a3Punct c

/-- The characters that must be escaped in a URI: `"%&/<>?`. -/
def isEscaped (c : Char) : Bool :=
  c == '"' || c == '%' || c == '&' || c == '/' || c == '<' || c == '>' || c == '?'

/-- Class `[a-zA-Z0-9!'()*+,-.:;=_\"%&/<>?]`.  /repo/epcpy/utils/regex.py:8-9 -/
def isGs3a3Any (c : Char) : Bool := isGs3a3Plain c || isEscaped c

/-- `replace_uri_escapes`.  /repo/epcpy/utils/common.py:31-48 -/
def replaceUriEscapes (uri : Str) : Str :=
  let uri := replaceAll (py "%22") (py "\"") uri
  let uri := replaceAll (py "%26") (py "&") uri
  let uri := replaceAll (py "%2F") (py "/") uri
  let uri := replaceAll (py "%3C") (py "<") uri
  let uri := replaceAll (py "%3E") (py ">") uri
  let uri := replaceAll (py "%3F") (py "?") uri
  replaceAll (py "%25") (py "%") uri

/-- `revert_uri_escapes`.  /repo/epcpy/utils/common.py:51-68 -/
def revertUriEscapes (uri : Str) : Str :=
  let uri := replaceAll (py "%") (py "%25") uri
  let uri := replaceAll (py "\"") (py "%22") uri
  let uri := replaceAll (py "&") (py "%26") uri
  let uri := replaceAll (py "/") (py "%2F") uri
  let uri := replaceAll (py "<") (py "%3C") uri
  let uri := replaceAll (py ">") (py "%3E") uri
  replaceAll (py "?") (py "%3F") uri

/-- `int_to_binary`.  /repo/epcpy/utils/common.py:71-81 -/
def intToBinary (i : Int) (numBits : Nat) : Str := fmtBin i numBits

/-- `binary_to_int`.  /repo/epcpy/utils/common.py:84-93 -/
def binaryToInt (binary : Str) : Except Err Int := pyInt 2 binary

/-- `str_to_binary`.  /repo/epcpy/utils/common.py:96-106 -/
def strToBinary (s : Str) (numBits : Nat) : Except Err Str := do
  let i ← pyInt 10 s
  return intToBinary i numBits

/-- `base64_to_hex`.  /repo/epcpy/utils/common.py:109-119 -/
def base64ToHex (s : Str) : Except Err Str := do
  let bytes ← b64decode (s ++ py "==")
  return bytesHex bytes

/-- `hex_to_base64`.  /repo/epcpy/utils/common.py:122-131 -/
def hexToBase64 (s : Str) : Except Err Str := do
  let bytes ← bytesFromHex s
  return b64encode bytes

/-- `hex_to_binary`.  /repo/epcpy/utils/common.py:134-143 -/
def hexToBinary (s : Str) : Except Err Str := do
  let i ← pyInt 16 s
  return fmtBin i (s.length * 4)

/-- `binary_to_hex`.  /repo/epcpy/utils/common.py:146-156 -/
def binaryToHex (s : Str) : Except Err Str := do
  let i ← pyInt 2 s
  return fmtHexUpper i

/-- Pattern `%[0-9a-fA-F]{2}`.  /repo/epcpy/utils/common.py:170 -/
def escapeLen (s : Str) : Option Nat := fixedLen [(· == '%'), isHexA, isHexA] s

/-- Pattern `%[0-9a-fA-F]{2}|-`.  /repo/epcpy/utils/common.py:220 -/
def escapeOrDashLen (s : Str) : Option Nat :=
  match escapeLen s with
  | some n => some n
  | none => fixedLen [(· == '-')] s

/-- Pattern `%\d\d`.  /repo/epcpy/utils/common.py:509 -/
def percentDigitsLen (s : Str) : Option Nat := fixedLen [(· == '%'), isDecimal, isDecimal] s

/-- Pattern `[0-1]{n}`.  /repo/epcpy/utils/common.py:194, 453 -/
def bitsLen (n : Nat) (s : Str) : Option Nat := fixedLen (List.replicate n isBit) s

/-- The body of the loop of `encode_string`.  /repo/epcpy/utils/common.py:171-176.
`str_to_binary(str(k), 7)` for an integer `k`. -/
def encodeStringPiece (g : Str) : Except Err Str :=
  match g with
  | [] => .ok []
  | c :: t =>
    if c ≠ '%' then do
      let parts ← (c :: t).mapM (fun s => strToBinary (natStr s.toNat) 7)
      return parts.flatten
    else do
      let i ← pyInt 16 t
      strToBinary (intStr i) 7

/-- `encode_string`.  /repo/epcpy/utils/common.py:159-177 -/
def encodeString (s : Str) (numBits : Nat) : Except Err Str := do
  let parts ← (splitCap escapeLen s).mapM encodeStringPiece
  return padRight '0' numBits parts.flatten

/-- The loop of `decode_string_six_bits`.  /repo/epcpy/utils/common.py:194-202 -/
def decodeSixLoop : List Str → Except Err Str
  | [] => .ok []
  | g :: gs =>
    if g = py "000000" then .ok []
    else if g.length < 6 then decodeSixLoop gs
    else if startsWith g (py "10") || startsWith g (py "11") then do
      let i ← pyInt 2 g
      let c ← chr i
      let r ← decodeSixLoop gs
      return c :: r
    else do
      let i ← pyInt 2 g
      let c ← chr (64 + i)
      let r ← decodeSixLoop gs
      return c :: r

/-- `decode_string_six_bits`.  /repo/epcpy/utils/common.py:180-207 -/
def decodeStringSixBits (binary : Str) (maxChars : Nat) : Except Err Str := do
  let res ← decodeSixLoop (splitCap (bitsLen 6) binary)
  if res.length > maxChars then .error .convert
  else return replaceAll (py "/") (py "%2F") (replaceAll (py "#") (py "%23") res)

/-- One character of `encode_string_six_bits`.  /repo/epcpy/utils/common.py:226-231 -/
def encodeSixChar (c : Char) : Except Err Str :=
  if isNumeric [c] then do
    let i ← pyInt 10 [c]
    return py "11" ++ fmtBin i 4
  else .ok (fmtBin ((c.toNat : Int) - 64) 6)

/-- The body of the loop of `encode_string_six_bits`.  /repo/epcpy/utils/common.py:221-233 -/
def encodeSixPiece (g : Str) : Except Err Str :=
  match g with
  | [] => .ok []
  | c :: t =>
    if c :: t = py "-" then .ok (py "101101")
    else if c ≠ '%' then do
      let parts ← (c :: t).mapM encodeSixChar
      return parts.flatten
    else do
      let i ← pyInt 16 t
      strToBinary (intStr i) 6

/-- `encode_string_six_bits`.  /repo/epcpy/utils/common.py:210-234 -/
def encodeStringSixBits (s : Str) : Except Err Str := do
  let parts ← (splitCap escapeOrDashLen s).mapM encodeSixPiece
  return parts.flatten ++ py "000000"

/-- `ESCAPE_CHARACTERS`.  /repo/epcpy/utils/common.py:9-17 -/
def escapeCharacters : List (Str × Str) :=
  [(py "0100010", py "%22"), (py "0100101", py "%25"), (py "0100110", py "%26"), (py "0101111", py "%2F"),
   (py "0111100", py "%3C"), (py "0111110", py "%3E"), (py "0111111", py "%3F")]

/-- `decode_binary_char`.  /repo/epcpy/utils/common.py:237-251 -/
def decodeBinaryChar (binary : Str) : Except Err Str :=
  if binary = py "0000000" then .ok []
  else match escapeCharacters.lookup binary with
    | some e => .ok e
    | none => do
      let i ← pyInt 2 binary
      let c ← chr i
      return [c]

/-- `decode_string`.  /repo/epcpy/utils/common.py:254-270 -/
def decodeString (binary : Str) : Except Err Str := do
  let parts ← (findAll (fixedLen (List.replicate 7 anyChar)) binary).mapM decodeBinaryChar
  return parts.flatten

/-- A row of a partition table: the dictionaries with keys `P`, `M`, `L`, `N`, `K`. -/
structure Row where
  P : Nat
  M : Nat
  L : Nat
  N : Nat
  K : Nat
  deriving DecidableEq, Repr

/-- Build a partition table (`PARTITION_TABLE_P`) from the columns `N` and `K`; all tables in the code
have the same columns `M` and `L`, transcribed here once. -/
def mkTable (nk : List (Nat × Nat)) : List Row :=
  List.zipWith (fun (pml : Nat × Nat × Nat) (nk : Nat × Nat) => ⟨pml.1, pml.2.1, pml.2.2, nk.1, nk.2⟩)
    [(0, 40, 12), (1, 37, 11), (2, 34, 10), (3, 30, 9), (4, 27, 8), (5, 24, 7), (6, 20, 6)] nk

/-- `PARTITION_TABLE_L[n]`: the row for a company prefix of `n` digits. -/
def rowByL (t : List Row) (n : Nat) : Except Err Row :=
  match t.find? (fun r => r.L == n) with
  | some r => .ok r
  | none => .error .key

/-- `PARTITION_TABLE_P[i]`. -/
def rowByP (t : List Row) (i : Int) : Except Err Row :=
  match t.find? (fun r => (r.P : Int) == i) with
  | some r => .ok r
  | none => .error .key

/-- The keyword flags of `encode_partition_table` / `decode_partition_table`:
none, `unpadded_partition=True`, `string_partition=True`, `six_bit_variable_partition=True`. -/
inductive PartMode where
  | plain
  | unpadded
  | string
  | sixBit
  deriving DecidableEq

/-- The reference field of `encode_partition_table`.  /repo/epcpy/utils/common.py:300-309 -/
def encodeRef (D : Str) (row : Row) : PartMode → Except Err Str
  | .string => encodeString D row.N
  | .sixBit => encodeStringSixBits D
  | _ => if row.K ≠ 0 then strToBinary D row.N else .ok (List.replicate row.N '0')

/-- `encode_partition_table`.  /repo/epcpy/utils/common.py:273-311 -/
def encodePartitionTable (C D : Str) (t : List Row) (mode : PartMode := .plain) : Except Err Str := do
  let row ← rowByL t C.length
  let pBin := intToBinary row.P 3
  let cBin ← strToBinary C row.M
  let dBin ← encodeRef D row mode
  return pBin ++ cBin ++ dBin

/-- The reference field of `decode_partition_table`.  /repo/epcpy/utils/common.py:345-352 -/
def decodeRef (dBin : Str) (row : Row) : PartMode → Except Err Str
  | .string => decodeString dBin
  | .sixBit => decodeStringSixBits dBin row.K
  | _ =>
    if row.K ≠ 0 then do
      let i ← binaryToInt dBin
      return intStr i
    else .ok []

/-- The `try`/`except KeyError` of `decode_partition_table`.  /repo/epcpy/utils/common.py:338-341 -/
def keyToConvert {α : Type} : Except Err α → Except Err α
  | .error .key => .error .convert
  | r => r

/-- `D != "" and compare_D and not int(D) < pow(10, partition["K"])`.  /repo/epcpy/utils/common.py:360 -/
def refTooLarge (D : Str) (row : Row) (compareD : Bool) : Except Err Bool :=
  if D ≠ [] ∧ compareD = true then do
    let d ← pyInt 10 D
    return decide (¬ d < ((10 ^ row.K : Nat) : Int))
  else .ok false

/-- `decode_partition_table`.  /repo/epcpy/utils/common.py:314-363 -/
def decodePartitionTable (b : Str) (t : List Row) (mode : PartMode := .plain) : Except Err Str := do
  let p ← binaryToInt (b.take 3)
  let row ← keyToConvert (rowByP t p)
  let C ← binaryToInt (slice b 3 (3 + row.M))
  let dBin := slice b (3 + row.M) (3 + row.M + row.N)
  let D ← decodeRef dBin row mode
  let compareD : Bool := mode == .plain
  if ¬ C < ((10 ^ row.L : Nat) : Int) then .error .convert
  else
    let large ← refTooLarge D row compareD
    if large then .error .convert
    else return padLeft '0' row.L (intStr C) ++ '.' :: padLeft '0' (if compareD then row.K else 0) D

/-- `encode_numeric_string`.  /repo/epcpy/utils/common.py:366-382 -/
def encodeNumericString (s : Str) (bitCount : Nat) : Except Err Str :=
  if 2 * 10 ^ s.length ≥ 2 ^ bitCount then .error .convert
  else strToBinary ('1' :: s) bitCount

/-- `decode_numeric_string`.  /repo/epcpy/utils/common.py:385-402 -/
def decodeNumericString (binary : Str) : Except Err Str := do
  let i ← pyInt 2 binary
  let s := intStr i
  if s.length ≤ 1 ∨ s.head? ≠ some '1' then .error .convert
  else return s.drop 1

/-- `int(n * log(2) / log(10))`, the number of decimal digits that always fit `n` bits.  Simplification: the
floating point computation is replaced by the exact floor (they agree for the width 7 the code uses).
/repo/epcpy/utils/common.py:418, 436 -/
def fixedDigits (n : Nat) : Nat := (natStr (2 ^ n)).length - 1

/-- `encode_fixed_width_integer`.  /repo/epcpy/utils/common.py:405-421 -/
def encodeFixedWidthInteger (s : Str) (bitCount : Nat) : Except Err Str := do
  let i ← pyInt 10 s
  if i ≥ (10 ^ fixedDigits bitCount : Nat) - 1 then .error .convert
  else strToBinary s bitCount

/-- `decode_fixed_width_integer`.  /repo/epcpy/utils/common.py:424-440 -/
def decodeFixedWidthInteger (binary : Str) : Except Err Str := do
  let D := fixedDigits binary.length
  let i ← pyInt 2 binary
  if i > (10 ^ D : Nat) - 1 then .error .convert
  else return padLeft '0' D (intStr i)

/-- `decode_cage_code`.  /repo/epcpy/utils/common.py:443-454 -/
def decodeCageCode (binary : Str) : Except Err Str := do
  let parts ← (splitCap (bitsLen 8) binary).mapM (fun g =>
    if g = [] then .ok [] else do
      let i ← pyInt 2 g
      let c ← chr i
      return [c])
  return replaceAll (py " ") [] parts.flatten

/-- `encode_cage_code`.  /repo/epcpy/utils/common.py:457-466 -/
def encodeCageCode (chars : Str) : Str :=
  (chars.map (fun c => padLeft '0' 8 (Nat.toDigits 2 c.toNat))).flatten

/-- `decode_cage_code_six_bits`.  /repo/epcpy/utils/common.py:469-481 -/
def decodeCageCodeSixBits (binary : Str) : Except Err Str :=
  decodeStringSixBits (if startsWith binary (py "100000") then binary.drop 6 else binary) 6

/-- `encode_cage_code_six_bits`.  /repo/epcpy/utils/common.py:484-496.
`x[:-6]` of a string that ends with the six-bit terminator. -/
def encodeCageCodeSixBits (chars : Str) : Except Err Str := do
  let e ← encodeStringSixBits chars
  let binary := sliceToI e (-6)
  return if binary.length = 30 then py "100000" ++ binary else binary

/-- One piece of the loop of `verify_gs3a3_component`.  /repo/epcpy/utils/common.py:509-515 -/
def verifyPiece (g : Str) : Except Err Str :=
  match g with
  | [] => .ok []
  | c :: t =>
    if c ≠ '%' then .ok (c :: t)
    else do
      let i ← pyInt 16 t
      let c ← chr i
      return [c]

/-- `VERIFY_GS3A3_CHARS`.  /repo/epcpy/utils/regex.py:8 -/
def verifyGs3a3Re : Re := Re.plus (.cls isGs3a3Any)

/-- `verify_gs3a3_component`.  /repo/epcpy/utils/common.py:499-518 -/
def verifyGs3a3 (s : Str) : Except Err Unit := do
  let parts ← (splitCap percentDigitsLen s).mapM verifyPiece
  if verifyGs3a3Re.fullmatch parts.flatten then .ok () else .error .convert

/-- `l[0::2]`. -/
def evens {α : Type} : List α → List α
  | [] => []
  | [a] => [a]
  | a :: _ :: t => a :: evens t

/-- `l[1::2]`. -/
def odds {α : Type} (l : List α) : List α := evens l.tail

/-- `int(d)` for a single character: a decimal digit or a `ValueError`
(`pyInt_single` in `Verif/Lemmas/Int.lean` relates it to `pyInt`). -/
def digitInt (c : Char) : Except Err Nat :=
  match decimalVal c with
  | some d => .ok d
  | none => .error .value

/-- `calculate_checksum`.  /repo/epcpy/utils/common.py:521-542 -/
def calculateChecksum (digits : Str) : Except Err Nat := do
  let ds ← digits.mapM digitInt
  let odd := odds ds
  let even := evens ds
  let (val1, val2) := if digits.length % 2 = 0 then (odd.sum, even.sum) else (even.sum, odd.sum)
  return (10 - (3 * val1 + val2) % 10) % 10

/-- `parse_header_and_truncate_binary`.  /repo/epcpy/utils/common.py:545-578.
`headers` is the dictionary `header_to_schemes()`, `value` gives the `.value` of a coding scheme. The
`except ValueError` never fires: a missing key is a `KeyError`. -/
def parseHeader {κ : Type} (headers : List (Str × κ)) (value : κ → Str) (b : Str) :
    Except Err (κ × Str) :=
  match headers.lookup (b.take 8) with
  | none => .error .key
  | some scheme =>
    match split '-' (value scheme) with
    | [_, size] =>
      if isNumeric size then do
        let n ← pyInt 10 size
        if n ≠ 0 ∧ n > b.length then .error .convert
        else return (scheme, sliceToI b n)
      else .ok (scheme, b)
    | _ => .error .value

end Epc
