/-
Python runtime layer, part 2: decimal digits of Unicode and `int(s, base)`.
-/
import Verif.Py.Basic

namespace Epc

/-- The code points of the digit zero of every decimal-digit (`Nd`) run of Unicode 14.0.0, the
Unicode version of CPython 3.11, except the ASCII one.  Each run has ten consecutive code points. -/
def ndZeros : List Nat :=
  [0x660, 0x6f0, 0x7c0, 0x966, 0x9e6, 0xa66, 0xae6, 0xb66, 0xbe6, 0xc66, 0xce6, 0xd66, 0xde6, 0xe50,
   0xed0, 0xf20, 0x1040, 0x1090, 0x17e0, 0x1810, 0x1946, 0x19d0, 0x1a80, 0x1a90, 0x1b50, 0x1bb0,
   0x1c40, 0x1c50, 0xa620, 0xa8d0, 0xa900, 0xa9d0, 0xa9f0, 0xaa50, 0xabf0, 0xff10, 0x104a0, 0x10d30,
   0x11066, 0x110f0, 0x11136, 0x111d0, 0x112f0, 0x11450, 0x114d0, 0x11650, 0x116c0, 0x11730, 0x118e0,
   0x11950, 0x11c50, 0x11d50, 0x11da0, 0x16a60, 0x16ac0, 0x16b50, 0x1d7ce, 0x1d7d8, 0x1d7e2, 0x1d7ec,
   0x1d7f6, 0x1e140, 0x1e2f0, 0x1e950, 0x1fbf0]

/-- Search a code point in the runs of ten starting at the given zeros. -/
def findRun (n : Nat) : List Nat → Option Nat
  | [] => none
  | z :: zs => if z ≤ n ∧ n < z + 10 then some (n - z) else findRun n zs

/-- Decimal value of a character (`unicodedata.decimal`), `none` if it is not a decimal digit. -/
def decimalVal (c : Char) : Option Nat :=
  if 48 ≤ c.toNat ∧ c.toNat ≤ 57 then some (c.toNat - 48)
  else if c.toNat < 128 then none
  else findRun c.toNat ndZeros

/-- `\d` in a `str` pattern of the `re` module. -/
def isDecimal (c : Char) : Bool := (decimalVal c).isSome

/-- ASCII digit `0-9`. -/
def isDigitA (c : Char) : Bool := decide (48 ≤ c.toNat) && decide (c.toNat ≤ 57)

/-- Non-ASCII white space (`str.isspace` above 127). -/
def isUniSpace (c : Char) : Bool :=
  let n := c.toNat
  n == 0x85 || n == 0xa0 || n == 0x1680 || (decide (0x2000 ≤ n) && decide (n ≤ 0x200a)) || n == 0x2028 || n == 0x2029 ||
    n == 0x202f || n == 0x205f || n == 0x3000

/-- One character of `_PyUnicode_TransformDecimalAndSpaceToASCII`. -/
def intNormChar (c : Char) : Char :=
  if c.toNat < 127 then c
  else if isUniSpace c then ' '
  else match decimalVal c with
    | some d => Char.ofNat (48 + d)
    | none => '?'

/-- `Py_ISSPACE`. -/
def isCSpace (c : Char) : Bool :=
  c == ' ' || c == '\t' || c == '\n' || c == '\x0b' || c == '\x0c' || c == '\r'

/-- `_PyLong_DigitValue`. -/
def digitVal (c : Char) : Option Nat :=
  let n := c.toNat
  if 48 ≤ n ∧ n ≤ 57 then some (n - 48)
  else if 97 ≤ n ∧ n ≤ 122 then some (n - 87)
  else if 65 ≤ n ∧ n ≤ 90 then some (n - 55)
  else none

/-- Value of a character as a digit of the given base. -/
def digitIn (b : Nat) (c : Char) : Option Nat :=
  match digitVal c with
  | some d => if d < b then some d else none
  | none => none

/-- Digits with single underscores between them; `acc` is the value so far. After a digit. -/
def digitsGo (b : Nat) : Nat → Str → Option Nat
  | acc, [] => some acc
  | acc, c :: cs =>
    match digitIn b c with
    | some d => digitsGo b (acc * b + d) cs
    | none =>
      if c = '_' then
        match cs with
        | [] => none
        | c' :: cs' =>
          match digitIn b c' with
          | some d => digitsGo b (acc * b + d) cs'
          | none => none
      else none

/-- A non-empty digit sequence. -/
def digitsVal (b : Nat) : Str → Option Nat
  | [] => none
  | c :: cs =>
    match digitIn b c with
    | some d => digitsGo b d cs
    | none => none

/-- Drop the base prefix `0x`/`0b` (with the underscore that may follow it). -/
def dropBasePrefix (b : Nat) (s : Str) : Str :=
  match s with
  | '0' :: x :: t =>
    if (b = 16 ∧ (x = 'x' ∨ x = 'X')) ∨ (b = 2 ∧ (x = 'b' ∨ x = 'B')) then
      match t with
      | '_' :: t' => t'
      | _ => t
    else s
  | _ => s

/-- Strip the trailing characters satisfying `p`. -/
def dropRightWhile (p : Char → Bool) (s : Str) : Str := (s.reverse.dropWhile p).reverse

/-- `int(s, base)` for base 2, 10, 16 (`PyLong_FromUnicodeObject`, `PyLong_FromString`).
The limit of 4300 digits in base 10 is left out here; see `pyIntLim` in Model/Limit.lean. -/
def pyInt (b : Nat) (s : Str) : Except Err Int :=
  let s := dropRightWhile isCSpace ((s.map intNormChar).dropWhile isCSpace)
  match s with
  | '-' :: t => match digitsVal b (dropBasePrefix b t) with
    | some n => .ok (-(n : Int))
    | none => .error .value
  | '+' :: t => match digitsVal b (dropBasePrefix b t) with
    | some n => .ok n
    | none => .error .value
  | t => match digitsVal b (dropBasePrefix b t) with
    | some n => .ok n
    | none => .error .value

/-- The characters outside the decimal digits that have a numeric value (superscripts, fractions, Roman numerals, ideographs, ...), as ranges of
code points: `Numeric_Type` Digit and Numeric of Unicode 14. -/
def numericRanges : List (Nat × Nat) :=
  [(0xb2, 0xb3), (0xb9, 0xb9), (0xbc, 0xbe), (0x9f4, 0x9f9), (0xb72, 0xb77), (0xbf0, 0xbf2), (0xc78, 0xc7e), (0xd58, 0xd5e), (0xd70, 0xd78),
   (0xf2a, 0xf33), (0x1369, 0x137c), (0x16ee, 0x16f0), (0x17f0, 0x17f9), (0x19da, 0x19da), (0x2070, 0x2070), (0x2074, 0x2079), (0x2080, 0x2089),
   (0x2150, 0x2182), (0x2185, 0x2189), (0x2460, 0x249b), (0x24ea, 0x24ff), (0x2776, 0x2793), (0x2cfd, 0x2cfd), (0x3007, 0x3007), (0x3021, 0x3029),
   (0x3038, 0x303a), (0x3192, 0x3195), (0x3220, 0x3229), (0x3248, 0x324f), (0x3251, 0x325f), (0x3280, 0x3289), (0x32b1, 0x32bf), (0x3405, 0x3405),
   (0x3483, 0x3483), (0x382a, 0x382a), (0x3b4d, 0x3b4d), (0x4e00, 0x4e00), (0x4e03, 0x4e03), (0x4e07, 0x4e07), (0x4e09, 0x4e09), (0x4e5d, 0x4e5d),
   (0x4e8c, 0x4e8c), (0x4e94, 0x4e94), (0x4e96, 0x4e96), (0x4ebf, 0x4ec0), (0x4edf, 0x4edf), (0x4ee8, 0x4ee8), (0x4f0d, 0x4f0d), (0x4f70, 0x4f70),
   (0x5104, 0x5104), (0x5146, 0x5146), (0x5169, 0x5169), (0x516b, 0x516b), (0x516d, 0x516d), (0x5341, 0x5341), (0x5343, 0x5345), (0x534c, 0x534c),
   (0x53c1, 0x53c4), (0x56db, 0x56db), (0x58f1, 0x58f1), (0x58f9, 0x58f9), (0x5e7a, 0x5e7a), (0x5efe, 0x5eff), (0x5f0c, 0x5f0e), (0x5f10, 0x5f10),
   (0x62fe, 0x62fe), (0x634c, 0x634c), (0x67d2, 0x67d2), (0x6f06, 0x6f06), (0x7396, 0x7396), (0x767e, 0x767e), (0x8086, 0x8086), (0x842c, 0x842c),
   (0x8cae, 0x8cae), (0x8cb3, 0x8cb3), (0x8d30, 0x8d30), (0x9621, 0x9621), (0x9646, 0x9646), (0x964c, 0x964c), (0x9678, 0x9678), (0x96f6, 0x96f6),
   (0xa6e6, 0xa6ef), (0xa830, 0xa835), (0xf96b, 0xf96b), (0xf973, 0xf973), (0xf978, 0xf978), (0xf9b2, 0xf9b2), (0xf9d1, 0xf9d1), (0xf9d3, 0xf9d3),
   (0xf9fd, 0xf9fd), (0x10107, 0x10133), (0x10140, 0x10178), (0x1018a, 0x1018b), (0x102e1, 0x102fb), (0x10320, 0x10323), (0x10341, 0x10341),
   (0x1034a, 0x1034a), (0x103d1, 0x103d5), (0x10858, 0x1085f), (0x10879, 0x1087f), (0x108a7, 0x108af), (0x108fb, 0x108ff), (0x10916, 0x1091b),
   (0x109bc, 0x109bd), (0x109c0, 0x109cf), (0x109d2, 0x109ff), (0x10a40, 0x10a48), (0x10a7d, 0x10a7e), (0x10a9d, 0x10a9f), (0x10aeb, 0x10aef),
   (0x10b58, 0x10b5f), (0x10b78, 0x10b7f), (0x10ba9, 0x10baf), (0x10cfa, 0x10cff), (0x10e60, 0x10e7e), (0x10f1d, 0x10f26), (0x10f51, 0x10f54),
   (0x10fc5, 0x10fcb), (0x11052, 0x11065), (0x111e1, 0x111f4), (0x1173a, 0x1173b), (0x118ea, 0x118f2), (0x11c5a, 0x11c6c), (0x11fc0, 0x11fd4),
   (0x12400, 0x1246e), (0x16b5b, 0x16b61), (0x16e80, 0x16e96), (0x1d2e0, 0x1d2f3), (0x1d360, 0x1d378), (0x1e8c7, 0x1e8cf), (0x1ec71, 0x1ecab),
   (0x1ecad, 0x1ecaf), (0x1ecb1, 0x1ecb4), (0x1ed01, 0x1ed2d), (0x1ed2f, 0x1ed3d), (0x1f100, 0x1f10c), (0x20001, 0x20001), (0x20064, 0x20064),
   (0x200e2, 0x200e2), (0x20121, 0x20121), (0x2092a, 0x2092a), (0x20983, 0x20983), (0x2098c, 0x2098c), (0x2099c, 0x2099c), (0x20aea, 0x20aea),
   (0x20afd, 0x20afd), (0x20b19, 0x20b19), (0x22390, 0x22390), (0x22998, 0x22998), (0x23b1b, 0x23b1b), (0x2626d, 0x2626d), (0x2f890, 0x2f890)]

/-- `str.isnumeric` of one character. -/
def isNumericChar (c : Char) : Bool := isDecimal c || numericRanges.any (fun r => decide (r.1 ≤ c.toNat) && decide (c.toNat ≤ r.2))

/-- `str.isnumeric`. -/
def isNumeric (s : Str) : Bool := !s.isEmpty && s.all isNumericChar

end Epc
