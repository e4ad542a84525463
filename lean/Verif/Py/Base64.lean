/-
Python runtime layer, part 5: base64 and hexadecimal byte strings.  Bytes are natural numbers.
-/
import Verif.Py.Int

namespace Epc

/-- Base64 alphabet, value to character. -/
def b64Char (n : Nat) : Char :=
  if n < 26 then Char.ofNat (65 + n)
  else if n < 52 then Char.ofNat (97 + (n - 26))
  else if n < 62 then Char.ofNat (48 + (n - 52))
  else if n = 62 then '+' else '/'

/-- Base64 alphabet, character to value (`table_a2b_base64`). -/
def b64Val (c : Char) : Option Nat :=
  let n := c.toNat
  if 65 ≤ n ∧ n ≤ 90 then some (n - 65)
  else if 97 ≤ n ∧ n ≤ 122 then some (n - 97 + 26)
  else if 48 ≤ n ∧ n ≤ 57 then some (n - 48 + 52)
  else if c = '+' then some 62
  else if c = '/' then some 63
  else none

/-- `base64.b64encode(bytes).decode("utf-8")`. -/
def b64encode : List Nat → Str
  | [] => []
  | [a] => [b64Char (a / 4), b64Char (a % 4 * 16), '=', '=']
  | [a, b] => [b64Char (a / 4), b64Char (a % 4 * 16 + b / 16), b64Char (b % 16 * 4), '=']
  | a :: b :: c :: t =>
    b64Char (a / 4) :: b64Char (a % 4 * 16 + b / 16) :: b64Char (b % 16 * 4 + c / 64) ::
      b64Char (c % 64) :: b64encode t

/-- `binascii.a2b_base64` in non-strict mode: `q` is the position in the current quadruple, `left` the
bits left over, `pads` the number of pad characters seen.  Illegal characters are skipped; a complete
pad sequence stops; an incomplete quadruple at the end is a `binascii.Error` (a `ValueError`). -/
def a2bGo : Nat → Nat → Nat → Str → Except Err (List Nat)
  | q, _, _, [] => if q = 0 then .ok [] else .error .value
  | q, left, pads, c :: cs =>
    if c = '=' then
      if 2 ≤ q then
        if 4 ≤ q + (pads + 1) then .ok [] else a2bGo q left (pads + 1) cs
      else a2bGo q left pads cs
    else match b64Val c with
      | none => a2bGo q left pads cs
      | some v =>
        if q = 0 then a2bGo 1 v 0 cs
        else if q = 1 then
          match a2bGo 2 (v % 16) 0 cs with
          | .ok r => .ok ((left * 4 + v / 16) :: r)
          | .error e => .error e
        else if q = 2 then
          match a2bGo 3 (v % 4) 0 cs with
          | .ok r => .ok ((left * 16 + v / 4) :: r)
          | .error e => .error e
        else
          match a2bGo 0 0 0 cs with
          | .ok r => .ok ((left * 64 + v) :: r)
          | .error e => .error e

/-- `base64.b64decode(s)` for a `str`: non-ASCII text is a `ValueError`. -/
def b64decode (s : Str) : Except Err (List Nat) :=
  if s.all (fun c => decide (c.toNat < 128)) then a2bGo 0 0 0 s else .error .value

/-- Lower-case hexadecimal digit. -/
def hexChar (n : Nat) : Char := Nat.digitChar n

/-- `bytes.hex()`. -/
def bytesHex : List Nat → Str
  | [] => []
  | b :: t => hexChar (b / 16) :: hexChar (b % 16) :: bytesHex t

/-- `bytes.fromhex(s)`: pairs of hexadecimal digits, ASCII white space allowed between bytes. -/
def bytesFromHex : Str → Except Err (List Nat)
  | [] => .ok []
  | [c] => if isCSpace c then .ok [] else .error .value
  | c :: d :: t =>
    if isCSpace c then bytesFromHex (d :: t)
    else match digitIn 16 c, digitIn 16 d with
      | some x, some y =>
        match bytesFromHex t with
        | .ok r => .ok ((x * 16 + y) :: r)
        | .error e => .error e
      | _, _ => .error .value

end Epc
