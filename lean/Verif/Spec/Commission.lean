/-
Specification vocabulary: the tag of an item, executed from the source.
-/
import Verif.Spec.Program
import Verif.Spec.Members

namespace Epc.Src

/-- `gtin.zfill(14)` of at most 14 digits. -/
def gtin14 (g : Str) : Str := List.replicate (14 - g.length) '0' ++ g

/-- With the coding scheme `s` and the filter value `v` the object `o` has a tag URI, a binary, a hexadecimal and a base64 form; the general parser of each
notation returns `o` again, and `get_gs1_key` of the first three is `key`. -/
def TagOf (o s v : Val) (key t b h d : Str) : Prop :=
  invoke o .tag_uri [] [(.binary_coding_scheme, s), (.filter_value, v)] = .ok (.str t) ∧
  invoke o .binary [] [(.binary_coding_scheme, s), (.filter_value, v)] = .ok (.str b) ∧
  invoke o .hex [] [(.binary_coding_scheme, s), (.filter_value, v)] = .ok (.str h) ∧
  invoke o .base64 [] [(.binary_coding_scheme, s), (.filter_value, v)] = .ok (.str d) ∧
  function .tag_uri_to_tag_encodable [.str t] [] = .ok o ∧
  function .binary_to_tag_encodable [.str b] [] = .ok o ∧
  function .hex_to_tag_encodable [.str h] [] = .ok o ∧
  function .base64_to_tag_encodable [.str d] [] = .ok o ∧
  ∀ w ∈ [t, b, h], function .get_gs1_key [.str w] [] = .ok (.str key)

/-- A GTIN with the right check digit, a serial number and a company prefix length from which a tag can be made. -/
structure Item where
  /-- the GTIN, of 14 or fewer digits -/
  gtin : Str
  /-- the serial number, not escaped -/
  serial : Str
  /-- the length of the company prefix -/
  length : Nat
  digits : Spec.Digits gtin
  short : gtin.length ≤ 14
  check : Spec.CheckDigitOk (gtin14 gtin)
  six : 6 ≤ length
  twelve : length ≤ 12
  some : serial ≠ []
  twenty : serial.length ≤ 20
  gs82 : ∀ c ∈ serial, c ∈ Spec.gs82
  escapes : Spec.LoneLetterEscapes serial

/-- `SGTIN.from_gtin_plus_serial(gtin, serial, length)`; the serial number is passed in its escaped form. -/
def Item.make (i : Item) : M Val := invoke (.cls .SGTIN) .from_gtin_plus_serial [.str i.gtin, .str (Spec.escape i.serial), .int i.length] []

/-- The GS1 element string on the label of the item. -/
def Item.label (i : Item) : Str := py "(01)" ++ gtin14 i.gtin ++ py "(21)" ++ i.serial

/-- The coding schemes that can express the item: SGTIN-198 always, SGTIN-96 a serial number that is a number below 2 ^ 38 without leading zeros. -/
def Item.Coding (i : Item) (s : Val) : Prop :=
  codingMember .SGTIN .SGTIN_198 = .ok s ∨
  codingMember .SGTIN .SGTIN_96 = .ok s ∧ Spec.Numeral i.serial ∧ Spec.number i.serial < 2 ^ 38

end Epc.Src
