/-
C03: hexadecimal, binary and base64 transports are lossless.
-/
import Verif.Lemmas.Transport

namespace Epc
open Spec

/-- `hex_to_binary(binary_to_hex(b)) == b` for a bit string of whole nibbles whose first nibble is not zero. -/
theorem C03_binary_hex_binary (b : Str) (hb : Bits b) (hl : b.length % 4 = 0) (hne : b ≠ [])
    (hz : b.take 4 ≠ py "0000") : (binaryToHex b).bind hexToBinary = .ok b :=
  binary_hex_binary hb hl hne hz

/-- `base64_to_hex(hex_to_base64(h)) == h.lower()` for a hexadecimal string of whole bytes. -/
theorem C03_hex_base64_hex (h : Str) (hh : HexDigits h) (hl : h.length % 2 = 0) :
    (hexToBase64 h).bind base64ToHex = .ok (h.map lowerChar) :=
  hex_base64_hex hh hl

/-- `hex_to_binary(h)` has four bits per digit. -/
theorem C03_hex_binary_length (h : Str) (hh : HexDigits h) (hne : h ≠ []) :
    ∃ b, hexToBinary h = .ok b ∧ Bits b ∧ b.length = 4 * h.length :=
  hexToBinary_length hh hne

/-- It does not depend on the letter case. -/
theorem C03_hex_case (h : Str) (hh : HexDigits h) : hexToBinary (h.map lowerChar) = hexToBinary h :=
  hexToBinary_lower hh

/-- Base64 padding at the end may be dropped. -/
theorem C03_base64_padding (h t : Str) (hh : HexDigits h) (hl : h.length % 2 = 0) (ht : hexToBase64 h = .ok t) :
    base64ToHex (dropRightWhile (· == '=') t) = base64ToHex t :=
  base64_padding hh hl ht

example : binaryToHex (py "0011000011111010") = .ok (py "30FA") ∧ hexToBinary (py "30fA") = .ok (py "0011000011111010") := by
  decide +kernel
example : hexToBase64 (py "30fAb1") = .ok (py "MPqx") ∧ base64ToHex (py "MPqx") = .ok (py "30fab1") := by
  decide +kernel
example : hexToBase64 (py "30FA") = .ok (py "MPo=") ∧ base64ToHex (py "MPo") = .ok (py "30fa") := by
  decide +kernel

end Epc
