/-
Specification vocabulary: the fields of a binary encoding (EPC Tag Data Standard, section 14).
-/
import Verif.Spec.Basic
import Verif.Spec.Tables
import Verif.Spec.Digits

namespace Epc.Spec

/-- The number in the field of `k` bits that starts at bit `lo`. -/
def bitField (b : Str) (lo k : Nat) : Nat := bitsNumber ((b.drop lo).take k)

/-- `s` is the number `n` written with exactly `w` decimal digits. -/
def Padded (w n : Nat) (s : Str) : Prop := Digits s ∧ s.length = w ∧ number s = n

/-- `s` is the number `n` written without superfluous zeros. -/
def Plain (n : Nat) (s : Str) : Prop := Numeral s ∧ number s = n

/-- The fields of a GS1 key after header (8 bits) and filter value (3 bits): the partition value, the company prefix `C`, of `12 - p`
digits, and the reference `D`, of `K p` digits; `W` bits together.  (If the reference has no digits its bits are not looked at.) -/
def KeyFields (b : Str) (W : Nat) (K : Nat → Nat) (C D : Str) : Prop :=
  ∃ p ≤ 6, bitField b 11 3 = p ∧ Padded (12 - p) (bitField b 14 (prefixBits (12 - p))) C ∧
    if K p = 0 then D = [] else Padded (K p) (bitField b (14 + prefixBits (12 - p)) (W - 3 - prefixBits (12 - p))) D

/-- The same for references without fixed number of digits. -/
def FreeFields (b : Str) (W : Nat) (C D : Str) : Prop :=
  ∃ p ≤ 6, bitField b 11 3 = p ∧ Padded (12 - p) (bitField b 14 (prefixBits (12 - p))) C ∧
    Plain (bitField b (14 + prefixBits (12 - p)) (W - 3 - prefixBits (12 - p))) D

/-- The `k` characters of eight bits each that start at bit `lo`. -/
def byteText (b : Str) (lo : Nat) : Nat → Str
  | 0 => []
  | k + 1 => Char.ofNat (bitField b lo 8) :: byteText b (lo + 8) k

/-- The text in `k` groups of seven bits that start at bit `lo`; groups of seven zeros stand for nothing. -/
def sevenText (b : Str) (lo : Nat) : Nat → Str
  | 0 => []
  | k + 1 => if bitField b lo 7 = 0 then sevenText b (lo + 7) k else Char.ofNat (bitField b lo 7) :: sevenText b (lo + 7) k

/-- The fields of a key with a text as reference: the partition value, the company prefix of `12 - p` digits, and the text `raw` in as many
groups of seven bits as fit what is left of the `W` bits. -/
def TextFields (b : Str) (W : Nat) (C raw : Str) : Prop :=
  ∃ p ≤ 6, bitField b 11 3 = p ∧ Padded (12 - p) (bitField b 14 (prefixBits (12 - p))) C ∧
    raw = sevenText b (14 + prefixBits (12 - p)) ((W - 3 - prefixBits (12 - p)) / 7)

/-- A CAGE code or DoDAAC: five or six capital letters (other than I and O) or digits. -/
def CageCode (s : Str) : Prop := (∀ c ∈ s, c ∈ cageChars) ∧ 5 ≤ s.length ∧ s.length ≤ 6

/-- The character of a six-bit group: the codes from 32 are ASCII codes, the others are ASCII codes less 64. -/
def sixChar (n : Nat) : Char := Char.ofNat (if 32 ≤ n then n else 64 + n)

/-- The text in at most `k` groups of six bits that start at bit `lo`; six zeros or the end of the bits end it. -/
def sixText (b : Str) (lo : Nat) : Nat → Str
  | 0 => []
  | k + 1 => if b.length < lo + 6 ∨ bitField b lo 6 = 0 then [] else sixChar (bitField b lo 6) :: sixText b (lo + 6) k

/-- The fields of a key with a text of variable length as reference: the partition value `p`, the company prefix of `12 - p` digits, and the
text `raw` in at most `18 + p` groups of six bits; what follows the terminator of the text starts at bit `e`. -/
def VarFields (b : Str) (C raw : Str) (e : Nat) : Prop :=
  ∃ p ≤ 6, bitField b 11 3 = p ∧ Padded (12 - p) (bitField b 14 (prefixBits (12 - p))) C ∧
    raw = sixText b (14 + prefixBits (12 - p)) (19 + p) ∧ raw.length ≤ 18 + p ∧ e = 14 + prefixBits (12 - p) + 6 * raw.length + 6

/-- The first six zeros from bit 50 on, not necessarily aligned, start at bit `t`. -/
def FirstZeros (b : Str) (t : Nat) : Prop :=
  50 ≤ t ∧ t + 6 ≤ b.length ∧ bitField b t 6 = 0 ∧ ∀ s, 50 ≤ s → s < t → bitField b s 6 ≠ 0

/-- The text in the 36 bits of a CAGE code: six characters, or a blank (code 32) and five characters. -/
def cageText (b : Str) : Str := if bitField b 14 6 = 32 then sixText (b.take 50) 20 5 else sixText (b.take 50) 14 6

/-- A part number of an ADI: up to 32 digits, capital letters, '-' and '/'. -/
def AdiPart (s : Str) : Prop := (∀ c ∈ s, c ∈ gs39 ∧ c ≠ '#') ∧ s.length ≤ 32

/-- A serial number of an ADI: up to 30 digits, capital letters, '-' and '/', not none; before them there may be a '#'. -/
def AdiSerial (s : Str) : Prop := (∀ c ∈ s, c ∈ gs39) ∧ '#' ∉ s.tail ∧ s ≠ [] ∧ s ≠ py "#" ∧ s.length ≤ 30

/-- The number `n` in exactly `w` bits, most significant bit first. -/
def bitsOf : Nat → Nat → Str
  | 0, _ => []
  | w + 1, n => bitsOf w (n / 2) ++ [if n % 2 = 1 then '1' else '0']

/-- Consecutive fields: width and number of each. -/
def layout (fields : List (Nat × Nat)) : Str := fields.flatMap fun p => bitsOf p.1 p.2

/-- The fields of a GS1 key: partition value, company prefix, reference; `W` bits together. -/
def keyLayout (W : Nat) (C D : Str) : List (Nat × Nat) :=
  [(3, 12 - C.length), (prefixBits C.length, number C), (W - 3 - prefixBits C.length, number D)]

/-- A text as groups of `g` bits, which hold the ASCII codes (of which the last `g` bits are taken). -/
def textLayout (g : Nat) (raw : Str) : List (Nat × Nat) := raw.map fun c => (g, c.toNat % 2 ^ g)

end Epc.Spec
