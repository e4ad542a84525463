/-
Specification: the formats that the patterns of /repo/epcpy/utils/regex.py describe, as tables.

A URI is a prefix followed by fields with dots between them.  An element string is a row of pieces.
-/
import Verif.Spec.Serial
import Verif.Spec.Digits
import Verif.Model.Parsers
import Verif.Src.Code.Regex
import Verif.Py.Pattern

namespace Epc.Grammar
open Spec

/-- The kinds of fields. -/
inductive Field where
  /-- one or more decimal digits -/
  | digits
  /-- decimal digits, possibly none -/
  | digits?
  /-- a numeral without superfluous zeros -/
  | numeral
  /-- a free-form serial -/
  | serial
  /-- a component or part reference -/
  | reference
  /-- a CAGE code or DoDAAC -/
  | cage
  /-- an original part number -/
  | partNumber
  /-- a serial that may begin with `#` -/
  | hashSerial
  /-- the wildcard -/
  | star

/-- The texts that may stand in a field. -/
def Field.Holds (s : Str) : Field → Prop
  | .digits => s ≠ [] ∧ UDigits s
  | .digits? => UDigits s
  | .numeral => UNumeral s
  | .serial => SerialText s
  | .reference => ∃ raw, raw ≠ [] ∧ (∀ c ∈ raw, c ∈ gs39) ∧ s = escape39 raw
  | .cage => (∀ c ∈ s, c ∈ cageChars) ∧ 5 ≤ s.length ∧ s.length ≤ 6
  | .partNumber => ∃ raw, (∀ c ∈ raw, c ∈ gs39 ∧ c ≠ '#') ∧ s = escape39 raw
  | .hashSerial => ∃ raw, (∀ c ∈ raw, c ∈ gs39) ∧ '#' ∉ raw.tail ∧ raw ≠ [] ∧ raw ≠ py "#" ∧ s = escape39 raw
  | .star => s = py "*"

/-- Fields with dots between them. -/
def Dotted : List Field → Str → Prop
  | [], s => s = []
  | [f], s => f.Holds s
  | f :: fs, s => ∃ a b, s = a ++ '.' :: b ∧ f.Holds a ∧ Dotted fs b

/-- The fields of the pure identity URIs; the bodies of BIC and IMOVN URIs have no fields. -/
def fields : Cls → List Field
  | .sgtin => [.digits, .digits, .serial]
  | .sscc => [.digits, .digits]
  | .sgln => [.digits, .digits?, .serial]
  | .grai => [.digits, .digits?, .serial]
  | .giai => [.digits, .serial]
  | .gsrn => [.digits, .digits]
  | .gsrnp => [.digits, .digits]
  | .gdti => [.digits, .digits?, .serial]
  | .cpi => [.digits, .reference, .numeral]
  | .sgcn => [.digits, .digits?, .digits]
  | .ginc => [.digits, .serial]
  | .gsin => [.digits, .digits]
  | .itip => [.digits, .digits, .digits, .digits, .serial]
  | .upui => [.digits, .digits?, .serial]
  | .pgln => [.digits, .digits?]
  | .gid => [.numeral, .numeral, .numeral]
  | .usdod => [.cage, .numeral]
  | .adi => [.cage, .partNumber, .hashSerial]
  | .lgtin => [.digits, .digits, .serial]
  | .bic | .imovn => []

/-- The part of a pure identity URI after the prefix. -/
def Body : Cls → Str → Prop
  | .bic, s => ∃ o c d, s = o ++ c :: d ∧ (o.length = 3 ∧ ∀ x ∈ o, x ∈ bicLetters) ∧ c ∈ py "JUZ" ∧ d.length = 7 ∧ Digits d
  | .imovn, s => s.length = 7 ∧ Digits s
  | c, s => Dotted (fields c) s

/-- The prefix of the pure identity URIs of a class. -/
def uriPrefix : Cls → Str
  | .lgtin => py "urn:epc:class:lgtin:"
  | c => py "urn:epc:id:" ++ (c.name ++ py ":")

/-- The coding schemes of the tag URIs: name, class, and whether there is a filter value. -/
def tagForms : List (Str × Cls × Bool) :=
  [(py "sgtin-96", .sgtin, true), (py "sgtin-198", .sgtin, true), (py "sscc-96", .sscc, true), (py "sgln-96", .sgln, true),
   (py "sgln-195", .sgln, true), (py "grai-96", .grai, true), (py "grai-170", .grai, true), (py "giai-96", .giai, true),
   (py "giai-202", .giai, true), (py "gsrn-96", .gsrn, true), (py "gsrnp-96", .gsrnp, true), (py "gdti-96", .gdti, true),
   (py "gdti-174", .gdti, true), (py "cpi-96", .cpi, true), (py "cpi-var", .cpi, true), (py "sgcn-96", .sgcn, true),
   (py "itip-110", .itip, true), (py "itip-212", .itip, true), (py "gid-96", .gid, false), (py "usdod-96", .usdod, true),
   (py "adi-var", .adi, true)]

/-- The last `k` fields replaced by the wildcard. -/
def starred (k : Nat) (fs : List Field) : List Field := fs.take (fs.length - k) ++ List.replicate (min k fs.length) .star

/-- The fields of the id patterns: those of the URI, but the item reference of an UPUI may not be empty. -/
def patternFields : Cls → List Field
  | .upui => [.digits, .digits, .serial]
  | c => fields c

/-- The classes that have id patterns. -/
def hasPattern : Cls → Bool
  | .bic | .imovn | .lgtin => false
  | _ => true

/-- How many of the last fields may be wildcards: any number, but in an ITIP pattern neither two nor all five. -/
def Stars : Cls → Nat → Prop
  | .itip, k => k = 0 ∨ k = 1 ∨ k = 3 ∨ k = 4
  | c, k => k ≤ (patternFields c).length

/-- The part of an id pattern after the name of the class.  In place of the ITIP pattern with five wildcards there is `*.**.*.*`. -/
def PatternBody (c : Cls) (s : Str) : Prop :=
  (∃ k, Stars c k ∧ Dotted (starred k (patternFields c)) s) ∨ (c = .itip ∧ s = py "*.**.*.*")

/-! ### Element strings -/

/-- The pieces of element strings. -/
inductive Piece where
  | text (p : Str)
  /-- between `m` and `n` decimal digits -/
  | digits (m n : Nat)
  /-- between `m` and `n` characters of the GS1 set 82 -/
  | chars (m n : Nat)
  /-- between `m` and `n` characters of the GS1 set 39 -/
  | ref (m n : Nat)

def Piece.Holds (s : Str) : Piece → Prop
  | .text p => s = p
  | .digits m n => UDigits s ∧ m ≤ s.length ∧ s.length ≤ n
  | .chars m n => (∀ c ∈ s, c ∈ gs82) ∧ m ≤ s.length ∧ s.length ≤ n
  | .ref m n => (∀ c ∈ s, c ∈ gs39) ∧ m ≤ s.length ∧ s.length ≤ n

/-- Pieces one after the other. -/
def Row : List Piece → Str → Prop
  | [], s => s = []
  | [p], s => p.Holds s
  | p :: ps, s => ∃ a b, s = a ++ b ∧ p.Holds a ∧ Row ps b

/-- The element strings of a class. -/
def pieces : Cls → Option (List Piece)
  | .sgtin => some [.text (py "(01)"), .digits 14 14, .text (py "(21)"), .chars 1 20]
  | .sscc => some [.text (py "(00)"), .digits 18 18]
  | .sgln => some [.text (py "(414)"), .digits 13 13, .text (py "(254)"), .chars 1 20]
  | .grai => some [.text (py "(8003)0"), .digits 13 13, .chars 1 16]
  | .giai => some [.text (py "(8004)"), .digits 6 12, .chars 1 24]
  | .gsrn => some [.text (py "(8018)"), .digits 18 18]
  | .gsrnp => some [.text (py "(8017)"), .digits 18 18]
  | .gdti => some [.text (py "(253)"), .digits 13 13, .chars 1 17]
  | .cpi => some [.text (py "(8010)"), .digits 6 12, .ref 0 24, .text (py "(8011)"), .digits 1 12]
  | .sgcn => some [.text (py "(255)"), .digits 13 13, .chars 1 12]
  | .ginc => some [.text (py "(401)"), .digits 6 12, .chars 1 24]
  | .gsin => some [.text (py "(402)"), .digits 17 17]
  | .itip => some [.text (py "(8006)"), .digits 18 18, .text (py "(21)"), .chars 1 20]
  | .upui => some [.text (py "(01)"), .digits 14 14, .text (py "(235)"), .chars 1 28]
  | .pgln => some [.text (py "(417)"), .digits 13 13]
  | .lgtin => some [.text (py "(01)"), .digits 14 14, .text (py "(10)"), .chars 1 20]
  | .adi | .bic | .gid | .imovn | .usdod => .none

/-! ### The texts of the source -/

/-- The pattern of the pure identity URIs of a class in /repo/epcpy/utils/regex.py. -/
def uriText : Cls → Str
  | .sgtin => Src.regex.SGTIN_URI
  | .sscc => Src.regex.SSCC_URI
  | .sgln => Src.regex.SGLN_URI
  | .grai => Src.regex.GRAI_URI
  | .giai => Src.regex.GIAI_URI
  | .gsrn => Src.regex.GSRN_URI
  | .gsrnp => Src.regex.GSRNP_URI
  | .gdti => Src.regex.GDTI_URI
  | .cpi => Src.regex.CPI_URI
  | .sgcn => Src.regex.SGCN_URI
  | .ginc => Src.regex.GINC_URI
  | .gsin => Src.regex.GSIN_URI
  | .itip => Src.regex.ITIP_URI
  | .upui => Src.regex.UPUI_URI
  | .pgln => Src.regex.PGLN_URI
  | .gid => Src.regex.GID_URI
  | .usdod => Src.regex.USDOD_URI
  | .adi => Src.regex.ADI_URI
  | .bic => Src.regex.BIC_URI
  | .imovn => Src.regex.IMOVN_URI
  | .lgtin => Src.regex.LGTIN_CLASS

/-- The pattern of the element strings of a class in /repo/epcpy/utils/regex.py. -/
def elemText : Cls → Option Str
  | .sgtin => some Src.regex.SGTIN_GS1_ELEMENT_STRING
  | .sscc => some Src.regex.SSCC_GS1_ELEMENT_STRING
  | .sgln => some Src.regex.SGLN_GS1_ELEMENT_STRING
  | .grai => some Src.regex.GRAI_GS1_ELEMENT_STRING
  | .giai => some Src.regex.GIAI_GS1_ELEMENT_STRING
  | .gsrn => some Src.regex.GSRN_GS1_ELEMENT_STRING
  | .gsrnp => some Src.regex.GSRNP_GS1_ELEMENT_STRING
  | .gdti => some Src.regex.GDTI_GS1_ELEMENT_STRING
  | .cpi => some Src.regex.CPI_GS1_ELEMENT_STRING
  | .sgcn => some Src.regex.SGCN_GS1_ELEMENT_STRING
  | .ginc => some Src.regex.GINC_GS1_ELEMENT_STRING
  | .gsin => some Src.regex.GSIN_GS1_ELEMENT_STRING
  | .itip => some Src.regex.ITIP_GS1_ELEMENT_STRING
  | .upui => some Src.regex.UPUI_GS1_ELEMENT_STRING
  | .pgln => some Src.regex.PGLN_GS1_ELEMENT_STRING
  | .lgtin => some Src.regex.LGTIN_GS1_ELEMENT_STRING
  | .adi | .bic | .gid | .imovn | .usdod => .none

/-- `re.compile(text)` succeeds and the pattern matches the whole of `s`. -/
def Accepts (text : Str) (s : Str) : Prop := ∃ r, compile text = some r ∧ r.fullmatch s = true

end Epc.Grammar
