/-
Specification vocabulary: an object that is written down, read, written down in another notation, read again, and so on.
-/
import Verif.Model.Parsers
import Verif.Spec.Basic
import Verif.Spec.Digits
import Verif.Spec.Elem
import Verif.Spec.Six

namespace Epc.Spec

/-- For some coding scheme and filter value `tag_uri` returns `t`, and `binary`, `hex` and `base64` answer `b`, `h` and `s`. -/
def Forms (t : Str) (b h s : Except Err Str) : Scheme → Prop
  | .sgtin x => ∃ cs f, x.tagUri cs f = .ok t ∧ x.binary cs f = b ∧ x.hex cs f = h ∧ x.base64 cs f = s
  | .sscc x => ∃ cs f, x.tagUri cs f = .ok t ∧ x.binary cs f = b ∧ x.hex cs f = h ∧ x.base64 cs f = s
  | .sgln x => ∃ cs f, x.tagUri cs f = .ok t ∧ x.binary cs f = b ∧ x.hex cs f = h ∧ x.base64 cs f = s
  | .grai x => ∃ cs f, x.tagUri cs f = .ok t ∧ x.binary cs f = b ∧ x.hex cs f = h ∧ x.base64 cs f = s
  | .giai x => ∃ cs f, x.tagUri cs f = .ok t ∧ x.binary cs f = b ∧ x.hex cs f = h ∧ x.base64 cs f = s
  | .gsrn x => ∃ cs f, x.tagUri cs f = .ok t ∧ x.binary cs f = b ∧ x.hex cs f = h ∧ x.base64 cs f = s
  | .gsrnp x => ∃ cs f, x.tagUri cs f = .ok t ∧ x.binary cs f = b ∧ x.hex cs f = h ∧ x.base64 cs f = s
  | .gdti x => ∃ cs f, x.tagUri cs f = .ok t ∧ x.binary cs f = b ∧ x.hex cs f = h ∧ x.base64 cs f = s
  | .cpi x => ∃ cs f, x.tagUri cs f = .ok t ∧ x.binary cs f = b ∧ x.hex cs f = h ∧ x.base64 cs f = s
  | .sgcn x => ∃ cs f, x.tagUri cs f = .ok t ∧ x.binary cs f = b ∧ x.hex cs f = h ∧ x.base64 cs f = s
  | .itip x => ∃ cs f, x.tagUri cs f = .ok t ∧ x.binary cs f = b ∧ x.hex cs f = h ∧ x.base64 cs f = s
  | .usdod x => ∃ cs f, x.tagUri cs f = .ok t ∧ x.binary cs f = b ∧ x.hex cs f = h ∧ x.base64 cs f = s
  | .adi x => ∃ cs f, x.tagUri cs f = .ok t ∧ x.binary cs f = b ∧ x.hex cs f = h ∧ x.base64 cs f = s
  | .gid x => ∃ cs, x.tagUri cs = .ok t ∧ x.binary cs = b ∧ x.hex cs = h ∧ x.base64 cs = s
  | _ => False

/-- The company prefix of an object with an element string (GINC does not store it: it is the part of the URI before the dot). -/
def Prefix (C : Str) : Scheme → Prop
  | .sgtin x => C = x.companyPref
  | .sscc x => C = x.companyPref
  | .sgln x => C = x.companyPref
  | .grai x => C = x.companyPref
  | .giai x => C = x.companyPref
  | .gsrn x => C = x.companyPref
  | .gsrnp x => C = x.companyPref
  | .gdti x => C = x.companyPref
  | .cpi x => C = x.companyPref
  | .sgcn x => C = x.companyPref
  | .itip x => C = x.companyPref
  | .lgtin x => C = x.companyPref
  | .upui x => C = x.companyPref
  | .pgln x => C = x.companyPref
  | .gsin x => C = x.companyPref
  | .ginc x => '.' ∉ C ∧ ∃ rest, x.epcUri = py "urn:epc:id:ginc:" ++ C ++ '.' :: rest
  | _ => False

/-- `x` is written down in one of the six notations, and reading the text has the outcome `r`. -/
inductive Sent : Scheme → Except Err Scheme → Prop
  | uri (x : Scheme) : Sent x (epcPureIdentityToScheme x.epcUri)
  | element (x : Scheme) (s C : Str) : x.gs1ElementString = .ok s → Prefix C x → Sent x (gs1ElementStringToGs1Element s C.length)
  | tagUri (x : Scheme) (t : Str) (b h s : Except Err Str) : Forms t b h s x → Sent x (tagUriToTagEncodable t)
  | binary (x : Scheme) (t b : Str) (h s : Except Err Str) : Forms t (.ok b) h s x → Sent x (binaryToTagEncodable b)
  | hex (x : Scheme) (t h : Str) (b s : Except Err Str) : Forms t b (.ok h) s x → Sent x (hexToTagEncodable h)
  | base64 (x : Scheme) (t s : Str) (b h : Except Err Str) : Forms t b h (.ok s) x → Sent x (base64ToTagEncodable s)

/-- `x` is sent any number of times, each time in any notation, until it arrives or a text cannot be read; `r` is the outcome. -/
inductive Relay : Scheme → Except Err Scheme → Prop
  | arrived (x : Scheme) : Relay x (.ok x)
  | onward (x y : Scheme) (r : Except Err Scheme) : Sent x (.ok y) → Relay y r → Relay x r
  | lost (x : Scheme) (e : Err) : Sent x (.error e) → Relay x (.error e)

/-- The conditions on an object. -/
def Portable : Scheme → Prop
  -- ASCII characters, a canonical serial number that does not look like an application identifier
  | .sgtin x => Ascii x.epcUri ∧ ∃ raw, x.serial = escape raw ∧ ¬ HasGroup 2 raw
  | .sgln x => Ascii x.epcUri ∧ ∃ raw, x.serial = escape raw ∧ ¬ HasGroup 3 raw
  -- ASCII characters, a canonical serial number
  | .grai x => Ascii x.epcUri ∧ ∃ raw, x.serial = escape raw
  | .gdti x => Ascii x.epcUri ∧ ∃ raw, x.serial = escape raw
  -- also no colon behind `urn:epc:id:giai:`
  | .giai x => Ascii x.epcUri ∧ ':' ∉ x.epcUri.drop 16 ∧ ∃ raw, x.assetRef = escape raw
  -- piece and total of two digits; 99 has no binary form, and without one the digits may be of any script
  | .itip x => (Ascii x.epcUri ∨ unumber x.piece = 99 ∨ unumber x.total = 99) ∧ x.piece.length = 2 ∧ x.total.length = 2 ∧
      ∃ raw, x.serial = escape raw
  -- a canonical lot number that does not look like an application identifier
  | .lgtin x => x.epcUri = py "urn:epc:class:lgtin:" ++ x.companyPref ++ '.' :: x.itemRef ++ '.' :: escape x.lot ∧ ¬ HasGroup 2 x.lot
  -- a canonical serial number, unless there is no item reference and hence no element string
  | .upui x => x.itemRef = [] ∨ x.epcUri = py "urn:epc:id:upui:" ++ x.companyPref ++ '.' :: x.itemRef ++ '.' :: escape x.tpx
  | .ginc x => ∃ C raw, '.' ∉ C ∧ x.epcUri = py "urn:epc:id:ginc:" ++ C ++ '.' :: escape raw
  -- a part number whose six-bit encoding does not contain the terminator early
  | .adi x => ∃ raw, (∀ c ∈ raw, c ∈ gs39) ∧ x.partNumber = escape39 raw ∧ ¬ EarlyTerminator raw
  -- ASCII characters
  | .sscc x => Ascii x.epcUri
  | .gsrn x => Ascii x.epcUri
  | .gsrnp x => Ascii x.epcUri
  | .cpi x => Ascii x.epcUri
  | .sgcn x => Ascii x.epcUri
  | .gid x => Ascii x.epcUri
  | .usdod x => Ascii x.epcUri
  -- nothing
  | .pgln _ => True
  | .gsin _ => True
  | .bic _ => True
  | .imovn _ => True

end Epc.Spec
