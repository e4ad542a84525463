/-
A program that sends an EPC on: it writes an object down, reads the text, writes the new object down in another notation, and so on.
Everything is executed from the source (`Spec/Source`); this file does not use the model of the other claims.
-/
import Verif.Spec.Source
import Verif.Spec.Grammar
import Verif.Spec.Elem
import Verif.Spec.Six

namespace Epc.Src
open Spec Grammar

/-- `list(c.BinaryCodingScheme)` -/
def codings (c : Cl) : List Val :=
  match read (.cls c) .BinaryCodingScheme with
  | .ok (.enumCls o e ms) => ms.map fun m => .member o e m.1 m.2.1 m.2.2
  | _ => []

/-- `list(e)` for an enumeration `e` at the level of a module. -/
def members (e : Cl) : List Val := (clsDict e).filterMap fun p => (read (.cls e) p.1).toOption

/-- The enumeration of the filter values of a class. -/
def filterEnum : Cl → Option Cl
  | .SGTIN => some .SGTINFilterValue
  | .SSCC => some .SSCCFilterValue
  | .SGLN => some .SGLNFilterValue
  | .GRAI => some .GRAIFilterValue
  | .GIAI => some .GIAIFilterValue
  | .GSRN => some .GSRNFilterValue
  | .GSRNP => some .GSRNPFilterValue
  | .GDTI => some .GDTIFilterValue
  | .SGCN => some .SGCNFilterValue
  | .CPI => some .CPIFilterValue
  | .ITIP => some .ITIPFilterValue
  | .USDOD => some .USDODFilterValue
  | .ADI => some .ADIFilterValue
  | _ => .none

/-- The keyword arguments for `tag_uri`, `binary`, `hex` and `base64`: a coding scheme and, unless the object is a GID, a filter value. -/
def options : Val → List (List (Nm × Val))
  | .obj c _ =>
    match filterEnum c with
    | some e => (codings c).flatMap fun s => (members e).map fun f => [(.binary_coding_scheme, s), (.filter_value, f)]
    | .none => (codings c).map fun s => [(.binary_coding_scheme, s)]
  | _ => []

/-- The rest of a text after the first `k` colons. -/
def afterColons : Nat → Str → Str
  | 0, s => s
  | _ + 1, [] => []
  | k + 1, c :: s => if c = ':' then afterColons k s else afterColons (k + 1) s

/-- The company prefix in a pure identity URI: what stands between the fourth colon and the dot. -/
def companyPrefix (u : Str) : Str := (afterColons 4 u).takeWhile (· ≠ '.')

/-- The writers of tags and their readers. -/
def tagNotations : List (Nm × Nm) :=
  [(.tag_uri, .tag_uri_to_tag_encodable), (.binary, .binary_to_tag_encodable), (.hex, .hex_to_tag_encodable),
    (.base64, .base64_to_tag_encodable)]

/-- The object `o` is written down in one of the six notations, and reading the text ends with `r`.  Tags are written only with coding
schemes and filter values for which `tag_uri` returns. -/
inductive SentOn : Val → M Val → Prop
  | uri (o : Val) (u : Str) : read o .epc_uri = .ok (.str u) → SentOn o (function .epc_pure_identity_to_scheme [.str u] [])
  | element (o : Val) (u s : Str) : read o .epc_uri = .ok (.str u) → invoke o .gs1_element_string [] [] = .ok (.str s) →
      SentOn o (function .gs1_element_string_to_gs1_element [.str s, .int (companyPrefix u).length] [])
  | tag (o : Val) (kw : List (Nm × Val)) (w r : Nm) (t s : Str) : kw ∈ options o → invoke o .tag_uri [] kw = .ok (.str t) →
      (w, r) ∈ tagNotations → invoke o w [] kw = .ok (.str s) → SentOn o (function r [.str s] [])

/-- `o` is sent any number of times, each time in any notation, until it arrives or a text cannot be read; `r` is the outcome. -/
inductive Chain : Val → M Val → Prop
  | arrived (o : Val) : Chain o (.ok o)
  | onward (o p : Val) (r : M Val) : SentOn o (.ok p) → Chain p r → Chain o r
  | lost (o : Val) (e : Exn) : SentOn o (.error e) → Chain o (.error e)

/-- A URI with two fields. -/
def uri2 (c : Cls) (a b : Str) : Str := uriPrefix c ++ (a ++ '.' :: b)

/-- A URI with three fields. -/
def uri3 (c : Cls) (a b d : Str) : Str := uriPrefix c ++ (a ++ '.' :: (b ++ '.' :: d))

/-- The conditions on the URI. -/
def PortableUri : Cls → Str → Prop
  -- ASCII characters, a canonical serial number that does not look like an application identifier
  | .sgtin, u => Ascii u ∧ ∃ C D raw, '.' ∉ C ∧ '.' ∉ D ∧ u = uri3 .sgtin C D (escape raw) ∧ ¬ HasGroup 2 raw
  | .sgln, u => Ascii u ∧ ∃ C D raw, '.' ∉ C ∧ '.' ∉ D ∧ u = uri3 .sgln C D (escape raw) ∧ ¬ HasGroup 3 raw
  -- ASCII characters, a canonical serial number
  | .grai, u => Ascii u ∧ ∃ C D raw, '.' ∉ C ∧ '.' ∉ D ∧ u = uri3 .grai C D (escape raw)
  | .gdti, u => Ascii u ∧ ∃ C D raw, '.' ∉ C ∧ '.' ∉ D ∧ u = uri3 .gdti C D (escape raw)
  -- also no colon in the asset reference
  | .giai, u => Ascii u ∧ ∃ C raw, '.' ∉ C ∧ ':' ∉ raw ∧ u = uri2 .giai C (escape raw)
  -- piece and total of two digits; 99 has no binary form, and without one the digits may be of any script
  | .itip, u => ∃ C D p t raw, '.' ∉ C ∧ '.' ∉ D ∧ '.' ∉ p ∧ '.' ∉ t ∧
      u = uri3 .itip C D (p ++ '.' :: (t ++ '.' :: escape raw)) ∧ p.length = 2 ∧ t.length = 2 ∧
      (Ascii u ∨ unumber p = 99 ∨ unumber t = 99)
  -- a canonical lot number that does not look like an application identifier
  | .lgtin, u => ∃ C D raw, '.' ∉ C ∧ '.' ∉ D ∧ u = uri3 .lgtin C D (escape raw) ∧ ¬ HasGroup 2 raw
  -- a canonical serial number, unless there is no item reference and hence no element string
  | .upui, u => ∃ C D S, '.' ∉ C ∧ '.' ∉ D ∧ u = uri3 .upui C D S ∧ (D = [] ∨ ∃ raw, S = escape raw)
  -- a canonical consignment reference
  | .ginc, u => ∃ C raw, '.' ∉ C ∧ u = uri2 .ginc C (escape raw)
  -- a part number whose six-bit encoding does not contain the terminator early
  | .adi, u => ∃ C raw S, '.' ∉ C ∧ (∀ c ∈ raw, c ∈ gs39) ∧ u = uri3 .adi C (escape39 raw) S ∧ ¬ EarlyTerminator raw
  -- ASCII characters
  | .sscc, u | .gsrn, u | .gsrnp, u | .cpi, u | .sgcn, u | .gid, u | .usdod, u => Ascii u
  -- nothing
  | .pgln, _ | .gsin, _ | .bic, _ | .imovn, _ => True

end Epc.Src
