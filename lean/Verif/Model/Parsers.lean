/-
Model of /repo/epcpy/utils/parsers.py and of the class hierarchy it relies on.
-/
import Verif.Model.Adi
import Verif.Model.Bic
import Verif.Model.Cpi
import Verif.Model.Gdti
import Verif.Model.Giai
import Verif.Model.Gid
import Verif.Model.Ginc
import Verif.Model.Grai
import Verif.Model.Gsin
import Verif.Model.Gsrn
import Verif.Model.Gsrnp
import Verif.Model.Imovn
import Verif.Model.Itip
import Verif.Model.Lgtin
import Verif.Model.Pgln
import Verif.Model.Sgcn
import Verif.Model.Sgln
import Verif.Model.Sgtin
import Verif.Model.Sscc
import Verif.Model.Upui
import Verif.Model.Usdod

namespace Epc

/-- The scheme classes, in the order of `EPC_SCHEMES`.  /repo/epcpy/utils/parsers.py:41-63 -/
inductive Cls where
  | adi
  | bic
  | cpi
  | gdti
  | giai
  | gid
  | ginc
  | grai
  | gsin
  | gsrn
  | gsrnp
  | imovn
  | itip
  | lgtin
  | pgln
  | sgcn
  | sgln
  | sgtin
  | sscc
  | upui
  | usdod
  deriving DecidableEq, Repr

/-- An instance of any of the scheme classes. -/
inductive Scheme where
  | adi (x : ADI)
  | bic (x : BIC)
  | cpi (x : CPI)
  | gdti (x : GDTI)
  | giai (x : GIAI)
  | gid (x : GID)
  | ginc (x : GINC)
  | grai (x : GRAI)
  | gsin (x : GSIN)
  | gsrn (x : GSRN)
  | gsrnp (x : GSRNP)
  | imovn (x : IMOVN)
  | itip (x : ITIP)
  | lgtin (x : LGTIN)
  | pgln (x : PGLN)
  | sgcn (x : SGCN)
  | sgln (x : SGLN)
  | sgtin (x : SGTIN)
  | sscc (x : SSCC)
  | upui (x : UPUI)
  | usdod (x : USDOD)
  deriving DecidableEq, Repr

namespace Cls

/-- `EPC_SCHEMES`.  /repo/epcpy/utils/parsers.py:41-63 -/
def all : List Cls :=
  [.adi, .bic, .cpi, .gdti, .giai, .gid, .ginc, .grai, .gsin, .gsrn, .gsrnp, .imovn, .itip, .lgtin, .pgln, .sgcn, .sgln, .sgtin, .sscc, .upui, .usdod]

/-- `cls.__name__.lower()`. -/
def name : Cls → Str
  | .adi => py "adi"
  | .bic => py "bic"
  | .cpi => py "cpi"
  | .gdti => py "gdti"
  | .giai => py "giai"
  | .gid => py "gid"
  | .ginc => py "ginc"
  | .grai => py "grai"
  | .gsin => py "gsin"
  | .gsrn => py "gsrn"
  | .gsrnp => py "gsrnp"
  | .imovn => py "imovn"
  | .itip => py "itip"
  | .lgtin => py "lgtin"
  | .pgln => py "pgln"
  | .sgcn => py "sgcn"
  | .sgln => py "sgln"
  | .sgtin => py "sgtin"
  | .sscc => py "sscc"
  | .upui => py "upui"
  | .usdod => py "usdod"

/-- `issubclass(cls, GS1Element)`, read off the class statements in /repo/epcpy/epc_schemes. -/
def isGs1Element : Cls → Bool
  | .cpi | .gdti | .giai | .ginc | .grai | .gsin | .gsrn | .gsrnp | .itip | .lgtin | .pgln | .sgcn | .sgln | .sgtin | .sscc | .upui => true
  | _ => false

/-- `issubclass(cls, GS1Keyed)`. -/
def isGs1Keyed : Cls → Bool
  | .gdti | .giai | .ginc | .grai | .gsin | .gsrn | .gsrnp | .lgtin | .pgln | .sgcn | .sgln | .sgtin | .sscc => true
  | _ => false

/-- `issubclass(cls, TagEncodable)`. -/
def isTagEncodable : Cls → Bool
  | .adi | .cpi | .gdti | .giai | .gid | .grai | .gsrn | .gsrnp | .itip | .sgcn | .sgln | .sgtin | .sscc | .usdod => true
  | _ => false

/-- `cls(epc_uri)`, also `cls.from_epc_uri`.  /repo/epcpy/epc_schemes/base_scheme.py:40-50 -/
def new : Cls → Str → Except Err Scheme
  | .adi, u => (ADI.new u).map .adi
  | .bic, u => (BIC.new u).map .bic
  | .cpi, u => (CPI.new u).map .cpi
  | .gdti, u => (GDTI.new u).map .gdti
  | .giai, u => (GIAI.new u).map .giai
  | .gid, u => (GID.new u).map .gid
  | .ginc, u => (GINC.new u).map .ginc
  | .grai, u => (GRAI.new u).map .grai
  | .gsin, u => (GSIN.new u).map .gsin
  | .gsrn, u => (GSRN.new u).map .gsrn
  | .gsrnp, u => (GSRNP.new u).map .gsrnp
  | .imovn, u => (IMOVN.new u).map .imovn
  | .itip, u => (ITIP.new u).map .itip
  | .lgtin, u => (LGTIN.new u).map .lgtin
  | .pgln, u => (PGLN.new u).map .pgln
  | .sgcn, u => (SGCN.new u).map .sgcn
  | .sgln, u => (SGLN.new u).map .sgln
  | .sgtin, u => (SGTIN.new u).map .sgtin
  | .sscc, u => (SSCC.new u).map .sscc
  | .upui, u => (UPUI.new u).map .upui
  | .usdod, u => (USDOD.new u).map .usdod

/-- `cls.gs1_element_string_regex` of the `GS1Element` classes (`none`: the class has no such attribute). -/
def elemRegex : Cls → Option Re
  | .cpi => some Rx.cpiElem
  | .gdti => some Rx.gdtiElem
  | .giai => some Rx.giaiElem
  | .ginc => some Rx.gincElem
  | .grai => some Rx.graiElem
  | .gsin => some Rx.gsinElem
  | .gsrn => some Rx.gsrnElem
  | .gsrnp => some Rx.gsrnpElem
  | .itip => some Rx.itipElem
  | .lgtin => some Rx.lgtinElem
  | .pgln => some Rx.pglnElem
  | .sgcn => some Rx.sgcnElem
  | .sgln => some Rx.sglnElem
  | .sgtin => some Rx.sgtinElem
  | .sscc => some Rx.ssccElem
  | .upui => some Rx.upuiElem
  | _ => none

/-- `cls.from_gs1_element_string`.  Only called on `GS1Element` classes. -/
def fromGs1ElementString : Cls → Str → Int → Except Err Scheme
  | .cpi, e, n => (CPI.fromGs1ElementString e n).map .cpi
  | .gdti, e, n => (GDTI.fromGs1ElementString e n).map .gdti
  | .giai, e, n => (GIAI.fromGs1ElementString e n).map .giai
  | .ginc, e, n => (GINC.fromGs1ElementString e n).map .ginc
  | .grai, e, n => (GRAI.fromGs1ElementString e n).map .grai
  | .gsin, e, n => (GSIN.fromGs1ElementString e n).map .gsin
  | .gsrn, e, n => (GSRN.fromGs1ElementString e n).map .gsrn
  | .gsrnp, e, n => (GSRNP.fromGs1ElementString e n).map .gsrnp
  | .itip, e, n => (ITIP.fromGs1ElementString e n).map .itip
  | .lgtin, e, n => (LGTIN.fromGs1ElementString e n).map .lgtin
  | .pgln, e, n => (PGLN.fromGs1ElementString e n).map .pgln
  | .sgcn, e, n => (SGCN.fromGs1ElementString e n).map .sgcn
  | .sgln, e, n => (SGLN.fromGs1ElementString e n).map .sgln
  | .sgtin, e, n => (SGTIN.fromGs1ElementString e n).map .sgtin
  | .sscc, e, n => (SSCC.fromGs1ElementString e n).map .sscc
  | .upui, e, n => (UPUI.fromGs1ElementString e n).map .upui
  | _, _, _ => .error .type

/-- `cls.from_tag_uri`.  Only called on `TagEncodable` classes. -/
def fromTagUri : Cls → Str → Except Err Scheme
  | .adi, t => (ADI.fromTagUri t).map .adi
  | .cpi, t => (CPI.fromTagUri t).map .cpi
  | .gdti, t => (GDTI.fromTagUri t).map .gdti
  | .giai, t => (GIAI.fromTagUri t).map .giai
  | .gid, t => (GID.fromTagUri t).map .gid
  | .grai, t => (GRAI.fromTagUri t).map .grai
  | .gsrn, t => (GSRN.fromTagUri t).map .gsrn
  | .gsrnp, t => (GSRNP.fromTagUri t).map .gsrnp
  | .itip, t => (ITIP.fromTagUri t).map .itip
  | .sgcn, t => (SGCN.fromTagUri t).map .sgcn
  | .sgln, t => (SGLN.fromTagUri t).map .sgln
  | .sgtin, t => (SGTIN.fromTagUri t).map .sgtin
  | .sscc, t => (SSCC.fromTagUri t).map .sscc
  | .usdod, t => (USDOD.fromTagUri t).map .usdod
  | _, _ => .error .type

/-- `cls.from_binary`.  Only called on `TagEncodable` classes. -/
def fromBinary : Cls → Str → Except Err Scheme
  | .adi, b => (ADI.fromBinary b).map .adi
  | .cpi, b => (CPI.fromBinary b).map .cpi
  | .gdti, b => (GDTI.fromBinary b).map .gdti
  | .giai, b => (GIAI.fromBinary b).map .giai
  | .gid, b => (GID.fromBinary b).map .gid
  | .grai, b => (GRAI.fromBinary b).map .grai
  | .gsrn, b => (GSRN.fromBinary b).map .gsrn
  | .gsrnp, b => (GSRNP.fromBinary b).map .gsrnp
  | .itip, b => (ITIP.fromBinary b).map .itip
  | .sgcn, b => (SGCN.fromBinary b).map .sgcn
  | .sgln, b => (SGLN.fromBinary b).map .sgln
  | .sgtin, b => (SGTIN.fromBinary b).map .sgtin
  | .sscc, b => (SSCC.fromBinary b).map .sscc
  | .usdod, b => (USDOD.fromBinary b).map .usdod
  | _, _ => .error .type

/-- The values of `cls.BinaryHeader` (empty for classes that are not `TagEncodable`). -/
def binaryHeaders : Cls → List Str
  | .adi => ADI.headers.map (·.1)
  | .cpi => CPI.headers.map (·.1)
  | .gdti => GDTI.headers.map (·.1)
  | .giai => GIAI.headers.map (·.1)
  | .gid => GID.headers.map (·.1)
  | .grai => GRAI.headers.map (·.1)
  | .gsrn => GSRN.headers.map (·.1)
  | .gsrnp => GSRNP.headers.map (·.1)
  | .itip => ITIP.headers.map (·.1)
  | .sgcn => SGCN.headers.map (·.1)
  | .sgln => SGLN.headers.map (·.1)
  | .sgtin => SGTIN.headers.map (·.1)
  | .sscc => SSCC.headers.map (·.1)
  | .usdod => USDOD.headers.map (·.1)
  | _ => []

end Cls

namespace Scheme

/-- The class of an instance. -/
def cls : Scheme → Cls
  | .adi _ => .adi
  | .bic _ => .bic
  | .cpi _ => .cpi
  | .gdti _ => .gdti
  | .giai _ => .giai
  | .gid _ => .gid
  | .ginc _ => .ginc
  | .grai _ => .grai
  | .gsin _ => .gsin
  | .gsrn _ => .gsrn
  | .gsrnp _ => .gsrnp
  | .imovn _ => .imovn
  | .itip _ => .itip
  | .lgtin _ => .lgtin
  | .pgln _ => .pgln
  | .sgcn _ => .sgcn
  | .sgln _ => .sgln
  | .sgtin _ => .sgtin
  | .sscc _ => .sscc
  | .upui _ => .upui
  | .usdod _ => .usdod

/-- The attribute `epc_uri`. -/
def epcUri : Scheme → Str
  | .adi x => x.epcUri
  | .bic x => x.epcUri
  | .cpi x => x.epcUri
  | .gdti x => x.epcUri
  | .giai x => x.epcUri
  | .gid x => x.epcUri
  | .ginc x => x.epcUri
  | .grai x => x.epcUri
  | .gsin x => x.epcUri
  | .gsrn x => x.epcUri
  | .gsrnp x => x.epcUri
  | .imovn x => x.epcUri
  | .itip x => x.epcUri
  | .lgtin x => x.epcUri
  | .pgln x => x.epcUri
  | .sgcn x => x.epcUri
  | .sgln x => x.epcUri
  | .sgtin x => x.epcUri
  | .sscc x => x.epcUri
  | .upui x => x.epcUri
  | .usdod x => x.epcUri

/-- `EPCScheme.__eq__` on two scheme instances.  /repo/epcpy/epc_schemes/base_scheme.py:26-38 -/
def eq (a b : Scheme) : Bool := decide (a.epcUri = b.epcUri)

/-- `EPCScheme.__eq__` with an arbitrary right operand; `none` stands for any object that is not an instance of
`EPCScheme`.  /repo/epcpy/epc_schemes/base_scheme.py:26-38 -/
def eqObject (a : Scheme) : Option Scheme → Bool
  | none => false
  | some b => a.eq b

/-- A `gs1_key()` without parameters called with or without the keyword argument `gtin_type`. -/
def noKwargs (key : Str) : Option GtinType → Except Err Str
  | none => .ok key
  | some _ => .error .type

/-- `scheme.gs1_key(**kwargs)`; the keyword arguments are nothing or `gtin_type`.  Classes without the
method are never asked. -/
def gs1Key : Scheme → Option GtinType → Except Err Str
  | .gdti x, t => noKwargs x.gs1Key t
  | .giai x, t => noKwargs x.gs1Key t
  | .ginc x, t => noKwargs x.gs1Key t
  | .grai x, t => noKwargs x.gs1Key t
  | .gsin x, t => noKwargs x.gs1Key t
  | .gsrn x, t => noKwargs x.gs1Key t
  | .gsrnp x, t => noKwargs x.gs1Key t
  | .lgtin x, t => x.gs1Key (t.getD .gtin14)
  | .pgln x, t => noKwargs x.gs1Key t
  | .sgcn x, t => noKwargs x.gs1Key t
  | .sgln x, t => noKwargs x.gs1Key t
  | .sgtin x, t => x.gs1Key (t.getD .gtin14)
  | .sscc x, t => noKwargs x.gs1Key t
  | _, _ => .error .type

/-- `scheme.gs1_element_string()`. Classes without the method are never asked. -/
def gs1ElementString : Scheme → Except Err Str
  | .cpi x => x.gs1ElementString
  | .gdti x => x.gs1ElementString
  | .giai x => x.gs1ElementString
  | .ginc x => x.gs1ElementString
  | .grai x => x.gs1ElementString
  | .gsin x => x.gs1ElementString
  | .gsrn x => x.gs1ElementString
  | .gsrnp x => x.gs1ElementString
  | .itip x => x.gs1ElementString
  | .lgtin x => x.gs1ElementString
  | .pgln x => x.gs1ElementString
  | .sgcn x => x.gs1ElementString
  | .sgln x => x.gs1ElementString
  | .sgtin x => x.gs1ElementString
  | .sscc x => x.gs1ElementString
  | .upui x => x.gs1ElementString
  | _ => .error .type

end Scheme

/-- Look a class up by its identifier among the classes selected by `p`: `EPC_SCHEME_IDENTIFIERS`,
`TAG_ENCODABLE_SCHEME_IDENTIFIERS`, `GS1_KEYED_SCHEME_IDENTIFIERS`.  /repo/epcpy/utils/parsers.py:86-90 -/
def clsByName (p : Cls → Bool) (id : Str) : Option Cls :=
  Cls.all.find? (fun c => p c && decide (c.name = id))

/-- `epc_pure_identity_to_scheme`.  /repo/epcpy/utils/parsers.py:139-156 -/
def epcPureIdentityToScheme (uri : Str) : Except Err Scheme := do
  let id ← getPart (split ':' uri) 3
  match clsByName (fun _ => true) id with
  | none => .error .convert
  | some c => c.new uri

/-- `if not isinstance(scheme, ...): raise ConvertException`. -/
def requireCls (p : Cls → Bool) (x : Scheme) : Except Err Scheme :=
  if p x.cls then .ok x else .error .convert

/-- `epc_pure_identity_to_gs1_element`.  /repo/epcpy/utils/parsers.py:159-176 -/
def epcPureIdentityToGs1Element (uri : Str) : Except Err Scheme := do
  let x ← epcPureIdentityToScheme uri
  requireCls Cls.isGs1Element x

/-- `epc_pure_identity_to_gs1_element_string`.  /repo/epcpy/utils/parsers.py:179-188 -/
def epcPureIdentityToGs1ElementString (uri : Str) : Except Err Str := do
  let x ← epcPureIdentityToGs1Element uri
  x.gs1ElementString

/-- `epc_pure_identity_to_gs1_keyed`.  /repo/epcpy/utils/parsers.py:191-208 -/
def epcPureIdentityToGs1Keyed (uri : Str) : Except Err Scheme := do
  let x ← epcPureIdentityToScheme uri
  requireCls Cls.isGs1Keyed x

/-- `epc_pure_identity_to_gs1_key`.  /repo/epcpy/utils/parsers.py:211-220 -/
def epcPureIdentityToGs1Key (uri : Str) (t : Option GtinType) : Except Err Str := do
  let x ← epcPureIdentityToGs1Keyed uri
  x.gs1Key t

/-- `epc_pure_identity_to_tag_encodable`.  /repo/epcpy/utils/parsers.py:223-240 -/
def epcPureIdentityToTagEncodable (uri : Str) : Except Err Scheme := do
  let x ← epcPureIdentityToScheme uri
  requireCls Cls.isTagEncodable x

/-- The class chosen by the loop of `gs1_element_string_to_gs1_element`: the first one, in the order of
`EPC_SCHEMES`, whose regular expression matches.  /repo/epcpy/utils/parsers.py:80-84, 257-258 -/
def elemCls (s : Str) : Option Cls :=
  Cls.all.find? (fun c => match c.elemRegex with | some r => r.fullmatch s | none => false)

/-- `gs1_element_string_to_gs1_element`.  /repo/epcpy/utils/parsers.py:243-263 -/
def gs1ElementStringToGs1Element (s : Str) (n : Int) : Except Err Scheme :=
  match elemCls s with
  | some c => c.fromGs1ElementString s n
  | none => .error .convert

/-- `ONE_ESCAPE_ALLOWED_SCHEMES`.  /repo/epcpy/utils/parsers.py:266-275 -/
def oneEscapeAllowed : List Str := [py "sgtin", py "sgln", py "grai", py "gdti", py "cpi"]

/-- `re.sub("\.\*$", ".0", uri, 1)`.  Simplification: `$` also matches before a final newline, which is
not modelled; the function is only applied to strings without a newline.  /repo/epcpy/utils/parsers.py:304 -/
def subFinalStar (uri : Str) : Str :=
  match uri.reverse with
  | '*' :: '.' :: t => t.reverse ++ py ".0"
  | _ => uri

/-- `_idpat_to_gs1_keyed_scheme`.  /repo/epcpy/utils/parsers.py:278-308 -/
def idpatToGs1KeyedScheme (idpat : Str) : Except Err Scheme := do
  let id ← getPart (split ':' idpat) 3
  match clsByName Cls.isGs1Keyed id with
  | none => .error .convert
  | some c =>
    let uri := replaceFirst (py "idpat") (py "id") idpat
    if Rx.epcUri.fullmatch uri then c.new uri
    else if !oneEscapeAllowed.contains id then .error .convert
    else
      let dummy := subFinalStar uri
      if Rx.epcUri.fullmatch dummy then c.new dummy
      else .error .convert

/-- `tag_uri_to_tag_encodable`.  /repo/epcpy/utils/parsers.py:311-325 -/
def tagUriToTagEncodable (t : Str) : Except Err Scheme := do
  let part ← getPart (split ':' t) 3
  let id ← getPart (split '-' part) 0
  match clsByName Cls.isTagEncodable id with
  | none => .error .convert
  | some c => c.fromTagUri t

/-- `TAG_ENCODABLE_BINARY_HEADERS`.  /repo/epcpy/utils/parsers.py:71-73 -/
def binaryHeaderTable : List (Str × Cls) :=
  (Cls.all.map (fun c => c.binaryHeaders.map (fun h => (h, c)))).flatten

/-- The keys of `TAG_ENCODABLE_HEX_HEADERS`.  /repo/epcpy/utils/parsers.py:74-78 -/
def hexHeaders : List Str :=
  binaryHeaderTable.filterMap (fun hc => (binaryToHex hc.1).toOption)

/-- `binary_to_tag_encodable`.  /repo/epcpy/utils/parsers.py:328-345 -/
def binaryToTagEncodable (b : Str) : Except Err Scheme :=
  match binaryHeaderTable.lookup (b.take 8) with
  | none => .error .convert
  | some c => c.fromBinary b

/-- `hex_to_tag_encodable`.  /repo/epcpy/utils/parsers.py:348-359 -/
def hexToTagEncodable (h : Str) : Except Err Scheme := do
  let b ← hexToBinary h
  binaryToTagEncodable b

/-- `base64_to_tag_encodable`.  /repo/epcpy/utils/parsers.py:362-373 -/
def base64ToTagEncodable (s : Str) : Except Err Scheme := do
  let h ← base64ToHex s
  hexToTagEncodable h

/-- The chain of `if`/`elif` in `get_gs1_key`; `none` means that no branch was taken.  A company prefix length of 0
is falsy in Python.  `source[:2].upper()` is modelled for ASCII letters; no other character has an upper-case form
that is a hexadecimal digit pair of `hexHeaders`.  /repo/epcpy/utils/parsers.py:116-129 -/
def gs1KeySource (source : Str) (n : Option Int) : Option (Except Err Scheme) :=
  if Rx.epcUri.fullmatch source then some (epcPureIdentityToScheme source)
  else if Rx.gs1Elem.fullmatch source = true ∧ n.getD 0 ≠ 0 then some (gs1ElementStringToGs1Element source (n.getD 0))
  else if Rx.tagUri.fullmatch source then some (tagUriToTagEncodable source)
  else if Rx.idpatUri.fullmatch source then some (idpatToGs1KeyedScheme source)
  else if (binaryHeaderTable.lookup (source.take 8)).isSome then some (binaryToTagEncodable source)
  else if hexHeaders.contains ((source.take 2).map upperChar) then some (hexToTagEncodable source)
  else none

/-- `get_gs1_key`.  /repo/epcpy/utils/parsers.py:93-136 -/
def getGs1Key (source : Str) (n : Option Int := none) (t : Option GtinType := none) : Except Err Str :=
  match gs1KeySource source n with
  | none => .error .convert
  | some r => do
    let x ← r
    let x ← requireCls Cls.isGs1Keyed x
    x.gs1Key t

end Epc
