/-
The class hierarchy of /repo/epcpy/epc_schemes.
Generated by tools/gen_classes.py from the class statements.
-/
import Verif.Py.Class
import Verif.Model.Parsers

namespace Epc

/-- The classes: `object`, the four base classes of /repo/epcpy/epc_schemes/base_scheme.py, and the scheme classes. -/
inductive PyCls where
  | object
  | epcScheme
  | tagEncodable
  | gs1Element
  | gs1Keyed
  | scheme (c : Cls)
  deriving DecidableEq, Repr

/-- The class statements.  (A bare annotation, as that of `gs1_element_string_regex` in `GS1Element`, binds nothing.)  Of `object` only the
attributes are listed that matter here. -/
def PyCls.stmt : PyCls → ClassStmt PyCls
  | .object => ⟨[], [py "__init__", py "__eq__", py "__hash__"]⟩
  -- /repo/epcpy/epc_schemes/base_scheme.py:15
  | .epcScheme => ⟨[.object], [py "__init__", py "__eq__", py "from_epc_uri"]⟩
  -- /repo/epcpy/epc_schemes/base_scheme.py:53
  | .tagEncodable => ⟨[.epcScheme], [py "BinaryCodingScheme", py "BinaryHeader", py "TAG_URI_REGEX", py "TAG_URI_PREFIX", py "__init__", py "tag_uri", py "binary", py "hex", py "base64", py "from_binary", py "from_hex", py "from_base64", py "from_tag_uri", py "header_to_schemes"]⟩
  -- /repo/epcpy/epc_schemes/base_scheme.py:211
  | .gs1Element => ⟨[.epcScheme], [py "__init__", py "gs1_element_string", py "from_gs1_element_string"]⟩
  -- /repo/epcpy/epc_schemes/base_scheme.py:247
  | .gs1Keyed => ⟨[.gs1Element], [py "__init__", py "gs1_key"]⟩
  -- /repo/epcpy/epc_schemes/adi.py:89
  | .scheme .adi => ⟨[.tagEncodable], [py "BinaryCodingScheme", py "BinaryHeader", py "__init__", py "tag_uri", py "binary", py "from_binary"]⟩
  -- /repo/epcpy/epc_schemes/bic.py:10
  | .scheme .bic => ⟨[.epcScheme], [py "__init__"]⟩
  -- /repo/epcpy/epc_schemes/cpi.py:171
  | .scheme .cpi => ⟨[.gs1Element, .tagEncodable], [py "BinaryCodingScheme", py "BinaryHeader", py "gs1_element_string_regex", py "__init__", py "gs1_element_string", py "from_gs1_element_string", py "tag_uri", py "binary", py "from_binary"]⟩
  -- /repo/epcpy/epc_schemes/gdti.py:99
  | .scheme .gdti => ⟨[.tagEncodable, .gs1Keyed], [py "BinaryCodingScheme", py "BinaryHeader", py "gs1_element_string_regex", py "__init__", py "gs1_key", py "gs1_element_string", py "from_gs1_element_string", py "tag_uri", py "binary", py "from_binary"]⟩
  -- /repo/epcpy/epc_schemes/giai.py:158
  | .scheme .giai => ⟨[.tagEncodable, .gs1Keyed], [py "BinaryCodingScheme", py "BinaryHeader", py "gs1_element_string_regex", py "__init__", py "gs1_key", py "gs1_element_string", py "from_gs1_element_string", py "tag_uri", py "binary", py "from_binary"]⟩
  -- /repo/epcpy/epc_schemes/gid.py:18
  | .scheme .gid => ⟨[.tagEncodable], [py "BinaryCodingScheme", py "BinaryHeader", py "__init__", py "tag_uri", py "binary", py "from_tag_uri", py "from_binary"]⟩
  -- /repo/epcpy/epc_schemes/ginc.py:17
  | .scheme .ginc => ⟨[.gs1Keyed], [py "gs1_element_string_regex", py "__init__", py "gs1_key", py "gs1_element_string", py "from_gs1_element_string"]⟩
  -- /repo/epcpy/epc_schemes/grai.py:99
  | .scheme .grai => ⟨[.tagEncodable, .gs1Keyed], [py "BinaryCodingScheme", py "BinaryHeader", py "gs1_element_string_regex", py "__init__", py "gs1_key", py "gs1_element_string", py "from_gs1_element_string", py "tag_uri", py "binary", py "from_binary"]⟩
  -- /repo/epcpy/epc_schemes/gsin.py:32
  | .scheme .gsin => ⟨[.gs1Keyed], [py "gs1_element_string_regex", py "__init__", py "gs1_key", py "gs1_element_string", py "from_gs1_element_string"]⟩
  -- /repo/epcpy/epc_schemes/gsrn.py:95
  | .scheme .gsrn => ⟨[.tagEncodable, .gs1Keyed], [py "BinaryCodingScheme", py "BinaryHeader", py "gs1_element_string_regex", py "__init__", py "gs1_key", py "gs1_element_string", py "from_gs1_element_string", py "tag_uri", py "binary", py "from_binary"]⟩
  -- /repo/epcpy/epc_schemes/gsrnp.py:95
  | .scheme .gsrnp => ⟨[.tagEncodable, .gs1Keyed], [py "BinaryCodingScheme", py "BinaryHeader", py "gs1_element_string_regex", py "__init__", py "gs1_key", py "gs1_element_string", py "from_gs1_element_string", py "tag_uri", py "binary", py "from_binary"]⟩
  -- /repo/epcpy/epc_schemes/imovn.py:10
  | .scheme .imovn => ⟨[.epcScheme], [py "__init__"]⟩
  -- /repo/epcpy/epc_schemes/itip.py:101
  | .scheme .itip => ⟨[.gs1Element, .tagEncodable], [py "BinaryCodingScheme", py "BinaryHeader", py "gs1_element_string_regex", py "__init__", py "gs1_element_string", py "from_gs1_element_string", py "tag_uri", py "binary", py "from_binary"]⟩
  -- /repo/epcpy/epc_schemes/lgtin.py:26
  | .scheme .lgtin => ⟨[.gs1Keyed], [py "gs1_element_string_regex", py "__init__", py "gs1_key", py "gtin", py "gs1_element_string", py "from_gs1_element_string"]⟩
  -- /repo/epcpy/epc_schemes/pgln.py:12
  | .scheme .pgln => ⟨[.gs1Keyed], [py "gs1_element_string_regex", py "__init__", py "gs1_key", py "gs1_element_string", py "from_gs1_element_string"]⟩
  -- /repo/epcpy/epc_schemes/sgcn.py:98
  | .scheme .sgcn => ⟨[.tagEncodable, .gs1Keyed], [py "BinaryCodingScheme", py "BinaryHeader", py "gs1_element_string_regex", py "__init__", py "gs1_key", py "gs1_element_string", py "from_gs1_element_string", py "tag_uri", py "binary", py "from_binary"]⟩
  -- /repo/epcpy/epc_schemes/sgln.py:99
  | .scheme .sgln => ⟨[.tagEncodable, .gs1Keyed], [py "BinaryCodingScheme", py "BinaryHeader", py "gs1_element_string_regex", py "__init__", py "gs1_key", py "gs1_element_string", py "from_gs1_element_string", py "tag_uri", py "binary", py "from_binary"]⟩
  -- /repo/epcpy/epc_schemes/sgtin.py:106
  | .scheme .sgtin => ⟨[.tagEncodable, .gs1Keyed], [py "BinaryCodingScheme", py "BinaryHeader", py "gs1_element_string_regex", py "__init__", py "from_gtin_plus_serial", py "gs1_key", py "gtin", py "gs1_element_string", py "from_gs1_element_string", py "tag_uri", py "binary", py "from_binary"]⟩
  -- /repo/epcpy/epc_schemes/sscc.py:94
  | .scheme .sscc => ⟨[.tagEncodable, .gs1Keyed], [py "BinaryCodingScheme", py "BinaryHeader", py "gs1_element_string_regex", py "__init__", py "gs1_key", py "gs1_element_string", py "from_gs1_element_string", py "tag_uri", py "binary", py "from_binary"]⟩
  -- /repo/epcpy/epc_schemes/upui.py:18
  | .scheme .upui => ⟨[.gs1Element], [py "gs1_element_string_regex", py "__init__", py "gs1_element_string", py "from_gs1_element_string"]⟩
  -- /repo/epcpy/epc_schemes/usdod.py:39
  | .scheme .usdod => ⟨[.tagEncodable], [py "BinaryCodingScheme", py "BinaryHeader", py "__init__", py "tag_uri", py "binary", py "from_binary"]⟩

/-- `__mro__`; the hierarchy is at most six classes deep. -/
def PyCls.mro (c : PyCls) : List PyCls := ((Epc.mro PyCls.stmt 8 c).getD [])

/-- `issubclass(c, d)`. -/
def PyCls.issubclass (c d : PyCls) : Bool := c.mro.contains d

/-- The methods that only raise NotImplementedError: `TagEncodable.tag_uri`, `.binary`, `.from_binary`, `GS1Element.gs1_element_string`,
`.from_gs1_element_string`, `GS1Keyed.gs1_key`.
/repo/epcpy/epc_schemes/base_scheme.py:84-93, 95-104, 130-141, 217-226, 229-244, 251-260 -/
def PyCls.stub : PyCls → Str → Bool
  | .tagEncodable, m => [py "tag_uri", py "binary", py "from_binary"].contains m
  | .gs1Element, m => [py "gs1_element_string", py "from_gs1_element_string"].contains m
  | .gs1Keyed, m => m == py "gs1_key"
  | _, _ => false

/-- The methods of the base classes that call another method of the same object or class: `hex` calls `binary`, `base64` calls `hex`, `from_hex`
calls `from_binary`, `from_base64` calls `from_hex`.
/repo/epcpy/epc_schemes/base_scheme.py:106-117, 119-127, 143-153, 155-167 -/
def PyCls.next : PyCls → Str → Option Str
  | .tagEncodable, m =>
    if m = py "hex" then some (py "binary")
    else if m = py "base64" then some (py "hex")
    else if m = py "from_hex" then some (py "from_binary")
    else if m = py "from_base64" then some (py "from_hex")
    else none
  | _, _ => none

/-- What becomes of a call of a method. -/
inductive Dispatch where
  /-- the body of the method in this class runs, and no method of the class that it calls is missing -/
  | runs (c : PyCls)
  | notImplemented
  | attributeError
  deriving DecidableEq, Repr

/-- The call of the method `m` of an object of class `c`, or of the class itself: the body found along the method resolution order runs, and if it
calls another method of the object, so does that one (`fuel`: length of such a chain). -/
def PyCls.dispatch (c : PyCls) : Nat → Str → Dispatch
  | 0, _ => .attributeError
  | fuel + 1, m =>
    match lookupIn PyCls.stmt m c.mro with
    | none => .attributeError
    | some (d, _) =>
      if d.stub m = true then .notImplemented
      else
        match d.next m with
        | none => .runs d
        | some m' =>
          match c.dispatch fuel m' with
          | .runs _ => .runs d
          | r => r

/-- `hash(x)` for an object of class `c`: TypeError if `__hash__` is `None`.
https://docs.python.org/3/reference/datamodel.html#object.__hash__ -/
def PyCls.hash (c : PyCls) : Except Err Unit :=
  match lookupIn PyCls.stmt (py "__hash__") c.mro with
  | some (_, .body) => .ok ()
  | _ => .error .type

/-- The attributes that the `__init__` of a base class assigns, after it has called `super().__init__`.
/repo/epcpy/epc_schemes/base_scheme.py:22-24, 76-82, 214-215, 248-249 -/
def PyCls.initSets : PyCls → List Str
  | .epcScheme => [py "epc_uri"]
  | .tagEncodable => [py "_base64", py "_binary", py "_hex", py "_tag_uri"]
  | _ => []

/-- `super().__init__` along a method resolution order: the first class that defines `__init__` runs, which calls `super().__init__` in turn and
then assigns.  `object.__init__` ends the chain. -/
def superInit : List PyCls → List Str
  | [] => []
  | c :: cs => if c.stmt.names.contains (py "__init__") then superInit cs ++ c.initSets else superInit cs

/-- The attributes assigned by the base classes when an object of class `c` is constructed: the first line of each `__init__` of the scheme
classes is `super().__init__(epc_uri)`. -/
def PyCls.baseAttributes (c : PyCls) : List Str := superInit c.mro

/-- An instance of a base class (which has nothing but its URI) or of a scheme class. -/
inductive Obj where
  | base (c : PyCls) (uri : Str)
  | scheme (x : Scheme)
  deriving DecidableEq, Repr

/-- `epc_uri` of an object. -/
def Obj.epcUri : Obj → Str
  | .base _ u => u
  | .scheme x => x.epcUri

/-- The class of an object. -/
def Obj.cls : Obj → PyCls
  | .base c _ => c
  | .scheme x => .scheme x.cls

/-- `C(epc_uri)`, also `C.from_epc_uri(epc_uri)`, for a base class or a scheme class: the `__init__`s of the base classes check nothing.  (`object`
takes no argument.)
/repo/epcpy/epc_schemes/base_scheme.py:22-24, 40-50, 76-82, 214-215, 248-249 -/
def PyCls.new : PyCls → Str → Except Err Obj
  | .scheme c, u => (c.new u).map .scheme
  | .object, _ => .error .type
  | c, u => .ok (.base c u)

/-- `EPCScheme.__eq__` between objects of any classes.  /repo/epcpy/epc_schemes/base_scheme.py:26-38 -/
def Obj.eq (a b : Obj) : Bool := a.epcUri == b.epcUri

/-- `x in l` for a list `l` of objects: `x == y` for some `y` of it (identical objects are equal). -/
def Obj.isIn (x : Obj) (l : List Obj) : Bool := l.any (fun y => x.eq y)

/-- `TagEncodable.from_tag_uri`, called on the base class.  /repo/epcpy/epc_schemes/base_scheme.py:169-196 -/
def baseFromTagUri (t : Str) (includesFilter : Bool := true) : Except Err Obj := fromTagUri (PyCls.new .tagEncodable) includesFilter t

end Epc
