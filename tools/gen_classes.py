#!/usr/bin/env python3
"""Generate lean/Verif/Model/Classes.lean: the class statements of /repo/epcpy/epc_schemes (bases and names bound by the bodies)."""
import ast, glob, os
ROOT = os.path.dirname(os.path.dirname(os.path.abspath(__file__)))
PY = {"EPCScheme": ".epcScheme", "TagEncodable": ".tagEncodable", "GS1Element": ".gs1Element", "GS1Keyed": ".gs1Keyed"}
rows = []
for f in sorted(glob.glob("/repo/epcpy/epc_schemes/*.py")):
    for c in ast.parse(open(f).read()).body:
        if not isinstance(c, ast.ClassDef) or any("Enum" in ast.unparse(b) for b in c.bases):
            continue
        names = []
        for n in c.body:
            if isinstance(n, (ast.FunctionDef, ast.ClassDef)):
                names.append(n.name)
            elif isinstance(n, ast.Assign):
                names += [t.id for t in n.targets]
        bases = [PY[ast.unparse(b)] for b in c.bases] or [".object"]
        con = PY.get(c.name, f".scheme .{c.name.lower()}")
        rows.append((con, bases, names, f"{f}:{c.lineno}"))
rows.sort(key=lambda r: list(PY.values()).index(r[0]) if r[0] in PY.values() else 9)
body = "\n".join(f"  -- {src}\n  | {con} => ⟨[{', '.join(bases)}], [{', '.join(chr(112) + 'y ' + chr(34) + n + chr(34) for n in names)}]⟩" for con, bases, names, src in rows)
open(f"{ROOT}/lean/Verif/Model/Classes.lean", "w").write(f'''/-
The class hierarchy of /repo/epcpy/epc_schemes.
Generated by tools/gen_classes.py from the class statements.
-/
import Verif.Py.Class
import Verif.Model.Parsers

namespace Epc

/-- The classes: `object`, the four base classes of /repo/epcpy/epc_schemes/base_scheme.py, and the scheme classes. -/
inductive PyCls where
  | object
  | epcScheme
  | tagEncodable
  | gs1Element
  | gs1Keyed
  | scheme (c : Cls)
  deriving DecidableEq, Repr

/-- The class statements.  (A bare annotation, as that of `gs1_element_string_regex` in `GS1Element`, binds nothing.)  Of `object` only the
attributes are listed that matter here. -/
def PyCls.stmt : PyCls → ClassStmt PyCls
  | .object => ⟨[], [py "__init__", py "__eq__", py "__hash__"]⟩
{body}

/-- `__mro__`; the hierarchy is at most six classes deep. -/
def PyCls.mro (c : PyCls) : List PyCls := ((Epc.mro PyCls.stmt 8 c).getD [])

/-- `issubclass(c, d)`. -/
def PyCls.issubclass (c d : PyCls) : Bool := c.mro.contains d

/-- The methods that only raise NotImplementedError: `TagEncodable.tag_uri`, `.binary`, `.from_binary`, `GS1Element.gs1_element_string`,
`.from_gs1_element_string`, `GS1Keyed.gs1_key`.
/repo/epcpy/epc_schemes/base_scheme.py:84-93, 95-104, 130-141, 217-226, 229-244, 251-260 -/
def PyCls.stub : PyCls → Str → Bool
  | .tagEncodable, m => [py "tag_uri", py "binary", py "from_binary"].contains m
  | .gs1Element, m => [py "gs1_element_string", py "from_gs1_element_string"].contains m
  | .gs1Keyed, m => m == py "gs1_key"
  | _, _ => false

/-- The methods of the base classes that call another method of the same object or class: `hex` calls `binary`, `base64` calls `hex`, `from_hex`
calls `from_binary`, `from_base64` calls `from_hex`.
/repo/epcpy/epc_schemes/base_scheme.py:106-117, 119-127, 143-153, 155-167 -/
def PyCls.next : PyCls → Str → Option Str
  | .tagEncodable, m =>
    if m = py "hex" then some (py "binary")
    else if m = py "base64" then some (py "hex")
    else if m = py "from_hex" then some (py "from_binary")
    else if m = py "from_base64" then some (py "from_hex")
    else none
  | _, _ => none

/-- What becomes of a call of a method. -/
inductive Dispatch where
  /-- the body of the method in this class runs, and no method of the class that it calls is missing -/
  | runs (c : PyCls)
  | notImplemented
  | attributeError
  deriving DecidableEq, Repr

/-- The call of the method `m` of an object of class `c`, or of the class itself: the body found along the method resolution order runs, and if it
calls another method of the object, so does that one (`fuel`: length of such a chain). -/
def PyCls.dispatch (c : PyCls) : Nat → Str → Dispatch
  | 0, _ => .attributeError
  | fuel + 1, m =>
    match lookupIn PyCls.stmt m c.mro with
    | none => .attributeError
    | some (d, _) =>
      if d.stub m = true then .notImplemented
      else
        match d.next m with
        | none => .runs d
        | some m' =>
          match c.dispatch fuel m' with
          | .runs _ => .runs d
          | r => r

/-- `hash(x)` for an object of class `c`: TypeError if `__hash__` is `None`.
https://docs.python.org/3/reference/datamodel.html#object.__hash__ -/
def PyCls.hash (c : PyCls) : Except Err Unit :=
  match lookupIn PyCls.stmt (py "__hash__") c.mro with
  | some (_, .body) => .ok ()
  | _ => .error .type

/-- The attributes that the `__init__` of a base class assigns, after it has called `super().__init__`.
/repo/epcpy/epc_schemes/base_scheme.py:22-24, 76-82, 214-215, 248-249 -/
def PyCls.initSets : PyCls → List Str
  | .epcScheme => [py "epc_uri"]
  | .tagEncodable => [py "_base64", py "_binary", py "_hex", py "_tag_uri"]
  | _ => []

/-- `super().__init__` along a method resolution order: the first class that defines `__init__` runs, which calls `super().__init__` in turn and
then assigns.  `object.__init__` ends the chain. -/
def superInit : List PyCls → List Str
  | [] => []
  | c :: cs => if c.stmt.names.contains (py "__init__") then superInit cs ++ c.initSets else superInit cs

/-- The attributes assigned by the base classes when an object of class `c` is constructed: the first line of each `__init__` of the scheme
classes is `super().__init__(epc_uri)`. -/
def PyCls.baseAttributes (c : PyCls) : List Str := superInit c.mro

/-- An instance of a base class (which has nothing but its URI) or of a scheme class. -/
inductive Obj where
  | base (c : PyCls) (uri : Str)
  | scheme (x : Scheme)
  deriving DecidableEq, Repr

/-- `epc_uri` of an object. -/
def Obj.epcUri : Obj → Str
  | .base _ u => u
  | .scheme x => x.epcUri

/-- The class of an object. -/
def Obj.cls : Obj → PyCls
  | .base c _ => c
  | .scheme x => .scheme x.cls

/-- `C(epc_uri)`, also `C.from_epc_uri(epc_uri)`, for a base class or a scheme class: the `__init__`s of the base classes check nothing.  (`object`
takes no argument.)
/repo/epcpy/epc_schemes/base_scheme.py:22-24, 40-50, 76-82, 214-215, 248-249 -/
def PyCls.new : PyCls → Str → Except Err Obj
  | .scheme c, u => (c.new u).map .scheme
  | .object, _ => .error .type
  | c, u => .ok (.base c u)

/-- `EPCScheme.__eq__` between objects of any classes.  /repo/epcpy/epc_schemes/base_scheme.py:26-38 -/
def Obj.eq (a b : Obj) : Bool := a.epcUri == b.epcUri

/-- `x in l` for a list `l` of objects: `x == y` for some `y` of it (identical objects are equal). -/
def Obj.isIn (x : Obj) (l : List Obj) : Bool := l.any (fun y => x.eq y)

/-- `TagEncodable.from_tag_uri`, called on the base class.  /repo/epcpy/epc_schemes/base_scheme.py:169-196 -/
def baseFromTagUri (t : Str) (includesFilter : Bool := true) : Except Err Obj := fromTagUri (PyCls.new .tagEncodable) includesFilter t

end Epc
''')
