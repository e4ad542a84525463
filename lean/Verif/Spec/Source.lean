/-
Programs that use the library, executed from its source.

`Verif/Src/Code` holds the statements of /repo/epcpy as syntax trees and `Verif/Src/Interp.lean` executes them.  A user program does four
things: it makes objects, reads attributes, calls methods and calls the functions of epcpy.  The source nests calls less than 24 deep.
-/
import Verif.Spec.Objects

namespace Epc.Src

/-- `c(*args)` -/
def construct (c : Cl) (args : List Val) : M Val := applyVal (level 24) (.cls c) args []

/-- `o.a` -/
def read (o : Val) (a : Nm) : M Val := getAttr (level 24) o a

/-- `o.m(*args, **kw)` -/
def invoke (o : Val) (m : Nm) (args : List Val) (kw : List (Nm × Val)) : M Val :=
  read o m >>= fun f => applyVal (level 24) f args kw

/-- `f(*args, **kw)` for a function `f` of /repo/epcpy/utils/parsers.py. -/
def function (f : Nm) (args : List Val) (kw : List (Nm × Val)) : M Val :=
  globalVal (level 24) .parsers f >>= fun f => applyVal (level 24) f args kw

/-- The outcome of a call: a value, written with `show_`, or an exception. -/
def outcome {α : Type} (show_ : α → Val) : Except Err α → M Val
  | .ok a => .ok (show_ a)
  | .error e => .error (.err e)

/-- A call ends as documented: it returns, or raises ConvertException, ValueError, KeyError, IndexError, OverflowError or TypeError.  It
does not raise NameError, AttributeError, NotImplementedError or RecursionError, and does not leave the part of Python that the
interpreter knows. -/
def Ends : M Val → Prop
  | .ok _ => True
  | .error (.err _) => True
  | .error _ => False

/-- `v` is a member of an enumeration of filter values, whatever its name and class. -/
def IsFilter {n : Nat} (f : Fin n) (v : Val) : Prop := ∃ o e m name, v = .member o e m name (filterStr f)

/-- Does a call return the text? -/
def returnsStr (r : M Val) (s : Str) : Bool :=
  match r with
  | .ok (.str t) => t == s
  | _ => false

/-- Does a call raise the exception? -/
def raises (r : M Val) (e : Exn) : Bool :=
  match r with
  | .ok _ => false
  | .error x => decide (x = e)

end Epc.Src
