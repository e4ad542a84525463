/-
Syntax of the part of Python in which /repo/epcpy is written.

The trees in `Verif/Src/Code` are generated from the source files by tools/gen_src.py, with the parser of CPython.  The generator
stops at any construct that is not in the types below, drops docstrings and annotations, and makes these changes of notation:
  * f-strings are concatenations (`cat`) of literals and formatted values (`fmt`);
  * `and`, `or` of several operands are nested to the right; a comparison has one or two operators;
  * tuples are lists; an omitted bound of a slice is `None`;
  * `super().__init__(…)` is a statement of its own.
-/
import Verif.Src.Names
import Verif.Py.Basic

namespace Epc.Src

/-- The exceptions of running code: those of `Err`, and those that a correct program never raises.  `unsupported` marks operations that the
interpreter does not define. -/
inductive Exn where
  | err (e : Err)
  | name
  | attribute
  | notImplemented
  | recursion
  | unsupported
  deriving DecidableEq

inductive BinOp where
  | add | sub | mul | div | mod
  deriving DecidableEq

inductive CmpOp where
  | eq | ne | lt | le | gt | ge | isIn | notIn
  deriving DecidableEq

inductive Expr where
  | name (x : Nm)
  | int (n : Nat)
  | str (s : Str)
  | bool (b : Bool)
  | none
  | attr (e : Expr) (a : Nm)
  | item (e i : Expr)
  | slice (e lo hi step : Expr)
  | call (f : Expr) (args : List Expr) (kw : List (Nm × Expr))
  | callKw (f kwargs : Expr)
  | cat (a b : Expr)
  | fmt (e spec : Expr)
  | bin (op : BinOp) (a b : Expr)
  | not (a : Expr)
  | neg (a : Expr)
  | and (a b : Expr)
  | or (a b : Expr)
  | cmp (op : CmpOp) (a b : Expr)
  | cmp2 (op1 op2 : CmpOp) (a b c : Expr)
  | ite (c a b : Expr)
  | list (l : List Expr)
  | dict (l : List (Expr × Expr))
  /-- `[elt for x in it]` -/
  | map (elt : Expr) (x : Nm) (it : Expr)
  /-- `[elt for x in it if cond]` -/
  | comp (elt : Expr) (x : Nm) (it cond : Expr)
  /-- `[… for x in it …]` with an inner comprehension -/
  | flat (inner : Expr) (x : Nm) (it : Expr)
  /-- a dictionary comprehension, from the comprehension of the pairs -/
  | mkDict (pairs : Expr)

inductive Target where
  | var (x : Nm)
  | attr (x a : Nm)

inductive Stmt where
  | expr (e : Expr)
  | assign (t : Target) (e : Expr)
  /-- `t1, …, tn, *star = e` -/
  | unpack (ts : List Target) (star : Option Target) (e : Expr)
  /-- `x += e` -/
  | aug (x : Nm) (e : Expr)
  | ret (e : Expr)
  | raise (e : Expr)
  | ite (c : Expr) (a b : List Stmt)
  | for_ (x : Nm) (it : Expr) (body : List Stmt)
  | forUnpack (ts : List Target) (it : Expr) (body : List Stmt)
  | brk
  | cont
  /-- `try: body` / `except exn: handler` -/
  | try_ (body : List Stmt) (exn : Exn) (handler : List Stmt)
  | superInit (args : List Expr)

structure Param where
  name : Nm
  default : Option Expr

/-- A function: the module and the class it belongs to, its parameters, the names of `*args` and `**kwargs`, and its body. -/
structure FunDef where
  mod : Mod
  owner : Option Cl
  params : List Param
  vararg : Option Nm
  kwarg : Option Nm
  body : List Stmt

/-- What a name of a module is bound to. -/
inductive Global where
  | fn (d : FunDef)
  | cls (c : Cl)
  | const (e : Expr)
  | imported (m : Mod) (x : Nm)
  | module (x : Nm)
  | builtin (x : Nm)
  | text (s : Str)

/-- What a name of a class body is bound to: a method, a class method, a constant, an enumeration (identifier, name and value of the
members), or, in an enumeration, a member (name and value). -/
inductive Member where
  | method (d : FunDef)
  | classmethod (d : FunDef)
  | const (e : Expr)
  | enum (ms : List (Nm × Str × Str))
  | member (name value : Str)

end Epc.Src
