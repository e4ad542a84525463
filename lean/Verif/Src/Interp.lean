/-
An interpreter for the syntax of `Verif/Src/Syntax.lean`: the meaning of the source.

Execution is by levels: `level n` interprets programs whose calls nest at most `n` deep, deeper calls raise `Exn.recursion`
(/repo/epcpy has no recursive function).  Values are immutable, except that statements assign to the attributes of the object a variable of
the current function is bound to; the caller sees these only for `__init__` (no other method is called for its assignments).
Built-in functions and methods are those of `Verif/Py`.

Simplifications: a match object is `True`, no match is `False` (both are only tested); the arguments of an exception are evaluated and then
forgotten; `log` is not computed (see `builtinCall`); bytes are lists of numbers, or the ASCII text that `base64.b64encode` returns.
-/
import Verif.Src.Program
import Verif.Py.Class
import Verif.Py.Base64
import Verif.Py.Pattern

namespace Epc.Src

abbrev M := Except Exn

/-- The exceptions of the runtime layer. -/
def lift {α : Type} : Except Err α → M α
  | .ok a => .ok a
  | .error e => .error (.err e)

/-- TypeError -/
abbrev tErr : Exn := .err .type

inductive Val where
  | none
  | bool (b : Bool)
  | int (i : Int)
  | str (s : Str)
  | list (l : List Val)
  | dict (l : List (Val × Val))
  | bytes (l : List Nat)
  | ascii (s : Str)
  /-- an enumeration: the class it is nested in and its name (for one at module level the class itself and `IMPLICIT`), and its members -/
  | enumCls (o : Cl) (e : Nm) (ms : List (Nm × Str × Str))
  /-- a member of an enumeration -/
  | member (o : Cl) (e m : Nm) (name value : Str)
  | cls (c : Cl)
  | obj (c : Cl) (attrs : List (Nm × Val))
  | func (d : FunDef)
  | bound (d : FunDef) (recv : Val)
  | builtin (x : Nm)
  /-- a method of a built-in type or a function of a module -/
  | meth (recv : Val) (m : Nm)
  | module (x : Nm)
  /-- `super(c, recv)` -/
  | sup (c : Cl) (recv : Val)
  | regex (r : Re)
  | exn (e : Exn)
  | kwargs (l : List (Nm × Val))
  /-- the floating point numbers `log(n)`, `k * log(n)` and `k * log(n) / log(m)` -/
  | log (n : Int)
  | logMul (k n : Int)
  | logDiv (k n m : Int)

abbrev Env := List (Nm × Val)

/-- The value of a name. -/
def get {α : Type} (x : Nm) : List (Nm × α) → Option α
  | [] => .none
  | (y, v) :: t => if x = y then some v else get x t

/-- Bind a name. -/
def set {α : Type} (x : Nm) (v : α) : List (Nm × α) → List (Nm × α)
  | [] => [(x, v)]
  | (y, w) :: t => if x = y then (x, v) :: t else (y, w) :: set x v t

/-- Remove a name. -/
def del {α : Type} (x : Nm) : List (Nm × α) → List (Nm × α)
  | [] => []
  | (y, w) :: t => if x = y then t else (y, w) :: del x t

/-! ### Classes -/

/-- `c.__mro__` without `object`. -/
def clsMro (c : Cl) : List Cl := (Epc.mro (fun c => ⟨clsBases c, []⟩) 8 c).getD []

/-- The first binding of a name along a list of classes. -/
def findIn (a : Nm) : List Cl → Option (Cl × Member)
  | [] => .none
  | c :: cs =>
    match get a (clsDict c) with
    | some m => some (c, m)
    | .none => findIn a cs

/-- The classes of a list that define `__init__`. -/
def initChain (cs : List Cl) : List Cl := cs.filter (fun c => (get .__init__ (clsDict c)).isSome)

/-- The classes after `c`. -/
def afterCl (c : Cl) : List Cl → List Cl
  | [] => []
  | d :: ds => if c = d then ds else afterCl c ds

/-! ### Operations -/

mutual

/-- `==` of texts, numbers, `None`, members of enumerations and lists.  Simplification: other values (dictionaries, objects) are unequal; the
code does not compare them. -/
def Val.beq : Val → Val → Bool
  | .str a, .str b => a == b
  | .int a, .int b => a == b
  | .none, .none => true
  | .bool a, .bool b => a == b
  | .bool a, .int b => (if a then 1 else 0) == b
  | .int a, .bool b => a == (if b then 1 else 0)
  | .member o e m _ _, .member o' e' m' _ _ => decide (o = o') && decide (e = e') && decide (m = m')
  | .list a, .list b => Val.beqList a b
  | _, _ => false

def Val.beqList : List Val → List Val → Bool
  | [], [] => true
  | a :: s, b :: t => a.beq b && Val.beqList s t
  | _, _ => false

end

/-- `bool(v)`. -/
def Val.truthy : Val → Bool
  | .none => false
  | .bool b => b
  | .int i => i != 0
  | .str s => !s.isEmpty
  | .list l => !l.isEmpty
  | .dict d => !d.isEmpty
  | .bytes b => !b.isEmpty
  | .ascii s => !s.isEmpty
  | .kwargs l => !l.isEmpty
  | _ => true

/-- The value of a key of a dictionary. -/
def dictGet (k : Val) : List (Val × Val) → Option Val
  | [] => .none
  | (k', v) :: t => if k.beq k' then some v else dictGet k t

/-- `d[k] = v`. -/
def dictSet (k v : Val) : List (Val × Val) → List (Val × Val)
  | [] => [(k, v)]
  | (k', w) :: t => if k.beq k' then (k', v) :: t else (k', w) :: dictSet k v t

/-- A dictionary from its pairs, in their order.  Simplification: every value can be a key. -/
def dictOf (l : List (Val × Val)) : List (Val × Val) := l.foldl (fun d p => dictSet p.1 p.2 d) []

/-- The elements a loop runs over. -/
def iter : Val → M (List Val)
  | .list l => .ok l
  | .str s => .ok (s.map (fun c => .str [c]))
  | .enumCls o e ms => .ok (ms.map (fun m => .member o e m.1 m.2.1 m.2.2))
  | .dict d => .ok (d.map (·.1))
  | _ => .error tErr

/-- Repetition of a text. -/
def repeatStr (s : Str) (n : Int) : Str := (List.replicate n.toNat s).flatten

/-- `a op b`. -/
def binOp : BinOp → Val → Val → M Val
  | .add, .int a, .int b => .ok (.int (a + b))
  | .add, .str a, .str b => .ok (.str (a ++ b))
  | .sub, .int a, .int b => .ok (.int (a - b))
  | .mul, .int a, .int b => .ok (.int (a * b))
  | .mul, .str a, .int b => .ok (.str (repeatStr a b))
  | .mul, .int a, .str b => .ok (.str (repeatStr b a))
  | .mul, .int k, .log n => .ok (.logMul k n)
  | .div, .logMul k n, .log m => .ok (.logDiv k n m)
  | .mod, .int a, .int b => if b = 0 then .error .unsupported else .ok (.int (a.fmod b))
  | _, _, _ => .error .unsupported

/-- `a op b` for the comparisons. -/
def cmpOp : CmpOp → Val → Val → M Bool
  | .eq, a, b => .ok (a.beq b)
  | .ne, a, b => .ok (!a.beq b)
  | .lt, .int a, .int b => .ok (decide (a < b))
  | .le, .int a, .int b => .ok (decide (a ≤ b))
  | .gt, .int a, .int b => .ok (decide (a > b))
  | .ge, .int a, .int b => .ok (decide (a ≥ b))
  | .isIn, a, .dict d => .ok (dictGet a d).isSome
  | .isIn, a, .list l => .ok (l.any (a.beq ·))
  | .notIn, a, .dict d => .ok !(dictGet a d).isSome
  | .notIn, a, .list l => .ok !(l.any (a.beq ·))
  | _, _, _ => .error .unsupported

/-- The position of an index: from the end if negative. -/
def position (len : Nat) (i : Int) : Option Nat :=
  if 0 ≤ i then some i.toNat else if 0 ≤ i + len then some (i + len).toNat else .none

/-- `v[i]`. -/
def getItem : Val → Val → M Val
  | .str s, .int i =>
    match position s.length i with
    | some k => match s[k]? with
      | some c => .ok (.str [c])
      | .none => .error (.err .index)
    | .none => .error (.err .index)
  | .list l, .int i =>
    match position l.length i with
    | some k => match l[k]? with
      | some v => .ok v
      | .none => .error (.err .index)
    | .none => .error (.err .index)
  | .dict d, k =>
    match dictGet k d with
    | some v => .ok v
    | .none => .error (.err .key)
  | .enumCls o e ms, .str n =>
    match ms.find? (fun m => m.2.1 == n) with
    | some m => .ok (.member o e m.1 m.2.1 m.2.2)
    | .none => .error (.err .key)
  | _, .bool _ => .error .unsupported
  | _, _ => .error tErr

/-- Every second element. -/
def everySecond {α : Type} : List α → List α
  | [] => []
  | [a] => [a]
  | a :: _ :: t => a :: everySecond t

/-- `v[lo:hi:step]`. -/
def getSlice : Val → Val → Val → Val → M Val
  | .str s, .none, .none, .none => .ok (.str s)
  | .str s, .int lo, .none, .none => .ok (.str (sliceFromI s lo))
  | .str s, .none, .int hi, .none => .ok (.str (sliceToI s hi))
  | .str s, .int lo, .int hi, .none => .ok (.str (sliceI s lo hi))
  | .list l, .int lo, .none, .none => .ok (.list (l.drop (clampIdx l.length lo)))
  | .list l, .none, .int hi, .none => .ok (.list (l.take (clampIdx l.length hi)))
  | .list l, .int lo, .none, .int 2 => .ok (.list (everySecond (l.drop (clampIdx l.length lo))))
  | _, _, _, _ => .error .unsupported

/-! ### Formatting -/

/-- A format specification: fill, alignment, width and type. -/
structure Fmt where
  fill : Char
  align : Option Char
  width : Nat
  ty : Option Char
  deriving DecidableEq

def isAlign (c : Char) : Bool := c == '<' || c == '>' || c == '=' || c == '^'

/-- The value of a text of digits. -/
def decValue (s : Str) : Nat := s.foldl (fun n c => 10 * n + (c.toNat - 48)) 0

/-- Width and type. -/
def parseWidth (fill : Char) (align : Option Char) (s : Str) : Option Fmt :=
  match s.dropWhile isDigitA with
  | [] => some ⟨fill, align, decValue (s.takeWhile isDigitA), .none⟩
  | [c] => some ⟨fill, align, decValue (s.takeWhile isDigitA), some c⟩
  | _ => .none

/-- `[[fill]align][0][width][type]`.  A zero before the width sets the fill character, if none is given, and the alignment `=`, if none is
given.  https://docs.python.org/3/library/string.html#format-specification-mini-language -/
def parseFmt (s : Str) : Option Fmt :=
  match s with
  | f :: a :: t =>
    if isAlign a then parseWidth f (some a) t
    else if isAlign f then
      if a = '0' then parseWidth '0' (some f) t else parseWidth ' ' (some f) (a :: t)
    else if f = '0' then parseWidth '0' (some '=') (a :: t)
    else parseWidth ' ' .none (f :: a :: t)
  | s => parseWidth ' ' .none s

/-- Pad a number given by its sign and its digits. -/
def padNumber (f : Fmt) (neg : Bool) (digits : Str) : Option Str :=
  let sign : Str := if neg then ['-'] else []
  match f.align with
  | some '=' => some (sign ++ padLeft f.fill (f.width - sign.length) digits)
  | some '<' => some (padRight f.fill f.width (sign ++ digits))
  | some '>' => some (padLeft f.fill f.width (sign ++ digits))
  | .none => some (padLeft f.fill f.width (sign ++ digits))
  | _ => .none

/-- `format(v, spec)` for a parsed specification. -/
def formatWith (f : Fmt) : Val → Option Str
  | .int i =>
    match f.ty with
    | .none => padNumber f (decide (i < 0)) (Nat.toDigits 10 i.natAbs)
    | some 'b' => padNumber f (decide (i < 0)) (Nat.toDigits 2 i.natAbs)
    | some 'x' => padNumber f (decide (i < 0)) (Nat.toDigits 16 i.natAbs)
    | some 'X' => padNumber f (decide (i < 0)) ((Nat.toDigits 16 i.natAbs).map upperChar)
    | _ => .none
  | .str s =>
    match f.ty, f.align with
    | .none, .none => some (padRight f.fill f.width s)
    | .none, some '<' => some (padRight f.fill f.width s)
    | .none, some '>' => some (padLeft f.fill f.width s)
    | _, _ => .none
  | _ => .none

/-- `format(v, spec)`. -/
def format (v : Val) (spec : Str) : M Val :=
  match spec with
  | [] =>
    match v with
    | .str s => .ok (.str s)
    | .int i => .ok (.str (intStr i))
    | _ => .error .unsupported
  | spec =>
    match parseFmt spec with
    | some f =>
      match formatWith f v with
      | some s => .ok (.str s)
      | .none => .error .unsupported
    | .none => .error (.err .value)

/-! ### Built-in functions and methods -/

/-- `sep.join(parts)` for at most one character. -/
def joinStr : Str → List Str → Option Str
  | [], l => some l.flatten
  | [c], l => some (joinWith c l)
  | _, _ => .none

/-- The texts of a list. -/
def strsOf : List Val → M (List Str)
  | [] => .ok []
  | .str s :: t =>
    match strsOf t with
    | .ok r => .ok (s :: r)
    | .error e => .error e
  | _ :: _ => .error tErr

/-- `sum(l)` of integers. -/
def sumInts : List Val → M Int
  | [] => .ok 0
  | .int i :: t =>
    match sumInts t with
    | .ok r => .ok (i + r)
    | .error e => .error e
  | .bool _ :: _ => .error .unsupported
  | _ :: _ => .error tErr

/-- Methods of texts, dictionaries, patterns and byte strings, functions of modules. -/
def methodCall : Val → Nm → List Val → M Val
  | .str s, .split, [.str [c]] => .ok (.list ((split c s).map .str))
  | .str s, .join, [v] =>
    match iter v with
    | .ok l =>
      match strsOf l with
      | .ok l =>
        match joinStr s l with
        | some r => .ok (.str r)
        | .none => .error .unsupported
      | .error e => .error e
    | .error e => .error e
  | .str s, .replace, [.str (a :: p), .str r] => .ok (.str (replaceAll (a :: p) r s))
  | .str s, .replace, [.str (a :: p), .str r, .int 1] => .ok (.str (replaceFirst (a :: p) r s))
  | .str s, .startswith, [.str p] => .ok (.bool (startsWith s p))
  | .str s, .isnumeric, [] => .ok (.bool (isNumeric s))
  | .str s, .zfill, [.int w] => .ok (.str (zfill w.toNat s))
  | .str s, .upper, [] => .ok (.str (s.map upperChar))
  | .str s, .lower, [] => .ok (.str (s.map lowerChar))
  | .dict d, .keys, [] => .ok (.list (d.map (·.1)))
  | .dict d, .items, [] => .ok (.list (d.map (fun p => .list [p.1, p.2])))
  | .regex r, .fullmatch, [.str s] => .ok (.bool (r.fullmatch s))
  | .regex r, .«match», [.str s] => .ok (.bool (r.matchPrefix s))
  | .module .re, .compile, [.str p] =>
    match compile p with
    | some r => .ok (.regex r)
    | .none => .error .unsupported
  | .module .re, .split, [.str p, .str s] =>
    match splitBy p s with
    | some l => .ok (.list (l.map .str))
    | .none => .error .unsupported
  | .module .re, .findall, [.str p, .str s] =>
    match findAllBy p s with
    | some l => .ok (.list (l.map .str))
    | .none => .error .unsupported
  | .module .re, .«match», [.str p, .str s] =>
    match compile p with
    | some r => .ok (.bool (r.matchPrefix s))
    | .none => .error .unsupported
  | .module .re, .sub, [.str p, .str r, .str s, .int 1] =>
    match subBy p r s with
    | some t => .ok (.str t)
    | .none => .error .unsupported
  | .module .base64, .b64decode, [.str s] => (lift (b64decode s)).map .bytes
  | .module .base64, .b64encode, [.bytes b] => .ok (.ascii (b64encode b))
  | .module .bytes, .fromhex, [.str s] => (lift (bytesFromHex s)).map .bytes
  | .bytes b, .hex, [] => .ok (.str (bytesHex b))
  | .ascii s, .decode, [.str _] => .ok (.str s)
  | _, _, _ => .error .unsupported

/-- `k * log(2) / log(10)`, cut to an integer.  Simplification: the exact floor instead of the floating point computation. -/
def log10Pow2 (k : Int) : Int := ((natStr (2 ^ k.toNat)).length - 1 : Nat)

/-- The class of an object. -/
def classOf : Val → Option Cl
  | .obj c _ => some c
  | .cls c => some c
  | _ => .none

/-- Built-in functions, except `map`. -/
def builtinCall : Nm → List Val → M Val
  | .len, [.str s] => .ok (.int (s.length : Int))
  | .int, [.str s] => (lift (pyInt 10 s)).map .int
  | .int, [.str s, .int b] => if b = 2 ∨ b = 16 then (lift (pyInt b.toNat s)).map .int else .error .unsupported
  | .int, [.int i] => .ok (.int i)
  | .int, [.logDiv k n m] => if n = 2 ∧ m = 10 then .ok (.int (log10Pow2 k)) else .error .unsupported
  | .str, [.str s] => .ok (.str s)
  | .str, [.int i] => .ok (.str (intStr i))
  | .chr, [.int i] => (lift (chr i)).map (fun c => .str [c])
  | .ord, [.str [c]] => .ok (.int (c.toNat : Int))
  | .sum, [.list l] => (sumInts l).map .int
  | .pow, [.int a, .int b] => if 0 ≤ b then .ok (.int (a ^ b.toNat)) else .error .unsupported
  | .list, [v] => (iter v).map .list
  | .log, [.int n] => .ok (.log n)
  | .isinstance, [v, .cls c] =>
    match v with
    | .obj d _ => .ok (.bool ((clsMro d).contains c))
    | _ => .ok (.bool false)
  | .issubclass, [.cls d, .cls c] => .ok (.bool ((clsMro d).contains c))
  | .super, [.cls c, v] => .ok (.sup c v)
  | _, _ => .error .unsupported

/-! ### Levels -/

/-- What one level offers to the next: applying a value, evaluating an expression of a module, and running the `__init__` methods of a list
of classes on an object. -/
structure Level where
  app : Val → List Val → List (Nm × Val) → M Val
  const : Mod → Env → Expr → M Val
  init : List Cl → Val → List Val → M Val

/-- Built-in names. -/
def builtinVal : Nm → M Val
  | .NotImplementedError => .ok (.exn .notImplemented)
  | .bytes => .ok (.module .bytes)
  | x => if x ∈ [.len, .int, .str, .chr, .ord, .sum, .pow, .list, .map, .isinstance, .issubclass, .super] then .ok (.builtin x) else .error .name

/-- The value of a name of a module. -/
def globalVal (L : Level) (m : Mod) (x : Nm) : M Val :=
  match get x (modDict m) with
  | some (.fn d) => .ok (.func d)
  | some (.cls c) => .ok (.cls c)
  | some (.const e) => L.const m [] e
  | some (.module y) => .ok (.module y)
  | some (.builtin y) => .ok (.builtin y)
  | some (.text s) => .ok (.str s)
  | some (.imported m' x') =>
    match get x' (modDict m') with
    | some (.fn d) => .ok (.func d)
    | some (.cls c) => .ok (.cls c)
    | some (.const e) => L.const m' [] e
    | _ => .error .name
  | .none => builtinVal x

/-- The value of a member of a class, looked up on a class (`inst = none`) or on an object. -/
def memberVal (L : Level) (c : Cl) (recv : Val) (inst : Bool) : Option (Cl × Member) → Nm → M Val
  | some (_, .method d), _ => .ok (if inst then .bound d recv else .func d)
  | some (_, .classmethod d), _ => .ok (.bound d (.cls c))
  | some (o, .const e), _ => L.const (clsMod o) [] e
  | some (o, .enum ms), a => .ok (.enumCls o a ms)
  | some (o, .member n v), a => .ok (.member o .IMPLICIT a n v)
  | .none, _ => .error .attribute

/-- `v.a`. -/
def getAttr (L : Level) (v : Val) (a : Nm) : M Val :=
  match v with
  | .obj c attrs =>
    match get a attrs with
    | some w => .ok w
    | .none => memberVal L c v true (findIn a (clsMro c)) a
  | .cls c =>
    if a = .__name__ then .ok (.str (clsName c))
    else memberVal L c v false (findIn a (clsMro c)) a
  | .sup c recv =>
    match classOf recv with
    | some d => memberVal L d recv (match recv with | .obj _ _ => true | _ => false) (findIn a (afterCl c (clsMro d))) a
    | .none => .error tErr
  | .enumCls o e ms =>
    match get a ms with
    | some m => .ok (.member o e a m.1 m.2)
    | .none => .error .attribute
  | .member _ _ _ n w => if a = .value then .ok (.str w) else if a = .name then .ok (.str n) else .error .attribute
  | .str _ | .dict _ | .bytes _ | .ascii _ | .regex _ | .module _ => .ok (.meth v a)
  | _ => .error .attribute

/-- Apply a value to arguments. -/
def applyVal (L : Level) : Val → List Val → List (Nm × Val) → M Val
  | .builtin .map, [f, v], [] =>
    match iter v with
    | .ok l => (l.mapM (fun x => L.app f [x] [])).map .list
    | .error e => .error e
  | .builtin x, args, [] => builtinCall x args
  | .meth v m, args, [] => methodCall v m args
  | f, args, kw => L.app f args kw

/-- The pairs of a list of two-element lists. -/
def pairsOf : List Val → M (List (Val × Val))
  | [] => .ok []
  | .list [k, v] :: t => do
    let r ← pairsOf t
    return (k, v) :: r
  | _ :: _ => .error .unsupported

/-- The elements of a list. -/
def asList : Val → M (List Val)
  | .list l => .ok l
  | _ => .error .unsupported

mutual

/-- The value of an expression. -/
def eval (L : Level) (m : Mod) (env : Env) : Expr → M Val
  | .name x =>
    match get x env with
    | some v => .ok v
    | .none => globalVal L m x
  | .int n => .ok (.int (n : Int))
  | .str s => .ok (.str s)
  | .bool b => .ok (.bool b)
  | .none => .ok .none
  | .attr e a => do
    let v ← eval L m env e
    getAttr L v a
  | .item e i => do
    let v ← eval L m env e
    let i ← eval L m env i
    getItem v i
  | .slice e lo hi step => do
    let v ← eval L m env e
    let lo ← eval L m env lo
    let hi ← eval L m env hi
    let step ← eval L m env step
    getSlice v lo hi step
  | .call f args kw => do
    let f ← eval L m env f
    let args ← evalList L m env args
    let kw ← evalKw L m env kw
    applyVal L f args kw
  | .callKw f kw => do
    let f ← eval L m env f
    match ← eval L m env kw with
    | .kwargs l => applyVal L f [] l
    | _ => .error tErr
  | .cat a b => do
    let a ← eval L m env a
    let b ← eval L m env b
    binOp .add a b
  | .fmt e spec => do
    let v ← eval L m env e
    match ← eval L m env spec with
    | .str s => format v s
    | _ => .error tErr
  | .bin op a b => do
    let a ← eval L m env a
    let b ← eval L m env b
    binOp op a b
  | .not a => do
    let a ← eval L m env a
    return .bool (!a.truthy)
  | .neg a => do
    match ← eval L m env a with
    | .int i => .ok (.int (-i))
    | .bool _ => .error .unsupported
    | _ => .error tErr
  | .and a b => do
    let a ← eval L m env a
    if a.truthy then eval L m env b else .ok a
  | .or a b => do
    let a ← eval L m env a
    if a.truthy then .ok a else eval L m env b
  | .cmp op a b => do
    let a ← eval L m env a
    let b ← eval L m env b
    let r ← cmpOp op a b
    return .bool r
  | .cmp2 op1 op2 a b c => do
    let a ← eval L m env a
    let b ← eval L m env b
    let r ← cmpOp op1 a b
    if r then do
      let c ← eval L m env c
      let r ← cmpOp op2 b c
      return .bool r
    else .ok (.bool false)
  | .ite c a b => do
    let c ← eval L m env c
    if c.truthy then eval L m env a else eval L m env b
  | .list l => do
    let l ← evalList L m env l
    return .list l
  | .dict l => do
    let l ← evalPairs L m env l
    return .dict (dictOf l)
  | .map elt x it => do
    let it ← eval L m env it
    let l ← iter it
    let r ← l.mapM (fun v => eval L m (set x v env) elt)
    return .list r
  | .comp elt x it cond => do
    let it ← eval L m env it
    let l ← iter it
    let r ← l.mapM (fun v => do
      let c ← eval L m (set x v env) cond
      if c.truthy then do
        let w ← eval L m (set x v env) elt
        return [w]
      else .ok [])
    return .list r.flatten
  | .flat inner x it => do
    let it ← eval L m env it
    let l ← iter it
    let r ← l.mapM (fun v => do
      let w ← eval L m (set x v env) inner
      asList w)
    return .list r.flatten
  | .mkDict pairs => do
    let l ← eval L m env pairs
    let l ← asList l
    let l ← pairsOf l
    return .dict (dictOf l)

def evalList (L : Level) (m : Mod) (env : Env) : List Expr → M (List Val)
  | [] => .ok []
  | e :: es => do
    let v ← eval L m env e
    let vs ← evalList L m env es
    return v :: vs

def evalKw (L : Level) (m : Mod) (env : Env) : List (Nm × Expr) → M (List (Nm × Val))
  | [] => .ok []
  | (x, e) :: es => do
    let v ← eval L m env e
    let vs ← evalKw L m env es
    return (x, v) :: vs

def evalPairs (L : Level) (m : Mod) (env : Env) : List (Expr × Expr) → M (List (Val × Val))
  | [] => .ok []
  | (k, e) :: es => do
    let k ← eval L m env k
    let v ← eval L m env e
    let vs ← evalPairs L m env es
    return (k, v) :: vs

end

/-- How a statement ends. -/
inductive Flow where
  | next (env : Env)
  | ret (v : Val)
  | brk (env : Env)
  | cont (env : Env)

/-- Assign to a target. -/
def assign (env : Env) (v : Val) : Target → M Env
  | .var x => .ok (set x v env)
  | .attr x a =>
    match get x env with
    | some (.obj c attrs) => .ok (set x (.obj c (set a v attrs)) env)
    | _ => .error .unsupported

/-- Is the number of values the one the targets need? -/
def enough : List Target → Option Target → List Val → Bool
  | [], .none, [] => true
  | [], some _, _ => true
  | _ :: ts, star, _ :: vs => enough ts star vs
  | _, _, _ => false

/-- Assign to the targets one by one. -/
def assignAll (env : Env) : List Target → Option Target → List Val → M Env
  | [], some t, vs => assign env (.list vs) t
  | t :: ts, star, v :: vs => do
    let env ← assign env v t
    assignAll env ts star vs
  | _, _, _ => .ok env

/-- Assign to several targets; too few or too many values are a ValueError, before anything is assigned. -/
def assignMany (env : Env) (ts : List Target) (star : Option Target) (vs : List Val) : M Env :=
  if enough ts star vs then assignAll env ts star vs else .error (.err .value)

/-- A loop with the given body over the given values; `bindVar` assigns the loop variables. -/
def forLoop (bindVar : Env → Val → M Env) (body : Env → M Flow) : List Val → Env → M Flow
  | [], env => .ok (.next env)
  | v :: vs, env => do
    let env ← bindVar env v
    match ← body env with
    | .next env => forLoop bindVar body vs env
    | .cont env => forLoop bindVar body vs env
    | .brk env => .ok (.next env)
    | .ret v => .ok (.ret v)

mutual

/-- Execute a statement; `chain` are the classes after the one whose `__init__` is running. -/
def exec (L : Level) (m : Mod) (chain : List Cl) (env : Env) : Stmt → M Flow
  | .expr e => do
    let _ ← eval L m env e
    return .next env
  | .assign t e => do
    let v ← eval L m env e
    let env ← assign env v t
    return .next env
  | .unpack ts star e => do
    let v ← eval L m env e
    let vs ← asList v
    let env ← assignMany env ts star vs
    return .next env
  | .aug x e => do
    let a ← eval L m env (.name x)
    let b ← eval L m env e
    let v ← binOp .add a b
    return .next (set x v env)
  | .ret e => do
    let v ← eval L m env e
    return .ret v
  | .raise e => do
    match ← eval L m env e with
    | .exn x => .error x
    | _ => .error tErr
  | .ite c a b => do
    let c ← eval L m env c
    if c.truthy then execBlock L m chain env a else execBlock L m chain env b
  | .for_ x it body => do
    let it ← eval L m env it
    let l ← iter it
    forLoop (fun env v => .ok (set x v env)) (fun env => execBlock L m chain env body) l env
  | .forUnpack ts it body => do
    let it ← eval L m env it
    let l ← iter it
    forLoop (fun env v => do
      let vs ← asList v
      assignMany env ts .none vs) (fun env => execBlock L m chain env body) l env
  | .brk => .ok (.brk env)
  | .cont => .ok (.cont env)
  | .try_ body exn handler =>
    match execBlock L m chain env body with
    | .error e => if e = exn then execBlock L m chain env handler else .error e
    | r => r
  | .superInit args => do
    let args ← evalList L m env args
    match get .self env with
    | some self => do
      let self ← L.init chain self args
      return .next (set .self self env)
    | .none => .error .name

def execBlock (L : Level) (m : Mod) (chain : List Cl) (env : Env) : List Stmt → M Flow
  | [] => .ok (.next env)
  | s :: ss => do
    match ← exec L m chain env s with
    | .next env => execBlock L m chain env ss
    | f => .ok f

end

/-- The scope in which the defaults of the parameters are evaluated: of the names of a class body only `BinaryCodingScheme` is used. -/
def classScope : Option Cl → Env
  | some c =>
    match get .BinaryCodingScheme (clsDict c) with
    | some (.enum ms) => [(.BinaryCodingScheme, .enumCls c .BinaryCodingScheme ms)]
    | _ => []
  | .none => []

/-- Bind the parameters: positional arguments, then keyword arguments, then defaults.  Returns what is left of the arguments. -/
def bindParams (L : Level) (d : FunDef) : List Param → List Val → List (Nm × Val) → M (Env × List Val × List (Nm × Val))
  | [], args, kw => .ok ([], args, kw)
  | p :: ps, v :: args, kw =>
    if (get p.name kw).isSome then .error tErr
    else do
      let r ← bindParams L d ps args kw
      return ((p.name, v) :: r.1, r.2)
  | p :: ps, [], kw =>
    match get p.name kw with
    | some v => do
      let r ← bindParams L d ps [] (del p.name kw)
      return ((p.name, v) :: r.1, r.2)
    | .none =>
      match p.default with
      | some e => do
        let v ← L.const d.mod (classScope d.owner) e
        let r ← bindParams L d ps [] kw
        return ((p.name, v) :: r.1, r.2)
      | .none => .error tErr

/-- The bindings of `*args`. -/
def bindVar (d : FunDef) (args : List Val) : M Env :=
  match d.vararg with
  | some x => .ok [(x, .list args)]
  | .none => if args.isEmpty then .ok [] else .error tErr

/-- The bindings of `**kwargs`. -/
def bindKw (d : FunDef) (kw : List (Nm × Val)) : M Env :=
  match d.kwarg with
  | some x => .ok [(x, .kwargs kw)]
  | .none => if kw.isEmpty then .ok [] else .error tErr

/-- The variables at the start of a call. -/
def frame (L : Level) (d : FunDef) (args : List Val) (kw : List (Nm × Val)) : M Env := do
  let r ← bindParams L d d.params args kw
  let a ← bindVar d r.2.1
  let k ← bindKw d r.2.2
  return r.1 ++ a ++ k

/-- Call a function. -/
def callDef (L : Level) (d : FunDef) (args : List Val) (kw : List (Nm × Val)) : M Val := do
  let env ← frame L d args kw
  match ← execBlock L d.mod [] env d.body with
  | .ret v => .ok v
  | .next _ => .ok .none
  | _ => .error .unsupported

/-- The first `__init__` of a list of classes. -/
def initOf : List Cl → Option FunDef
  | c :: _ =>
    match get .__init__ (clsDict c) with
    | some (.method d) => some d
    | _ => .none
  | [] => .none

/-- Apply a function, a bound method or a class.  Keyword arguments of a class are put into the order of the parameters of its `__init__` first (no
`__init__` of the source has `*args` or `**kwargs`). -/
def appStep (L : Level) : Val → List Val → List (Nm × Val) → M Val
  | .func d, args, kw => callDef L d args kw
  | .bound d recv, args, kw => callDef L d (recv :: args) kw
  | .cls c, args, kw =>
    if c = .ConvertException then .ok (.exn (.err .convert))
    else if kw.isEmpty then L.init (initChain (clsMro c)) (.obj c []) args
    else
      match initOf (initChain (clsMro c)) with
      | some d => do
        let env ← frame L d (.obj c [] :: args) kw
        L.init (initChain (clsMro c)) (.obj c []) (env.tail.map (·.2))
      | .none => .error .unsupported
  | .builtin .map, _, _ => .error .unsupported
  | .builtin x, args, [] => builtinCall x args
  | .meth v m, args, [] => methodCall v m args
  | .builtin _, _, _ => .error .unsupported
  | .meth _ _, _, _ => .error .unsupported
  | _, _, _ => .error tErr

/-- Run the first `__init__` of a list of classes on an object; at the end of the list `object.__init__`, which takes no arguments. -/
def initStep (L : Level) : List Cl → Val → List Val → M Val
  | [], self, args => if args.isEmpty then .ok self else .error tErr
  | c :: chain, self, args =>
    match get .__init__ (clsDict c) with
    | some (.method d) => do
      let env ← frame L d (self :: args) []
      match ← execBlock L d.mod chain env d.body with
      | .next env =>
        match get .self env with
        | some self => .ok self
        | .none => .error .name
      | _ => .error .unsupported
    | _ => .error .unsupported

/-- Programs whose calls nest at most `n` deep. -/
def level : Nat → Level
  | 0 => ⟨fun _ _ _ => .error .recursion, fun _ _ _ => .error .recursion, fun _ _ _ => .error .recursion⟩
  | n + 1 => ⟨appStep (level n), eval (level n), initStep (level n)⟩

end Epc.Src
