#!/usr/bin/env python3
"""Generate lean/Verif/Src/{Names,Code,...}.lean: the syntax trees of the functions, classes and module constants of /repo/epcpy.

The trees are those of Python's own parser (module `ast`); docstrings, type annotations and the TypeVar assignments are dropped.  Every
construct that is not in the subset of lean/Verif/Src/Syntax.lean makes this program fail."""
import ast, builtins
import re, glob, os
ROOT = os.path.dirname(os.path.dirname(os.path.abspath(__file__)))
REPO = os.environ.get("EPC_REPO", "/repo")
OUT = os.environ.get("EPC_LEAN", f"{ROOT}/lean") + "/Verif/Src"
FILES = [("regex", "utils/regex.py"), ("common", "utils/common.py"), ("base_scheme", "epc_schemes/base_scheme.py")]
FILES += [(os.path.basename(f)[:-3], "epc_schemes/" + os.path.basename(f)) for f in sorted(glob.glob(f"{REPO}/epcpy/epc_schemes/*.py"))
          if os.path.basename(f) not in ("__init__.py", "base_scheme.py")]
FILES += [("parsers", "utils/parsers.py")]
KEYWORDS = {"from", "end", "partial", "open", "in", "prefix", "match", "where", "with", "do", "let", "have", "show", "at", "by", "fun", "if",
            "then", "else", "return", "for", "class", "instance", "def", "theorem", "structure", "inductive", "import", "variable", "section",
            "namespace", "private", "protected", "mutual", "macro", "syntax", "notation", "infix", "postfix", "example", "deriving", "extends"}
EXN = {"KeyError": ".err .key", "ValueError": ".err .value"}
names = set()
classes = []          # class names, top-level (also enumerations)


def nm(x):
    names.add(x)
    return "." + ("us" if x == "_" else f"«{x}»" if x in KEYWORDS else x)


def lstr(s):
    return '(py "' + s.replace("\\", "\\\\").replace('"', '\\"').replace("\n", "\\n") + '")'


def lst(l):
    return "[" + ", ".join(l) + "]"


BIN = {ast.Add: ".add", ast.Sub: ".sub", ast.Mult: ".mul", ast.Div: ".div", ast.Mod: ".mod"}
CMP = {ast.Eq: ".eq", ast.NotEq: ".ne", ast.Lt: ".lt", ast.LtE: ".le", ast.Gt: ".gt", ast.GtE: ".ge", ast.In: ".isIn", ast.NotIn: ".notIn"}


def fold(con, xs):
    if len(xs) == 1:
        return xs[0]
    return f"({con} {xs[0]} {fold(con, xs[1:])})"


def joined(e):
    parts = []
    for v in e.values:
        if isinstance(v, ast.Constant):
            parts.append(f"(.str {lstr(v.value)})")
        else:
            assert isinstance(v, ast.FormattedValue) and v.conversion == -1
            spec = "(.str [])" if v.format_spec is None else joined(v.format_spec)
            parts.append(f"(.fmt {expr(v.value)} {spec})")
    return fold(".cat", parts) if parts else "(.str [])"


def expr(e):
    t = type(e)
    if t is ast.Name:
        return f"(.name {nm(e.id)})"
    if t is ast.Constant:
        v = e.value
        if v is None:
            return ".none"
        if v is True or v is False:
            return f"(.bool {str(v).lower()})"
        if isinstance(v, int):
            return f"(.int {v})"
        assert isinstance(v, str), v
        return f"(.str {lstr(v)})"
    if t is ast.Attribute:
        return f"(.attr {expr(e.value)} {nm(e.attr)})"
    if t is ast.Subscript:
        if isinstance(e.slice, ast.Slice):
            b = [".none" if x is None else expr(x) for x in (e.slice.lower, e.slice.upper, e.slice.step)]
            return f"(.slice {expr(e.value)} {' '.join(b)})"
        return f"(.item {expr(e.value)} {expr(e.slice)})"
    if t is ast.Call:
        if e.keywords and e.keywords[0].arg is None:
            assert len(e.keywords) == 1 and not e.args
            return f"(.callKw {expr(e.func)} {expr(e.keywords[0].value)})"
        assert not any(isinstance(a, ast.Starred) for a in e.args)
        kw = lst(f"({nm(k.arg)}, {expr(k.value)})" for k in e.keywords)
        return f"(.call {expr(e.func)} {lst(expr(a) for a in e.args)} {kw})"
    if t is ast.JoinedStr:
        return joined(e)
    if t is ast.BinOp:
        return f"(.bin {BIN[type(e.op)]} {expr(e.left)} {expr(e.right)})"
    if t is ast.UnaryOp:
        if isinstance(e.op, ast.Not):
            return f"(.not {expr(e.operand)})"
        assert isinstance(e.op, ast.USub)
        return f"(.neg {expr(e.operand)})"
    if t is ast.BoolOp:
        return fold(".and" if isinstance(e.op, ast.And) else ".or", [expr(v) for v in e.values])
    if t is ast.Compare:
        if len(e.ops) == 1:
            return f"(.cmp {CMP[type(e.ops[0])]} {expr(e.left)} {expr(e.comparators[0])})"
        assert len(e.ops) == 2
        return f"(.cmp2 {CMP[type(e.ops[0])]} {CMP[type(e.ops[1])]} {expr(e.left)} {expr(e.comparators[0])} {expr(e.comparators[1])})"
    if t is ast.IfExp:
        return f"(.ite {expr(e.test)} {expr(e.body)} {expr(e.orelse)})"
    if t is ast.List:
        return f"(.list {lst(expr(x) for x in e.elts)})"
    if t is ast.Tuple:
        return f"(.list {lst(expr(x) for x in e.elts)})"
    if t is ast.Dict:
        return f"(.dict {lst(f'({expr(k)}, {expr(v)})' for k, v in zip(e.keys, e.values))})"
    if t is ast.ListComp:
        return comp(e.generators, e.elt)
    if t is ast.DictComp:
        return f"(.mkDict {comp(e.generators, ast.List([e.key, e.value]))})"
    raise NotImplementedError(ast.dump(e))


parts, current = [], None   # named loop bodies and elements of comprehensions


def part(kind, ty, text, node):
    if current is None:
        return text
    k = sum(1 for q in parts if q[0] == kind) + 1
    parts.append((kind, f"/-- {'The body of a loop' if kind == 'loop' else 'The element of a comprehension'} of `{current}`. -/\n"
                        f"def {current}.{kind}{k} : {ty} :=\n  {text}\n"))
    return f"{current}.{kind}{k}"


def comp(gens, elt):
    g = gens[0]
    assert len(g.ifs) <= 1 and not g.is_async
    x = nm(g.target.id)
    cond = expr(g.ifs[0]) if g.ifs else "(.bool true)"
    if len(gens) == 1:
        elt = part("elt", "Expr", expr(elt), g.iter)
        return f"(.comp {elt} {x} {expr(g.iter)} {cond})" if g.ifs else f"(.map {elt} {x} {expr(g.iter)})"
    assert not g.ifs
    # the later variables are not bound yet in the later sources
    assert not any(isinstance(y, ast.Name) and y.id in [h.target.id for h in gens[i:]] for i in range(1, len(gens)) for y in ast.walk(gens[i].iter))
    return f"(.flat {comp(gens[1:], elt)} {x} {expr(g.iter)})"


def target(t):
    if isinstance(t, ast.Name):
        return f"(.var {nm(t.id)})"
    assert isinstance(t, ast.Attribute) and isinstance(t.value, ast.Name), ast.dump(t)
    return f"(.attr {nm(t.value.id)} {nm(t.attr)})"


def targets(t):
    """(targets, starred last target)"""
    if isinstance(t, ast.Tuple):
        ts = list(t.elts)
        star = "none"
        if isinstance(ts[-1], ast.Starred):
            star = f"(some {target(ts.pop().value)})"
        return lst(target(x) for x in ts), star
    return None


def is_super_init(e):
    return (isinstance(e, ast.Call) and isinstance(e.func, ast.Attribute) and e.func.attr == "__init__" and
            isinstance(e.func.value, ast.Call) and isinstance(e.func.value.func, ast.Name) and e.func.value.func.id == "super"
            and not e.func.value.args)


def stmt(s):
    t = type(s)
    if t is ast.Expr:
        if is_super_init(s.value):
            return f".superInit {lst(expr(a) for a in s.value.args)}"
        return f".expr {expr(s.value)}"
    if t is ast.Assign or t is ast.AnnAssign:
        tg = s.targets[0] if t is ast.Assign else s.target
        assert t is ast.AnnAssign or len(s.targets) == 1
        u = targets(tg)
        if u:
            return f".unpack {u[0]} {u[1]} {expr(s.value)}"
        return f".assign {target(tg)} {expr(s.value)}"
    if t is ast.AugAssign:
        assert isinstance(s.op, ast.Add)
        return f".aug {nm(s.target.id)} {expr(s.value)}"
    if t is ast.Return:
        return f".ret {expr(s.value)}"
    if t is ast.Raise:
        assert s.cause is None
        return f".raise {expr(s.exc)}"
    if t is ast.If:
        return f".ite {expr(s.test)} {block(s.body)} {block(s.orelse)}"
    if t is ast.For:
        assert not s.orelse
        u = targets(s.target)
        if u:
            assert u[1] == "none"
            return f".forUnpack {u[0]} {expr(s.iter)} {part('loop', 'List Stmt', block(s.body), s)}"
        return f".for_ {nm(s.target.id)} {expr(s.iter)} {part('loop', 'List Stmt', block(s.body), s)}"
    if t is ast.Break:
        return ".brk"
    if t is ast.Continue:
        return ".cont"
    if t is ast.Try:
        assert not s.orelse and not s.finalbody and len(s.handlers) == 1 and s.handlers[0].name is None
        # an exception leaves the variables as they were before the body: the body is one assignment to a variable
        assert len(s.body) == 1 and isinstance(s.body[0], ast.Assign) and all(isinstance(x, ast.Name) for x in s.body[0].targets)
        h = s.handlers[0]
        return f".try_ {block(s.body)} ({EXN[h.type.id]}) {block(h.body)}"
    raise NotImplementedError(ast.dump(s))


def block(b):
    return lst(stmt(s) for s in b)


def fundef(f, ident, mod, owner, path, out):
    body = f.body
    if ast.get_docstring(f) is not None:
        body = body[1:]
    a = f.args
    assert not a.posonlyargs
    ps = list(a.args)
    defs = [None] * (len(ps) - len(a.defaults)) + list(a.defaults)
    params = [f"⟨{nm(p.arg)}, {'none' if d is None else '(some ' + expr(d) + ')'}⟩" for p, d in zip(ps, defs)]
    if a.kwonlyargs:
        raise NotImplementedError
    var = "none" if a.vararg is None else f"(some {nm(a.vararg.arg)})"
    kw = "none" if a.kwarg is None else f"(some {nm(a.kwarg.arg)})"
    own = "none" if owner is None else f"(some .{owner})"
    # a local variable is never also a name of the module or a built-in, so an unbound one is a NameError
    local = {x.id for x in ast.walk(f) if isinstance(x, ast.Name) and isinstance(x.ctx, ast.Store)} - {p.arg for p in ps}
    assert not local & (module_names[mod] | set(dir(builtins))), (ident, local)
    global current
    current = ident
    del parts[:]
    stm = ",\n     ".join(stmt(s) for s in body)
    current = None
    out += [q[1] for q in parts]
    out.append(f"/-- `{ident}`.  /repo/epcpy/{path}:{f.lineno}-{f.end_lineno} -/\ndef {ident} : FunDef :=\n"
               f"  ⟨.{mod}, {own}, {lst(params)}, {var}, {kw},\n    [{stm}]⟩\n")


def cid(m, c):
    """Two modules define a class GTIN_TYPE."""
    return f"{m}_{c}" if c == "GTIN_TYPE" else c


def is_enum(c):
    return any(isinstance(b, ast.Name) and b.id in ("Enum", "IntEnum") for b in c.bases)


def enum_members(c):
    r = []
    for n in c.body:
        if isinstance(n, ast.Assign):
            r.append((n.targets[0].id, n.value))
        else:
            assert isinstance(n, (ast.Pass, ast.Expr)), ast.dump(n)
    return r


def str_members(c):
    return lst(f"({nm(k)}, {lstr(k)}, {lstr(v.value)})" for k, v in enum_members(c))


funs, mods, cdict, bases, cmod = [], {}, {}, {}, {}
trees = {m: ast.parse(open(f"{REPO}/epcpy/{p}").read()) for m, p in FILES}
for m, p in FILES:
    for n in trees[m].body:
        if isinstance(n, ast.ClassDef):
            classes.append(cid(m, n.name))
module_names = {m: {a.name for n in trees[m].body if isinstance(n, (ast.Import, ast.ImportFrom)) for a in n.names} |
                   {n.name for n in trees[m].body if isinstance(n, (ast.FunctionDef, ast.ClassDef))} |
                   {x.id for n in trees[m].body if isinstance(n, (ast.Assign, ast.AnnAssign)) for x in ast.walk(n) if isinstance(x, ast.Name) and isinstance(x.ctx, ast.Store)}
                for m, _ in FILES}
modof = {"epcpy." + p[:-3].replace("/", "."): m for m, p in FILES}
code = {m: [] for m, _ in FILES}


def text(v):
    """A constant of regex.py: a string or an f-string of constants."""
    if isinstance(v, ast.Constant):
        return lstr(v.value)
    assert isinstance(v, ast.JoinedStr), ast.dump(v)
    parts = []
    for x in v.values:
        if isinstance(x, ast.Constant):
            parts.append(lstr(x.value))
        else:
            assert isinstance(x, ast.FormattedValue) and x.conversion == -1 and x.format_spec is None and isinstance(x.value, ast.Name)
            parts.append(f"regex.{x.value.id}")
    return " ++ ".join(parts)


SKIP_IMPORTS = {"annotations", "Enum", "IntEnum", "Optional", "Type", "TypeVar", "Dict", "List", "Tuple", "Union"}
reexports = {}
for n in ast.parse(open(f"{REPO}/epcpy/epc_schemes/__init__.py").read()).body:
    if isinstance(n, ast.ImportFrom):
        for a in n.names:
            reexports[a.name] = "epcpy.epc_schemes." + n.module if n.level else n.module
for m, p in FILES:
    g = []
    for n in trees[m].body:
        if isinstance(n, ast.ImportFrom):
            for a in n.names:
                assert a.asname is None
                if a.name in SKIP_IMPORTS:
                    continue
                mod = n.module
                if mod == "math":
                    g.append((a.name, f".builtin {nm(a.name)}"))
                    continue
                if mod == "epcpy.epc_schemes":
                    mod = reexports[a.name]
                assert mod in modof, (m, mod, a.name)
                g.append((a.name, f".imported .{modof[mod]} {nm(a.name)}"))
        elif isinstance(n, ast.Import):
            for a in n.names:
                g.append((a.name, f".module {nm(a.name)}"))
        elif isinstance(n, (ast.Assign, ast.AnnAssign)):
            t = n.targets[0] if isinstance(n, ast.Assign) else n.target
            if isinstance(n.value, ast.Call) and isinstance(n.value.func, ast.Name) and n.value.func.id == "TypeVar":
                continue
            if m == "regex":
                code[m].append(f"/-- `{t.id}`.  /repo/epcpy/{p}:{n.lineno}-{n.end_lineno} -/\ndef {m}.{t.id} : Str :=\n  {text(n.value)}\n")
                continue
            ident = f"{m}.{t.id}"
            code[m].append(f"/-- `{t.id}`.  /repo/epcpy/{p}:{n.lineno}-{n.end_lineno} -/\ndef {ident} : Expr :=\n  {expr(n.value)}\n")
            g.append((t.id, f".const Src.{ident}"))
        elif isinstance(n, ast.FunctionDef):
            assert not n.decorator_list
            fundef(n, f"{m}.{n.name}", m, None, p, code[m])
            g.append((n.name, f".fn Src.{m}.{n.name}"))
        elif isinstance(n, ast.ClassDef):
            c = cid(m, n.name)
            g.append((n.name, f".cls .{c}"))
            cmod[c] = m
            d = []
            if n.name == "ConvertException":
                bases[c] = []
            elif is_enum(n):
                bases[c] = []
                if any(b.id == "IntEnum" for b in n.bases):
                    for k, v in enum_members(n):
                        if isinstance(v, ast.Tuple):
                            assert len(v.elts) == 1
                            v = v.elts[0]
                        d.append((k, f".const {expr(v)}"))
                else:
                    for k, v in enum_members(n):
                        d.append((k, f".member {lstr(k)} {lstr(v.value)}"))
            else:
                bases[c] = [b.id for b in n.bases]
                for x in n.body:
                    if isinstance(x, ast.FunctionDef):
                        deco = [ast.unparse(q) for q in x.decorator_list]
                        assert deco in ([], ["classmethod"]), deco
                        ident = f"{n.name}.{x.name}"
                        fundef(x, ident, m, n.name, p, code[m])
                        d.append((x.name, f".{'classmethod' if deco else 'method'} Src.{ident}"))
                    elif isinstance(x, ast.ClassDef):
                        assert is_enum(x)
                        d.append((x.name, f".enum {str_members(x)}"))
                    elif isinstance(x, ast.Assign):
                        d.append((x.targets[0].id, f".const {expr(x.value)}"))
                    elif isinstance(x, ast.AnnAssign):
                        assert x.value is None
                    else:
                        assert isinstance(x, ast.Expr), ast.dump(x)
            cdict[c] = d
        else:
            assert isinstance(n, ast.Expr), ast.dump(n)
    mods[m] = g

hdr = "Generated by tools/gen_src.py from the syntax trees of /repo/epcpy."
mod_globals = {}
for m, _ in FILES:
    if m == "regex":
        continue
    rows = []
    for k, v in mods[m]:
        if v.startswith(".imported .regex "):
            v = f".text Src.regex.{k}"
        rows.append((k, v))
    mod_globals[m] = rows

L = []
for m, _ in FILES:
    L.append((m, code[m]))


def w(name, text):
    open(f"{OUT}/{name}.lean", "w").write(text)


cls_list = [c for c in classes if c != "ConvertException"] + ["ConvertException"]
dict_text = []
for c in cls_list:
    dict_text.append(f"  | .{c} => {lst(f'({nm(k)}, {v})' for k, v in cdict[c])}")
glob_text = []
for m in mod_globals:
    glob_text.append(f"  | .{m} => [\n      " + ",\n      ".join(f"({nm(k)}, {v})" for k, v in mod_globals[m]) + "]")
for x in ("value", "name", "epc_uri", "__init__", "BinaryCodingScheme", "self", "cls", "super", "__name__", "IMPLICIT"):
    nm(x)
for b in ("len int str chr ord sum pow list map isinstance issubclass log bytes re base64 split join replace fullmatch match isnumeric startswith "
          "zfill upper lower keys items findall sub compile b64decode b64encode fromhex decode hex NotImplementedError").split():
    nm(b)
allnames = sorted(names)
w("Names", f'''/-
Names of the source: identifiers, modules and classes.
{hdr}
-/

namespace Epc.Src

/-- The identifiers that occur in the source. -/
inductive Nm where
''' + "\n".join("  | " + nm(x)[1:] for x in allnames) + '''
  deriving DecidableEq

/-- The modules. -/
inductive Mod where
''' + "\n".join(f"  | {m}" for m in mod_globals) + '''
  deriving DecidableEq

/-- The classes defined at module level. -/
inductive Cl where
''' + "\n".join(f"  | {c}" for c in cls_list) + '''
  deriving DecidableEq

end Epc.Src
''')
for m, defs in L:
    if m == "regex":
        consts = [n.targets[0].id for n in trees[m].body if isinstance(n, ast.Assign)]
        defs = defs + ["/-- All constants of the module. -/\ndef regex.constants : List Str :=\n  [" + ",\n   ".join(f"regex.{x}" for x in consts) + "]\n"]
    w("Code/" + m.capitalize().replace("_s", "S"), f'''/-
The source of /repo/epcpy/{dict(FILES)[m]}.
{hdr}
-/
import Verif.Src.Syntax

namespace Epc.Src

''' + "\n".join(defs) + "\nend Epc.Src\n")
imports = "\n".join(f"import Verif.Src.Code.{m.capitalize().replace('_s', 'S')}" for m, _ in L)
w("Program", f'''/-
The modules and classes of the source as tables of names.
{hdr}
-/
{imports}

namespace Epc.Src

/-- What the names of a module are bound to.  The patterns of /repo/epcpy/utils/regex.py are bound to their texts. -/
def modDict : Mod → List (Nm × Global)
''' + "\n".join(glob_text) + '''

/-- What the names of a class body are bound to. -/
def clsDict : Cl → List (Nm × Member)
''' + "\n".join(dict_text) + '''

/-- The base classes in the class statement (`object` left out). -/
def clsBases : Cl → List Cl
''' + "\n".join(f"  | .{c} => {lst('.' + b for b in bases[c])}" for c in cls_list if bases[c]) + '''
  | _ => []

/-- The module of a class. -/
def clsMod : Cl → Mod
''' + "\n".join(f"  | .{c} => .{cmod[c]}" for c in cls_list) + '''

/-- `cls.__name__`. -/
def clsName : Cl → Str
''' + "\n".join(f"  | .{c} => py \"{c}\"" for c in cls_list) + '''

end Epc.Src
''')

# ---- lookup lemmas
BUILTINS = "len int str chr ord sum pow list map isinstance issubclass super bytes NotImplementedError".split()


def free_names(tree):
    r = set()
    for x in ast.walk(tree):
        if isinstance(x, ast.Name):
            r.add(x.id)
    return r


rows = []
gl = {m: dict(rs) for m, rs in mod_globals.items()}
for m, p in FILES:
    if m == "regex":
        continue
    used = set()
    for n in trees[m].body:
        if isinstance(n, (ast.FunctionDef, ast.ClassDef, ast.Assign, ast.AnnAssign)):
            used |= free_names(n)
    for x in sorted(used):
        v = gl[m].get(x)
        src = m
        if v is None:
            if x not in BUILTINS:
                continue
            val = ".ok (.exn .notImplemented)" if x == "NotImplementedError" else ".ok (.module .bytes)" if x == "bytes" else f".ok (.builtin {nm(x)})"
        else:
            if v.startswith(".imported"):
                src = v.split()[1][1:]
                v = gl[src][x]
            kind, arg = v.split(" ", 1)
            val = {".fn": f".ok (.func {arg})", ".cls": f".ok (.cls {arg})", ".const": f"L.const .{src} [] {arg}", ".module": f".ok (.module {arg})",
                   ".builtin": f".ok (.builtin {arg})", ".text": f".ok (.str {arg})"}[kind]
        rows.append(f"@[src] theorem g_{m}_{x} (L : Level) : globalVal L .{m} {nm(x)} = {val} := rfl")
mros = {}


def c3(c):
    if c in mros:
        return mros[c]
    seqs = [list(c3(b)) for b in bases[c]] + [list(bases[c])]
    out = [c]
    while any(seqs):
        for s in seqs:
            if s and not any(s[0] in q[1:] for q in seqs):
                h = s[0]
                break
        out.append(h)
        seqs = [[x for x in q if x != h] for q in seqs]
    mros[c] = out
    return out


crows = []
for c in cls_list:
    if c == "ConvertException":
        continue
    order = c3(c)
    crows.append(f"@[src] theorem mro_{c} : clsMro .{c} = {lst('.' + x for x in order)} := by decide +kernel")
    crows.append(f"@[src] theorem chain_{c} : initChain {lst('.' + x for x in order)} = {lst('.' + x for x in order if '__init__' in dict(cdict[x]))} := by decide +kernel")
    seen = {}
    for o in order:
        for k, v in cdict[o]:
            seen.setdefault(k, (o, v))
    for k, (o, v) in seen.items():
        crows.append(f"@[src] theorem find_{c}_{k} : findIn {nm(k)} {lst('.' + x for x in order)} = some (.{o}, {v}) := rfl")
    for k, v in cdict[c]:
        if k == "BinaryHeader" and v != ".enum []":
            ms = v[len(".enum "):]
            for name, text, value in re.findall(r'\((\.\w+), (\(py "[^"]*"\)), (\(py "[^"]*"\))\)', ms):
                crows.append(f"@[src] theorem header_{c}_{name[1:]} : getItem (.enumCls .{c} .BinaryHeader {ms}) (.str {text}) = .ok (.member .{c} .BinaryHeader {name} {text} {value}) := rfl")
w("Lookup", f'''/-
What the names of the modules and the attributes of the classes are.
{hdr}
-/
import Verif.Src.Simp

namespace Epc.Src

''' + "\n".join(rows) + "\n\n" + "\n".join(crows) + "\n\nend Epc.Src\n")
