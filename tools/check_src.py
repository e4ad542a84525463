#!/usr/bin/env python3
"""Reads the syntax trees in lean/Verif/Src back into Python and compares them with the syntax trees of /repo/epcpy.

This checks the generator tools/gen_src.py by a second program that goes in the opposite direction: the Lean terms are parsed, turned into nodes of
Python's module `ast`, and compared with what Python's parser makes of the source.  Before the comparison the following is removed from the source:
docstrings, annotations, type variables, names used by annotations only; tuples are written as lists, f-strings without values as strings, `a or (b or c)` as `a or b or c`.
"""
import ast, copy, glob, os, re, sys
ROOT = os.path.dirname(os.path.dirname(os.path.abspath(__file__)))
SRC = f"{ROOT}/lean/Verif/Src"
REPO = os.environ.get("EPC_REPO", "/repo")
TOK = re.compile(r'"(?:[^"\\]|\\.)*"|[⟨⟩()\[\],]|\.?«[^»]*»|[^\s()\[\],⟨⟩"]+')


def parse(text):
    """A Lean term as nested lists: applications are lists, [..] is ('list', ..), (a, b) is ('pair', a, b), ⟨..⟩ is ('anon', ..)."""
    toks = TOK.findall(text)
    pos = 0

    def atom():
        nonlocal pos
        t = toks[pos]
        pos += 1
        if t == "(":
            l = seq(")")
            return l[0] if len(l) == 1 else ("pair", *l)
        if t == "[":
            return ("list", *seq("]"))
        if t == "⟨":
            return ("anon", *seq("⟩"))
        return t

    def app(ends):
        l = []
        while pos < len(toks) and toks[pos] not in ends:
            l.append(atom())
        return l[0] if len(l) == 1 else l

    def seq(end):
        nonlocal pos
        r = []
        while toks[pos] != end:
            r.append(app((",", end)))
            if toks[pos] == ",":
                pos += 1
        pos += 1
        return r
    r = app(())
    assert pos == len(toks)
    return r


def defs(path):
    """name -> (type, term)"""
    text = re.sub(r"/-.*?-/", "", open(path).read(), flags=re.S)
    return {m.group(1): (m.group(2).strip(), m.group(3).strip())
            for m in re.finditer(r"^def (\S+) : ([^\n]*?)(?: :=)?\n(.*?)(?=^def |^end )", text, re.M | re.S)}


D = {}
for f in sorted(glob.glob(f"{SRC}/Code/*.lean")):
    D.update(defs(f))


def name(t):
    assert t[0] == ".", t
    t = t[1:].strip("«»")
    return "_" if t == "us" else t


def string(t):
    if t == ("list",):
        return ""
    assert t[0] == "py", t
    return re.sub(r"\\(.)", lambda m: {"n": "\n"}.get(m.group(1), m.group(1)), t[1][1:-1])


OPS = {"add": ast.Add, "sub": ast.Sub, "mul": ast.Mult, "div": ast.Div, "mod": ast.Mod}
CMPS = {"eq": ast.Eq, "ne": ast.NotEq, "lt": ast.Lt, "le": ast.LtE, "gt": ast.Gt, "ge": ast.GtE, "isIn": ast.In, "notIn": ast.NotIn}
L, S = ast.Load(), ast.Store()


def cats(t):
    """the parts of an f-string"""
    if isinstance(t, list) and t[0] == ".cat":
        return cats(t[1]) + cats(t[2])
    if t[0] == ".fmt":
        spec = None if t[2] == [".str", ("list",)] else ast.JoinedStr(cats(t[2]))
        return [ast.FormattedValue(expr(t[1]), -1, spec)]
    assert t[0] == ".str"
    return [ast.Constant(string(t[1]))]


def ref(t):
    return parse(D[t][1]) if isinstance(t, str) and not t.startswith(".") else t


def comp(t):
    """(generators, element)"""
    if t[0] == ".map":
        return [ast.comprehension(ast.Name(name(t[2]), S), expr(t[3]), [], 0)], expr(ref(t[1]))
    if t[0] == ".comp":
        return [ast.comprehension(ast.Name(name(t[2]), S), expr(t[3]), [expr(t[4])], 0)], expr(ref(t[1]))
    assert t[0] == ".flat"
    g, e = comp(t[1])
    return [ast.comprehension(ast.Name(name(t[2]), S), expr(t[3]), [], 0)] + g, e


def bools(op, t):
    return [t[1]] + (bools(op, t[2]) if isinstance(t[2], list) and t[2][0] == op else [t[2]])


def bound(t):
    return None if t == ".none" else expr(t)


def expr(t):
    if t == ".none":
        return ast.Constant(None)
    k = t[0]
    if k == ".name":
        return ast.Name(name(t[1]), L)
    if k == ".int":
        return ast.Constant(int(t[1]))
    if k == ".str":
        return ast.Constant(string(t[1]))
    if k == ".bool":
        return ast.Constant(t[1] == "true")
    if k == ".attr":
        return ast.Attribute(expr(t[1]), name(t[2]), L)
    if k == ".item":
        return ast.Subscript(expr(t[1]), expr(t[2]), L)
    if k == ".slice":
        return ast.Subscript(expr(t[1]), ast.Slice(bound(t[2]), bound(t[3]), bound(t[4])), L)
    if k == ".call":
        return ast.Call(expr(t[1]), [expr(x) for x in t[2][1:]], [ast.keyword(name(p[1]), expr(p[2])) for p in t[3][1:]])
    if k == ".callKw":
        return ast.Call(expr(t[1]), [], [ast.keyword(None, expr(t[2]))])
    if k in (".cat", ".fmt"):
        return ast.JoinedStr(cats(t))
    if k == ".bin":
        return ast.BinOp(expr(t[2]), OPS[t[1][1:]](), expr(t[3]))
    if k == ".not":
        return ast.UnaryOp(ast.Not(), expr(t[1]))
    if k == ".neg":
        return ast.UnaryOp(ast.USub(), expr(t[1]))
    if k in (".and", ".or"):
        return ast.BoolOp(ast.And() if k == ".and" else ast.Or(), [expr(x) for x in bools(k, t)])
    if k == ".cmp":
        return ast.Compare(expr(t[2]), [CMPS[t[1][1:]]()], [expr(t[3])])
    if k == ".cmp2":
        return ast.Compare(expr(t[3]), [CMPS[t[1][1:]](), CMPS[t[2][1:]]()], [expr(t[4]), expr(t[5])])
    if k == ".ite":
        return ast.IfExp(expr(t[1]), expr(t[2]), expr(t[3]))
    if k == ".list":
        return ast.List([expr(x) for x in t[1][1:]], L)
    if k == ".dict":
        return ast.Dict([expr(p[1]) for p in t[1][1:]], [expr(p[2]) for p in t[1][1:]])
    if k in (".map", ".comp", ".flat"):
        g, e = comp(t)
        return ast.ListComp(e, g)
    if k == ".mkDict":
        g, e = comp(t[1])
        return ast.DictComp(e.elts[0], e.elts[1], g)
    raise ValueError(t)


def target(t):
    return ast.Name(name(t[1]), S) if t[0] == ".var" else ast.Attribute(ast.Name(name(t[1]), L), name(t[2]), S)


def targets(ts, star):
    l = [target(x) for x in ts[1:]]
    return ast.Tuple(l + ([ast.Starred(target(star[1]), S)] if star != "none" else []), S)


def block(t):
    return [stmt(x) for x in ref(t)[1:]]


EXN = {(".err", ".key"): "KeyError", (".err", ".value"): "ValueError"}


def stmt(t):
    if t == ".brk":
        return ast.Break()
    if t == ".cont":
        return ast.Continue()
    k = t[0]
    if k == ".expr":
        return ast.Expr(expr(t[1]))
    if k == ".superInit":
        return ast.Expr(ast.Call(ast.Attribute(ast.Call(ast.Name("super", L), [], []), "__init__", L), [expr(x) for x in t[1][1:]], []))
    if k == ".assign":
        return ast.Assign([target(t[1])], expr(t[2]))
    if k == ".unpack":
        return ast.Assign([targets(t[1], t[2])], expr(t[3]))
    if k == ".aug":
        return ast.AugAssign(ast.Name(name(t[1]), S), ast.Add(), expr(t[2]))
    if k == ".ret":
        return ast.Return(expr(t[1]))
    if k == ".raise":
        return ast.Raise(expr(t[1]), None)
    if k == ".ite":
        return ast.If(expr(t[1]), block(t[2]), block(t[3]))
    if k == ".for_":
        return ast.For(ast.Name(name(t[1]), S), expr(t[2]), block(t[3]), [])
    if k == ".forUnpack":
        return ast.For(targets(t[1], "none"), expr(t[2]), block(t[3]), [])
    if k == ".try_":
        return ast.Try(block(t[1]), [ast.ExceptHandler(ast.Name(EXN[tuple(t[2])], L), None, block(t[3]))], [], [])
    raise ValueError(t)


def fundef(term, ident, deco):
    """(module, class, definition)"""
    _, mod, owner, params, var, kw, body = term
    ps = [(name(p[1]), None if p[2] == "none" else expr(p[2][1])) for p in params[1:]]
    args = ast.arguments([], [ast.arg(n) for n, _ in ps], None if var == "none" else ast.arg(name(var[1])), [], [],
                         None if kw == "none" else ast.arg(name(kw[1])), [d for _, d in ps if d is not None])
    return mod[1:], None if owner == "none" else owner[1][1:], ast.FunctionDef(ident, args, [stmt(s) for s in body[1:]], deco)


class Norm(ast.NodeTransformer):
    def body(self, n):
        if n.body and isinstance(n.body[0], ast.Expr) and isinstance(n.body[0].value, ast.Constant) and isinstance(n.body[0].value.value, str):
            n.body = n.body[1:]
        self.generic_visit(n)
        return n

    def visit_FunctionDef(self, n):
        n.returns = None
        return self.body(n)

    visit_ClassDef = body

    def visit_arg(self, n):
        n.annotation = None
        return n

    def visit_AnnAssign(self, n):
        if n.value is None:
            return None
        return self.visit(ast.Assign([n.target], n.value))

    def visit_Tuple(self, n):
        self.generic_visit(n)
        return ast.List(n.elts, L) if isinstance(n.ctx, ast.Load) else n

    def visit_FormattedValue(self, n):
        n.value = self.visit(n.value)
        if n.format_spec is not None:
            self.generic_visit(n.format_spec)
        return n

    def visit_JoinedStr(self, n):
        self.generic_visit(n)
        return n.values[0] if len(n.values) == 1 and isinstance(n.values[0], ast.Constant) else n

    def visit_BoolOp(self, n):
        self.generic_visit(n)
        v = n.values
        while isinstance(v[-1], ast.BoolOp) and type(v[-1].op) is type(n.op):
            v = v[:-1] + v[-1].values
        n.values = v
        return n


def dump(n):
    return ast.dump(ast.fix_missing_locations(copy.deepcopy(n)))


def same(what, a, b):
    global bad, count
    count += 1
    if a != b:
        bad += 1
        a, b = str(a), str(b)
        i = max(0, len(os.path.commonprefix([a, b])) - 60)
        print("DIFFERENT", what, "\n  lean: ", a[i:i + 200], "\n  repo: ", b[i:i + 200])


bad = count = 0
FILES = [("regex", "utils/regex.py"), ("common", "utils/common.py"), ("base_scheme", "epc_schemes/base_scheme.py"), ("parsers", "utils/parsers.py")]
FILES += [(os.path.basename(f)[:-3], "epc_schemes/" + os.path.basename(f)) for f in sorted(glob.glob(f"{REPO}/epcpy/epc_schemes/*.py"))
          if os.path.basename(f) not in ("__init__.py", "base_scheme.py")]
paths = dict(FILES)
trees = {m: Norm().visit(ast.parse(open(f"{REPO}/epcpy/{p}").read())) for m, p in FILES}
seen = set()

# the texts of regex.py
env = {}
for n in trees["regex"].body:
    ident = n.targets[0].id
    v = n.value
    env[ident] = v.value if isinstance(v, ast.Constant) else "".join(x.value if isinstance(x, ast.Constant) else env[x.value.id] for x in v.values)


def text(ident):
    seen.add("regex." + ident)
    r = ""
    for x in D["regex." + ident][1].split(" ++ "):
        x = x.strip()
        r += string(parse(x)) if x.startswith("(py") else text(x[6:])
    return r


for ident, v in env.items():
    same("regex." + ident, text(ident), v)
same("regex.constants", [x[6:] for x in parse(D["regex.constants"][1])[1:]], list(env))
seen.add("regex.constants")

# the tables of names
prog = open(f"{SRC}/Program.lean").read()


def table(fn):
    body = re.search(r"^def %s\b.*?\n(.*?)(?=^\n|^/--|^end)" % fn, prog, re.M | re.S).group(1)
    r = {}
    for m in re.finditer(r"^  \| (\S+) =>(.*?)(?=^  \||\Z)", body, re.M | re.S):
        r[m.group(1).lstrip(".")] = parse(m.group(2))
    return r


MOD, CLS, BASES, OWNMOD, NAMES = (table(x) for x in ("modDict", "clsDict", "clsBases", "clsMod", "clsName"))
reexp = {a.name: n.module.split(".")[-1] for n in ast.parse(open(f"{REPO}/epcpy/epc_schemes/__init__.py").read()).body if isinstance(n, ast.ImportFrom)
         for a in n.names}
used_by_annotations = {"annotations", "Enum", "IntEnum", "Optional", "Type", "TypeVar", "Dict", "List", "Tuple", "Union"}


def member(term, fname, tree, mod, cls):
    """compare a function"""
    ident = term[1].replace("Src.", "", 1)
    seen.add(ident)
    deco = [ast.Name("classmethod", L)] if term[0] == ".classmethod" else []
    m, o, f = fundef(parse(D[ident][1]), fname, deco)
    same(ident, (m, o, dump(f)), (mod, cls, dump(tree)))


for m, p in FILES:
    if m == "regex":
        continue
    mod = MOD[m]
    got = {}
    for e in mod[1:]:
        got[name(e[1])] = e[2]
    want = []
    for n in trees[m].body:
        if isinstance(n, ast.ImportFrom):
            for a in n.names:
                if a.name in used_by_annotations:
                    continue
                want.append(a.name)
                src = n.module.split(".")[-1]
                if src == "math":
                    same((m, a.name), got[a.name], [".builtin", "." + a.name])
                elif src == "regex":
                    same((m, a.name), got[a.name], [".text", "Src.regex." + a.name])
                else:
                    same((m, a.name), got[a.name], [".imported", "." + (reexp[a.name] if src == "epc_schemes" else src), "." + a.name])
        elif isinstance(n, ast.Import):
            for a in n.names:
                want.append(a.name)
                same((m, a.name), got[a.name], [".module", "." + a.name])
        elif isinstance(n, ast.Assign):
            t = n.targets[0].id
            if isinstance(n.value, ast.Call) and isinstance(n.value.func, ast.Name) and n.value.func.id == "TypeVar":
                continue
            want.append(t)
            seen.add(f"{m}.{t}")
            same((m, t), got[t], [".const", f"Src.{m}.{t}"])
            same(f"{m}.{t}", dump(expr(parse(D[f"{m}.{t}"][1]))), dump(n.value))
        elif isinstance(n, ast.FunctionDef):
            want.append(n.name)
            same((m, n.name), got[n.name][0], ".fn")
            member(got[n.name], n.name, n, m, None)
        elif isinstance(n, ast.ClassDef):
            want.append(n.name)
            same((m, n.name), got[n.name][0], ".cls")
            c = got[n.name][1][1:]
            same(("module of", c), OWNMOD[c], "." + m)
            same(("name of", c), string(NAMES[c]), c)
            bs = [b.id for b in n.bases]
            d = CLS.get(c, ("list",))
            if "Enum" in bs or "IntEnum" in bs:
                for x, e in zip([x for x in n.body if isinstance(x, ast.Assign)], d[1:], strict=True):
                    v = x.value.elts[0] if isinstance(x.value, ast.List) else x.value
                    k = x.targets[0].id
                    if "Enum" in bs:
                        same((c, k), (name(e[1]), e[2][0], string(e[2][1]), string(e[2][2])), (k, ".member", k, v.value))
                    else:
                        same((c, k), (name(e[1]), e[2][0], dump(expr(e[2][1]))), (k, ".const", dump(v)))
                continue
            if n.name == "ConvertException":
                continue
            same(("bases of", c), [x[1:] for x in BASES.get(c, ("list",))[1:]], bs)
            for x, e in zip(n.body, d[1:], strict=True):
                if isinstance(x, ast.FunctionDef):
                    same((c, x.name), (name(e[1]), e[2][0]), (x.name, ".classmethod" if x.decorator_list else ".method"))
                    member(e[2], x.name, x, m, c)
                elif isinstance(x, ast.ClassDef):
                    ms = [(k.targets[0].id, k.targets[0].id, k.value.value) for k in x.body if isinstance(k, ast.Assign)]
                    same((c, x.name), (name(e[1]), e[2][0], [(name(q[1]), string(q[2]), string(q[3])) for q in e[2][1][1:]]), (x.name, ".enum", ms))
                else:
                    same((c, x.targets[0].id), (name(e[1]), e[2][0], dump(expr(e[2][1]))), (x.targets[0].id, ".const", dump(x.value)))
    same(("names of", m), list(got), want)
# A name that a function assigns is local in all of the function; the interpreter looks it up among the globals when it has no value yet.
BUILTINS = {"len", "int", "str", "chr", "ord", "sum", "pow", "list", "map", "isinstance", "issubclass", "super", "bytes", "NotImplementedError"}
for m, p in FILES:
    if m == "regex":
        continue
    glob_names = {name(e[1]) for e in MOD[m][1:]} | BUILTINS
    for f in ast.walk(trees[m]):
        if isinstance(f, ast.FunctionDef):
            local = {n.id for n in ast.walk(f) if isinstance(n, ast.Name) and isinstance(n.ctx, ast.Store)} | {a.arg for a in ast.walk(f) if isinstance(a, ast.arg)}
            same(("names that are local and global", m, f.name), sorted(local & glob_names), [])
            same(("functions and global statements inside", m, f.name), [type(n).__name__ for n in ast.walk(f) if n is not f and isinstance(
                n, (ast.FunctionDef, ast.Lambda, ast.Global, ast.Nonlocal, ast.ClassDef, ast.Yield, ast.Await, ast.NamedExpr, ast.Delete, ast.With, ast.Import))], [])
rest = [x for x in D if x not in seen and not re.search(r"\.(loop|elt)\d+$", x)]
same("definitions that nothing refers to", rest, [])
print(f"{count} comparisons, {bad} differences")
sys.exit(bad > 0)
