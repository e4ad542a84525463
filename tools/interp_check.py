#!/usr/bin/env python3
"""Compares the interpreter of lean/Verif/Src/Interp.lean, and the translation of tools/gen_src.py, with the CPython that runs this script, on random
programs.

Each round writes a random package with the file layout of the library (functions with defaults, *args and **kwargs, classes with multiple
inheritance, class methods, nested enumerations, loops, comprehensions, exceptions, f-strings, slices, regular expressions, ...), but with none
of its code, translates it with tools/gen_src.py, runs every entry function with the interpreter in a scratch copy of the Lean project, runs it
with CPython, and compares the results.  Operations outside the interpreter's scope end in `unsupported`; these are counted, not compared.
Entries that run long, and those that use a list or a dictionary as a key (the interpreter does not ask whether keys can be hashed), are left out.

usage: interp_check.py [number of rounds] [entry functions per round] [seed]
"""
import os, random, re, shutil, signal, subprocess, sys, types

HERE = os.path.dirname(os.path.abspath(__file__))
LEAN = os.path.join(HERE, '..', 'lean')
ROUNDS = int(sys.argv[1]) if len(sys.argv) > 1 else 3
ENTRIES = int(sys.argv[2]) if len(sys.argv) > 2 else 300
SEED = int(sys.argv[3]) if len(sys.argv) > 3 else 0
TMP = '/tmp/interp'
rnd = random.Random(SEED)
pick = rnd.choice
chance = lambda p: rnd.random() < p

TYPES = ['i', 's', 'b', 'L', 'S', 'd']
VARS = ['a', 'b', 'c', 'd', 'x', 'y', 'z', 'w']
KEYS = ['"k"', '"l"', '"m"', '"n"']
TEXTS = ['""', '"7"', '"12"', '"0101"', '"ab"', '"A.B"', '"x:y:z"', '" 42 "', '"-3"', '"F0"', '"%2F"', '"k"', '"l"', '"1_0"', '"+5"', '"a.b.c"', "'\"'", '"k.m"', '"001"']
PATTERNS = ['"[0-9]+"', '"[a-z]{2}"', '"(a|b)*"', '"[0-1]{2}"', r'"\\d"', '"[A-Z.]*"', '"(k|l)?m"']


class Fun:
    def __init__(self, name, params, ret, vararg=None, kwarg=None):
        self.name, self.params, self.ret, self.vararg, self.kwarg = name, params, ret, vararg, kwarg   # params: (name, type, default or None)


def lit(t):
    if t == 'i': return str(pick([0, 1, 2, 3, 5, 7, 10, 12, 64, 100, 255]))
    if t == 's': return pick(TEXTS)
    if t == 'b': return pick(['True', 'False'])
    if t == 'L': return '[' + ', '.join(lit('i') for _ in range(rnd.randint(0, 4))) + ']'
    if t == 'S': return '[' + ', '.join(lit('s') for _ in range(rnd.randint(0, 4))) + ']'
    if t == 'd': return '{' + ', '.join(f'{pick(KEYS)}: {lit("i")}' for _ in range(rnd.randint(0, 3))) + '}'


class Gen:
    """Expressions and statements of a function; `env` maps the variables that are bound to their types."""
    def __init__(self, funs, env, classes=(), attrs=None):
        self.funs, self.env, self.classes, self.attrs = funs, dict(env), classes, attrs or {}

    def var(self, t):
        l = [x for x in self.env if self.env[x] == t] + ['self.' + x for x in self.attrs if self.attrs[x] == t]
        return pick(l) if l else None

    def call(self, t, d):
        l = [f for f in self.funs if f.ret == t]
        return self.app(pick(l), d) if l else None

    def app(self, f, d):
        args, kw = [], []
        ps = list(f.params)
        n = rnd.randint(0, len(ps))
        for i, (x, t, df) in enumerate(ps):
            if i < n: args.append(self.e(t, d - 1))
            elif df is None or chance(.4): kw.append(f'{x}={self.e(t, d - 1)}')
        rnd.shuffle(kw)
        q = rnd.random()
        if q < .01 and args: args.pop()
        elif q < .02: args.append(self.e('i', d - 1))
        elif q < .025: kw.append(f'w={lit("i")}')
        elif f.vararg and n == len(ps):
            args += [self.e('i', d - 1) for _ in range(rnd.randint(0, 3))]
        if f.kwarg and chance(.6): kw.append(f'{pick(["kx", "ky"])}={self.e("i", d - 1)}')
        names = [k.split('=')[0] for k in kw]
        if len(set(names)) < len(names): kw = kw[:1]
        return f'{f.name}({", ".join(args + kw)})'

    def e(self, t, d):
        q = rnd.random()
        if q < .3:
            v = self.var(t)
            if v: return v
        if d <= 0: return self.var(t) or lit(t)
        if q < .38:
            c = self.call(t, d)
            if c: return c
        if q < .42: return f'({self.e(t, d - 1)} if {self.e("b", d - 1)} else {self.e(t, d - 1)})'
        if q < .46: return f'({self.e(t, d - 1)} {pick(["and", "or"])} {self.e(t, d - 1)})'
        if q < .49: return f'[{self.e(t, d - 1)}, {self.e(t, d - 1)}][{pick(["0", "1", "-1", "-2", "0", self.e("i", d - 1)])}]'
        if q < .495: return f'{self.e(pick(TYPES), d - 1)}' if chance(.05) else lit(t)
        return getattr(self, 'e_' + t)(d)

    def bound(self, d):
        return pick(['', '', str(rnd.randint(0, 4)), f'-{rnd.randint(1, 3)}', self.e('i', d - 1)])

    def index(self, d):
        return pick([str(rnd.randint(0, 3)), f'-{rnd.randint(1, 3)}', self.e('i', d - 1)])

    def e_i(self, d):
        g = lambda t: self.e(t, d - 1)
        k = rnd.randrange(13)
        if k in (5, 6, 8, 9, 12) and chance(.8): k = pick([0, 1, 2, 3, 4, 7, 11, 13, 14, 15, 16])
        if k == 13: return f'{pick(["{}", "[3, 4]"])} and 1 or {g("i")}' if chance(.2) else f'int({pick(["7", "12", "1_0", "-3"])!r})'.replace("'", '"')
        if k == 14: return f'int({pick(["0101", "101", "0b11"])!r}, 2)'.replace("'", '"')
        if k == 15: return f'[{g("i")}, {g("i")}, {g("i")}][{pick(["0", "1", "2", "-1", "-2", "-3"])}]'
        if k == 16: return f'{{"k": {g("i")}, "l": {g("i")}}}[{pick(KEYS[:2])}]'
        if k == 0: return f'({g("i")} + {g("i")})'
        if k == 1: return f'({g("i")} - {g("i")})'
        if k == 2: return f'({g("i")} * {rnd.randint(0, 9)})'
        if k == 3: return f'({g("i")} % {pick(["2", "3", "10", "-3", "7"])})'
        if k == 4: return f'len({g("s")})'
        if k == 5: return f'int({g("s")})'
        if k == 6: return f'int({g("s")}, {pick(["2", "16"])})'
        if k == 7: return f'sum({g("L")})'
        if k == 8: return f'{g("d")}[{g("s")}]'
        if k == 9: return f'{g("L")}[{self.index(d)}]'
        if k == 10: return f'-{g("i")}'
        if k == 11: return f'pow({pick(["2", "3", "10"])}, {rnd.randint(0, 8)})'
        return f'ord({g("s")}[{self.index(d)}])'

    def fstring(self, d):
        parts = []
        for _ in range(rnd.randint(1, 3)):
            k = rnd.randrange(4)
            if k == 0: parts.append(pick(['-', 'ab', '0', '.']))
            else:
                t = pick('is')
                x = self.var(t)
                if x is None or '[' in x: x = pick(['7', '12', '-5']) if t == 'i' else "'ab'"
                if k == 1: spec = ''
                elif t == 'i': spec = ':' + pick(['0>4', '0>8b', 'b', 'x', 'X', '03', '6', '<5', '>5', '05b', '0<3', '>04', '0=5'])
                else: spec = ':' + pick(['<6', '>6', '0<5', '>05', '4', '<03'])
                if spec and chance(.3): spec = ':' + pick(['0>', '0', '<', '>0']) + '{' + str(rnd.randint(1, 9)) + '}' + (pick(['', 'b', 'x']) if t == 'i' else '')
                parts.append('{' + x + spec + '}')
        return 'f"' + ''.join(parts) + '"'

    def e_s(self, d):
        g = lambda t: self.e(t, d - 1)
        k = rnd.randrange(16)
        if k == 0: return f'({g("s")} + {g("s")})'
        if k == 1: return f'({g("s")} * {rnd.randint(0, 3)})'
        if k in (2, 3): return f'{g("s")}[{self.bound(d)}:{self.bound(d)}]'
        if k in (4, 14) and chance(.8): k = pick([2, 5, 0, 12])
        if k == 4: return f'{g("s")}[{self.index(d)}]'
        if k in (5, 6): return self.fstring(d)
        if k == 7: return f'str({g("i")})'
        if k == 8: return f'chr({g("i")} % {pick(["60", "120"])})'
        if k == 9: return f'{pick(QUOTED)}.join({g("S")})'
        if k == 10: return f'{g("s")}.replace({pick(QUOTED[1:])}, {g("s")})'
        if k == 11: return f'{g("s")}.replace({pick(QUOTED[1:])}, {g("s")}, 1)'
        if k == 12: return f'{g("s")}.{pick(["upper", "lower"])}()'
        if k == 13: return f'{g("s")}.zfill({rnd.randint(0, 6)})'
        if k == 14: return f'{g("S")}[{self.index(d)}]'
        return f're.sub({pick(SUBS)}, {pick(TEXTS[:9])}, {g("s")}, 1)' if chance(.3) else f'{g("s")}[{rnd.randint(0, 2)}:]'

    def e_b(self, d):
        g = lambda t: self.e(t, d - 1)
        k = rnd.randrange(13)
        if k in (0, 1): return f'({g("i")} {pick(["<", "<=", ">", ">=", "==", "!="])} {g("i")})'
        if k == 2: return f'({g("i")} {pick(["<", "<="])} {g("i")} {pick(["<", "<=", "=="])} {g("i")})'
        if k == 3: return f'({g("s")} {pick(["==", "!="])} {g("s")})'
        if k == 4: return f'({g("s")} {pick(["in", "not in"])} {g("d")})'
        if k == 5: return f'({g("i")} {pick(["in", "not in"])} {g("L")})'
        if k == 6: return f'({g("s")} {pick(["in", "not in"])} {g("S")})'
        if k == 7: return f'(not {g(pick(TYPES))})'
        if k == 8: return f'({g("b")} {pick(["and", "or"])} {g("b")})'
        if k == 9: return f'{g("s")}.isnumeric()'
        if k == 10: return f'{g("s")}.startswith({pick(TEXTS)})'
        if k == 11: return f'({g(pick(TYPES[:5]))} {pick(["==", "!="])} {g(pick(TYPES[:5]))})'
        p = pick(PATTERNS)
        return f'(not re.{pick(["match"])}({p}, {g("s")}))' if chance(.5) else f'(not re.compile({p}).{pick(["match", "fullmatch"])}({g("s")}))'

    def local(self, x, t, f):
        old = self.env.get(x)
        self.env[x] = t
        r = f()
        if old is None: del self.env[x]
        else: self.env[x] = old
        return r

    def comp(self, t, d):
        """A comprehension with elements of type t."""
        x = pick(VARS)
        s, it = pick([('i', 'L'), ('s', 'S'), ('s', 's'), ('s', 'd')])
        src = self.e(it, d - 1)
        elt = self.local(x, s, lambda: self.e(t, d - 1))
        cond = ' if ' + self.local(x, s, lambda: self.e('b', d - 1)) if chance(.4) else ''
        if chance(.2):
            y = pick([v for v in VARS if v != x])
            inner = self.local(x, s, lambda: self.e('S', d - 2))
            if re.search(rf'\b{y}\b', inner): inner = lit('S')
            elt = self.local(x, s, lambda: self.local(y, 's', lambda: self.e(t, d - 1)))
            return f'[{elt} for {x} in {src} for {y} in {inner}]'
        return f'[{elt} for {x} in {src}{cond}]'

    def e_L(self, d):
        k = rnd.randrange(6)
        if k == 0: return lit('L')
        if k in (1, 2): return self.comp('i', d)
        if k == 3: return f'{self.e("L", d - 1)}[{pick([":2", "1:", "::2" if chance(.02) else "1::2", ":-1", "-2:", "0::2"])}]'
        l = [f for f in self.funs if f.ret == 'i' and f.params and f.params[0][1] in 'is' and all(p[2] is not None for p in f.params[1:])]
        if k == 4 and l:
            f = pick(l)
            return f'list(map({f.name}, {self.e("L" if f.params[0][1] == "i" else "S", d - 1)}))'
        if k == 4: return f'list(map(int, {self.e("s", d - 1)}))' if chance(.1) else 'list(map(int, "0472"))'
        return f'[{", ".join(self.e("i", d - 1) for _ in range(rnd.randint(1, 3)))}]'

    def e_S(self, d):
        k = rnd.randrange(8)
        if k == 0: return lit('S')
        if k == 1: return self.comp('s', d)
        if k == 2: return f'{self.e("s", d - 1)}.split({pick(QUOTED[1:])})'
        if k == 3: return f'{self.e("S", d - 1)}[{pick([":2", "1:", "1::2", ":-1"])}]'
        if k == 4: return f'list({self.e(pick(["s", "S", "d"]), d - 1)})'
        if k == 5: return f'list({self.e("d", d - 1)}.keys())'
        if k == 6: return pick([f're.split("([0-1]{{2}})", {self.e("s", d - 1)})', f're.split("(%[0-9A-F]{{2}})", {self.e("s", d - 1)})', f're.findall("..", {self.e("s", d - 1)})'])
        return f'[{", ".join(self.e("s", d - 1) for _ in range(rnd.randint(1, 3)))}]'

    def e_d(self, d):
        k = rnd.randrange(4)
        if k == 0: return lit('d')
        if k == 1:
            x = pick(VARS)
            src = self.e('S', d - 1)
            v = self.local(x, 's', lambda: self.e('i', d - 1))
            return f'{{{x}: {v} for {x} in {src}}}'
        return '{' + ', '.join(f'{self.e("s", d - 1)}: {self.e("i", d - 1)}' for _ in range(rnd.randint(1, 3))) + '}'

    # statements
    def block(self, n, ind, loop, ret, d):
        out = []
        for _ in range(n):
            out += self.stmt(ind, loop, ret, d)
        return out or [ind + 'a = 1']

    def stmt(self, ind, loop, ret, d):
        q = rnd.random()
        deeper = ind + '    '
        if q < .4 or d == 0:
            t = pick(TYPES); x = pick(VARS)
            v = self.e(t, 2)
            self.env[x] = t
            return [f'{ind}{x} = {v}']
        if q < .47:
            l = [x for x in self.env if self.env[x] in 'is' and '.' not in x]
            if l:
                x = pick(l)
                return [f'{ind}{x} += {self.e(self.env[x], 2)}']
        if q < .53:
            t, tt = pick([('L', 'i'), ('S', 's')])
            xs = rnd.sample(VARS, rnd.randint(2, 3))
            v = self.e(t, 2) if chance(.15) else '[' + ', '.join(self.e(tt, 1) for _ in xs) + ']'
            star = chance(.4)
            for x in xs: self.env[x] = tt
            if star: self.env[xs[-1]] = t
            return [f'{ind}{", ".join(xs[:-1])}, {"*" if star else ""}{xs[-1]} = {v}']
        if q < .68:
            c = self.e('b', 2) if chance(.8) else self.e(pick(TYPES), 1)
            before = dict(self.env)
            a = self.block(rnd.randint(1, 2), deeper, loop, ret, d - 1)
            e1 = self.env; self.env = dict(before)
            b = self.block(rnd.randint(0, 2), deeper, loop, ret, d - 1) if chance(.6) else []
            self.env = {x: t for x, t in self.env.items() if e1.get(x) == t}
            return [f'{ind}if {c}:'] + a + ([f'{ind}else:'] + b if b else [])
        if q < .85:
            before = dict(self.env)
            if chance(.25):
                x, y = rnd.sample(VARS, 2)
                head = f'for {x}, {y} in {self.e("d", 2)}.items():'
                self.env[x] = 's'; self.env[y] = 'i'
            else:
                x = pick(VARS)
                s, it = pick([('i', 'L'), ('s', 'S'), ('s', 's'), ('s', 'd')])
                head = f'for {x} in {self.e(it, 2)}:'
                self.env[x] = s
            stable = dict(self.env)
            body = self.block(rnd.randint(1, 3), deeper, True, ret, d - 1)
            self.env = {x: t for x, t in before.items() if self.env.get(x) == t and stable.get(x) == t}
            return [ind + head] + body
        if q < .9 and loop:
            return [f'{ind}if {self.e("b", 1)}:', deeper + pick(['break', 'continue'])]
        if q < .95:
            x = pick(VARS); t = pick('is')
            v = self.e(t, 3)
            before = dict(self.env)
            e1 = dict(before); e1[x] = t
            k = rnd.randrange(3)
            h = [f'{deeper}raise ConvertException(message={self.e("s", 1)})'] if k == 0 else [f'{deeper}return {self.e(ret, 1)}'] if k == 1 else [f'{deeper}{x} = {self.e(t, 1)}']
            self.env = e1
            return [f'{ind}try:', f'{deeper}{x} = {v}', f'{ind}except {pick(["KeyError", "ValueError"])}:'] + h
        if q < .97: return [f'{ind}if {self.e("b", 2)}:', f'{deeper}return {self.e(ret, 2)}']
        if q < .98: return [f'{ind}if {self.e("b", 1)}:', f'{deeper}raise {pick(["NotImplementedError", "ConvertException(message=" + self.e("s", 1) + ")"])}']
        return [f'{ind}{self.e(pick(TYPES), 2)}']


QUOTED = ['""', '"."', '":"', '"a"', '"0"']
SUBS = ['"a$"', '"[0-9]$"', r'"\\.$"', '".$"']


def params(n):
    xs = rnd.sample(VARS, n)
    nd = rnd.randint(0, n)
    return [(x, t, lit(t) if i >= n - nd else None) for i, x in enumerate(xs) for t in [pick(TYPES)]]


def header(name, ps, first=None, vararg=None, kwarg=None):
    l = ([first] if first else []) + [x if d is None else f'{x}={d}' for x, _, d in ps]
    if vararg: l.append('*' + vararg)
    if kwarg: l.append('**' + kwarg)
    return f'def {name}({", ".join(l)}):'


def function(name, funs, ind='', first=None, attrs=None, fixed=None, extra=True):
    ps, ret = fixed or (params(rnd.randint(0, 3)), pick(TYPES))
    va = 'args' if extra and chance(.15) else None
    kwa = 'kwargs' if extra and chance(.1) else None
    g = Gen(funs, {x: t for x, t, _ in ps}, attrs=attrs)
    if va: g.env['args'] = 'L'
    body = g.block(rnd.randint(1, 4), ind + '    ', False, ret, 2)
    if kwa:
        body.append(f'{ind}    return {pick(["", ""])}target(**kwargs)')
        ret = 'i'
    elif chance(.95): body.append(f'{ind}    return {g.e(ret, 3)}')
    return [ind + header(name, ps, first, va, kwa)] + body, Fun(name, ps, ret, va, kwa)


class Slow(BaseException):
    pass


def slow(*_):
    raise Slow


signal.signal(signal.SIGALRM, slow)


def limited(f):
    """The value of f(), or Slow after too many lines (or, rarely, after a second)."""
    n = 0
    def tr(*_):
        nonlocal n
        n += 1
        if n > 1500: raise Slow
        return tr
    signal.setitimer(signal.ITIMER_REAL, 1)
    sys.settrace(tr)
    try: return f()
    finally:
        sys.settrace(None)
        signal.setitimer(signal.ITIMER_REAL, 0)


def returns(text, f, space):
    """Does the function return soon for most arguments?"""
    exec('\n'.join(text), space)
    g = Gen([], {})
    n = 0
    for _ in range(8):
        try:
            limited(lambda: eval(f'{f.name}({", ".join(lit(t) for _, t, _ in f.params)})', space))
            n += 1
        except Exception: pass
        except Slow: return False
    return n >= 7


def package():
    common = ['import re', '', 'class ConvertException(Exception):', '    def __init__(self, message=""):', '        self.message = message', '']
    common += [f'K{i} = {lit(TYPES[i])}' for i in range(6)] + ['']
    common += ['def target(kx=1, ky=2):', '    return kx * 10 + ky', '']
    funs = []
    space = {}
    exec('\n'.join(common), space)
    for i in range(40):
        for _ in range(30):
            t, f = function(f'f{i}', funs[-8:])
            if returns(t, f, space): break
        else: t, f = [f'def f{i}():', f'    return {lit("i")}'], Fun(f'f{i}', [], 'i')
        common += t + ['']
        if not f.kwarg: funs.append(f)
        else: funs.insert(0, f)
    # classes
    base = ['import re', 'from enum import Enum', 'from epcpy.utils.common import ConvertException, target, ' + ', '.join(f.name for f in funs), '']
    classes = {}
    order = []
    def mro_ok(bs):
        try:
            types.new_class('T', tuple(classes[b]['py'] for b in bs)); return True
        except TypeError: return False
    length = lambda bs: len({k for b in bs for k in classes[b]['py'].__mro__})   # the interpreter's bound on orders is 8
    for i in range(14):
        n = f'Q{i}'
        bs = rnd.sample(order, min(len(order), rnd.choice([0, 1, 1, 2, 2])))
        if not mro_ok(bs) or length(bs) > 6: bs = bs[:1]
        if length(bs) > 6: bs = []
        py = types.new_class(n, tuple(classes[b]['py'] for b in bs))
        c = dict(bases=bs, py=py, methods={}, lines=[f'class {n}({", ".join(bs)}):' if bs else f'class {n}:'])
        mro = [k.__name__ for k in py.__mro__ if k is not object]
        attrs = {}
        for b in mro[1:]: attrs.update({x: t for x, t in classes[b]['attrs'].items() if x not in attrs})
        meths = {}
        for b in reversed(mro[1:]): meths.update(classes[b]['methods'])
        # the next __init__ in this class's own method resolution order takes these parameters; with another order the call may fail
        nxt = next((classes[b]['init'] for b in mro[1:] if classes[b]['init'] is not None), [])
        own = {}
        if chance(.75) or not order:
            ps = params(rnd.randint(0, 2))
            c['init'] = ps
            g = Gen(funs[-6:], {x: t for x, t, _ in ps})
            body = []
            if bs: body.append(f'        super().__init__({", ".join(g.e(t, 1) for _, t, d in nxt if d is None or chance(.5) or True)})')
            for x in rnd.sample(['u', 'v', 'p', 'q'], rnd.randint(1, 2)):
                t = attrs.get(x) or pick(TYPES); own[x] = t
                body.append(f'        self.{x} = {g.e(t, 2)}')
            c['lines'] += ['    ' + header('__init__', ps, 'self')] + body + ['']
        else: c['init'] = None
        attrs.update(own)
        c['attrs'] = attrs
        c['lines'].append(f'    C{rnd.randint(0, 2)} = {lit("i")}')
        c['lines'] += ['', '    class Color(Enum):'] + [f'        {m} = {lit("s")[:-1] + m + chr(34) if False else chr(34) + m.lower() + str(i) + chr(34)}' for m in rnd.sample(['RED', 'BLUE', 'TEAL'], 2)] + ['']
        for x in rnd.sample(['m0', 'm1', 'm2', 'm3'], rnd.randint(1, 2)):
            fixed = (meths[x].params, meths[x].ret) if x in meths else (params(rnd.randint(0, 2)), pick(TYPES))
            env_funs = funs[-6:] + [Fun('self.' + f.name, f.params, f.ret) for k, f in meths.items() if k < x]
            t, f = function(x, env_funs, '    ', 'self', attrs, fixed, False)
            c['lines'] += t + ['']
            c['methods'][x] = f
            if x in meths and chance(.4) and c['lines'][-2].startswith('        return '):
                c['lines'][-2] = f'        return super({n}, self).{x}({", ".join(p[0] for p in f.params)})'
        if chance(.6):
            k = [f'    @classmethod', f'    def make(cls, x=3):']
            k.append('        return [cls.__name__, x, ' + pick(['cls.C0', 'cls.C1', 'cls.C2', 'cls.Color["RED"].value', 'cls.Color.BLUE.name', 'issubclass(cls, Q0)']) + ']')
            c['lines'] += k + ['']
        classes[n] = c
        order.append(n)
        base += c['lines'] + ['']
    parsers = ['import re', 'from epcpy.utils.common import ConvertException, target, ' + ', '.join([f'K{i}' for i in range(6)] + [f.name for f in funs]),
               'from epcpy.epc_schemes.base_scheme import ' + ', '.join(order), '']
    for i in range(ENTRIES):
        g = Gen(funs, {f'K{j}': TYPES[j] for j in range(6)})
        k = rnd.randrange(10)
        if k < 4:
            parsers += [f'def t{i}():', f'    return {g.app(pick(funs), 2)}', '']
        elif k < 7:
            n = pick(order); c = classes[n]
            mro = [q.__name__ for q in c['py'].__mro__ if q is not object]
            init = next((classes[b]['init'] for b in mro if classes[b]['init'] is not None), [])
            ms = {}
            for b in reversed(mro): ms.update(classes[b]['methods'])
            parsers += [f'def t{i}():', f'    self = {g.app(Fun(n, init, "o"), 1)}']
            g2 = Gen([], {}, attrs=c['attrs'])
            call = g2.app(Fun('self.' + (x := pick(sorted(ms))), ms[x].params, ms[x].ret), 1)
            parsers += [f'    return [{call}, ' + ', '.join(f'self.{y}' for y in sorted(c['attrs'])) + f', self.__class__.__name__]' if False else
                        f'    return [{call}, ' + ', '.join([f'self.{y}' for y in sorted(c['attrs'])] + [f'isinstance(self, {pick(order)})']) + ']', '']
        elif k < 8:
            n = pick(order)
            parsers += [f'def t{i}():', f'    return {n}.{pick(["make()", "make(4)", "make(x=5)", "C0", "C1", "C2", "Color.RED.value", "Color[" + pick(["chr(82) + " + chr(34) + "ED" + chr(34), chr(34) + "BLUE" + chr(34)]) + "].name", "[x.name for x in %s.Color]" % n if False else "__name__"])}', '']
        elif k < 9:
            n, o = pick(order), pick(order)
            parsers += [f'def t{i}():', f'    return [{n}.Color.RED == {o}.Color.RED, [x.value for x in {n}.Color], {n}.Color.BLUE in [{o}.Color.BLUE, {n}.Color.RED], {{{n}.Color.RED: 1, {o}.Color.BLUE: 2}}[{pick([n, o])}.Color.{pick(["RED", "BLUE"])}]]', '']
        else:
            t, _ = function(f't{i}', funs, fixed=([], pick(TYPES)), extra=False)
            parsers += t + ['']
    return {'utils/regex.py': [], 'utils/common.py': common, 'epc_schemes/base_scheme.py': base, 'epc_schemes/__init__.py': [], 'utils/parsers.py': parsers,
            '__init__.py': [], 'utils/__init__.py': []}


def show(v):
    if v is None: return 'None'
    if v is True or v is False: return str(v)
    if isinstance(v, int): return str(v)
    if isinstance(v, str): return 's' + '.'.join(str(ord(c)) for c in v)
    if isinstance(v, (list, tuple)): return '[' + ','.join(map(show, v)) + ']'
    if isinstance(v, dict): return '{' + ','.join(show(k) + ':' + show(w) for k, w in v.items()) + '}'
    return '?'


def error(e):
    n = type(e).__name__
    if n == 'ConvertException': return '!convert'
    if 'unhashable' in str(e): return None
    for t, k in ((NotImplementedError, 'notImplemented'), (KeyError, 'key'), (IndexError, 'index'), (OverflowError, 'overflow'), (TypeError, 'type'), (ValueError, 'value'),
                 (NameError, 'name'), (AttributeError, 'attribute')):
        if isinstance(e, t): return '!' + k
    return '!' + n


PROG = r'''
import Verif.Src.Interp
open Epc Epc.Src

partial def sh : Val → String
  | .none => "None"
  | .bool b => if b then "True" else "False"
  | .int i => toString i
  | .str s => "s" ++ ".".intercalate (s.map (fun c => toString c.toNat))
  | .list l => "[" ++ ",".intercalate (l.map sh) ++ "]"
  | .dict l => "{" ++ ",".intercalate (l.map (fun p => sh p.1 ++ ":" ++ sh p.2)) ++ "}"
  | _ => "?"

def er : Exn → String
  | .err .convert => "!convert"
  | .err .value => "!value"
  | .err .key => "!key"
  | .err .index => "!index"
  | .err .overflow => "!overflow"
  | .err .type => "!type"
  | .name => "!name"
  | .attribute => "!attribute"
  | .notImplemented => "!notImplemented"
  | .recursion => "!recursion"
  | .unsupported => "!unsupported"

def skipped : List Nm := SKIPPED

def main : IO Unit := do
  for (x₁, g) in modDict .parsers do
    match g with
    | .fn d => if d.params.isEmpty ∧ ¬ skipped.contains x₁ then
        match callDef (level 60) d [] [] with
        | .ok v => IO.println (sh v)
        | .error e => IO.println (er e)
    | _ => pure ()
'''


def scratch():
    if not os.path.exists(f'{TMP}/lean'):
        os.makedirs(TMP, exist_ok=True)
        os.makedirs(f'{TMP}/lean/Verif')
        for f in ('lakefile.toml', 'lean-toolchain', 'lake-manifest.json'):
            if os.path.exists(f'{LEAN}/{f}'): shutil.copy(f'{LEAN}/{f}', f'{TMP}/lean/{f}')
        shutil.copytree(f'{LEAN}/.lake', f'{TMP}/lean/.lake', symlinks=True, ignore=lambda d, fs: [f for f in fs if d.endswith('Verif') and f in ('Refine', 'Props', 'Lemmas', 'Model', 'Spec')])
    for d in ('Py', 'Src'):
        shutil.rmtree(f'{TMP}/lean/Verif/{d}', ignore_errors=True)
        shutil.copytree(f'{LEAN}/Verif/{d}', f'{TMP}/lean/Verif/{d}')
    open(f'{TMP}/lean/Verif.lean', 'w').write('import Verif.Src.Interp\n')


def one(r):
    pkg = package()
    repo = f'{TMP}/repo'
    shutil.rmtree(repo, ignore_errors=True)
    for f, l in pkg.items():
        os.makedirs(os.path.dirname(f'{repo}/epcpy/{f}'), exist_ok=True)
        open(f'{repo}/epcpy/{f}', 'w').write('\n'.join(l) + '\n')
    shutil.rmtree(f'{TMP}/lean/Verif/Src/Code', ignore_errors=True)
    os.makedirs(f'{TMP}/lean/Verif/Src/Code')
    subprocess.run([sys.executable, f'{HERE}/gen_src.py'], check=True, env=dict(os.environ, EPC_REPO=repo, EPC_LEAN=f'{TMP}/lean'))
    code = 'import sys; sys.path.insert(0, %r); sys.argv = ["x"]\n' % repo
    for m in [m for m in sys.modules if m.startswith('epcpy')]: del sys.modules[m]
    sys.path.insert(0, repo)
    import importlib
    importlib.invalidate_caches()
    sys.dont_write_bytecode = True
    mod = importlib.import_module('epcpy.utils.parsers')
    sys.path.pop(0)
    entries = [l[4:].split('(')[0] for l in pkg['utils/parsers.py'] if l.startswith('def t')]
    want = []
    for x in entries:
        try: want.append(show(limited(getattr(mod, x))))
        except Exception as e: want.append(error(e))
        except Slow: want.append(None)
    b = subprocess.run(['lake', 'build', 'Verif.Src.Interp'], cwd=f'{TMP}/lean', capture_output=True, text=True)
    if b.returncode: sys.exit(b.stdout[-3000:])
    open(f'{TMP}/Main.lean', 'w').write(PROG.replace('SKIPPED', '[' + ', '.join('.' + x for x, w in zip(entries, want) if w is None) + ']'))
    entries = [x for x, w in zip(entries, want) if w is not None]
    want = [w for w in want if w is not None]
    p = subprocess.run(['lake', 'env', 'lean', '--run', f'{TMP}/Main.lean'], cwd=f'{TMP}/lean', capture_output=True, text=True)
    got = p.stdout.split('\n')[:-1]
    if p.returncode or len(got) != len(want): sys.exit(p.stdout[-500:] + p.stderr[-2000:] + f'{len(got)} {len(want)}')
    bad = uns = raised = 0
    for x, w, g in zip(entries, want, got):
        if g == '!unsupported': uns += 1
        elif w != g:
            bad += 1
            if bad <= 15: print(x, 'CPython', w[:150], 'interpreter', g[:150])
        elif w[0] == '!': raised += 1
    print(f'round {r}: {len(want)} entries, {uns} unsupported, {raised} raise the same exception, {len(want) - uns - raised - bad} return the same value, {bad} differ', flush=True)
    return bad


sys.setrecursionlimit(5000)
sys.dont_write_bytecode = True
scratch()
sys.exit(1 if sum(one(r) for r in range(ROUNDS)) else 0)
