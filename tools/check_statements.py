#!/usr/bin/env python3
"""Checks that the statements of the property theorems need no proof file.

For every file of lean/Verif/Props it writes a scratch file outside /verif that keeps the definitions and the theorems `Cnn_...` with their
statements, drops every proof, every other lemma and every private definition, and imports the library of Python (Verif/Py), the model (Verif/Model), the specification
(Verif/Spec) and the source with its interpreter (Verif/Src) only.  The scratch file must compile; nothing of Verif/Lemmas or Verif/Refine is
imported, not even indirectly.

usage: check_statements.py [lean directory] [Cnn ...]      (after `lake build`)
"""
import os, re, subprocess, sys
from concurrent.futures import ThreadPoolExecutor
HERE = os.path.dirname(os.path.abspath(__file__))
args = sys.argv[1:]
LEAN = args.pop(0) if args and '/' in args[0] else os.path.join(HERE, '..', 'lean')
OUT = '/tmp/check_statements'

def modules(d, keep=lambda f: True):
    out = []
    for root, _, fs in os.walk(os.path.join(LEAN, 'Verif', d)):
        for f in fs:
            if f.endswith('.lean') and keep(f):
                out.append(os.path.relpath(os.path.join(root, f), LEAN)[:-5].replace('/', '.'))
    return sorted(out)

def closure(roots):
    """every module imported by the roots"""
    seen, todo = set(), list(roots)
    while todo:
        m = todo.pop()
        if m in seen: continue
        seen.add(m)
        text = open(os.path.join(LEAN, m.replace('.', '/') + '.lean')).read()
        todo += [i for i in re.findall(r'^import (\S+)', text, re.M) if i.startswith('Verif.')]
    return seen

def strip_comments(s):
    s = re.sub(r'/-.*?-/', '', s, flags=re.S)
    return re.sub(r'--[^\n]*', '', s)

def statement(decl):
    """the declaration up to the `:=` at depth 0"""
    depth = i = 0
    instr = False
    while i < len(decl):
        c = decl[i]
        if instr:
            if c == '\\': i += 1
            elif c == '"': instr = False
        elif c == '"': instr = True
        elif c == "'" and decl[i + 2:i + 3] == "'": i += 2
        elif c in '([{⟨': depth += 1
        elif c in ')]}⟩': depth -= 1
        elif depth == 0 and decl.startswith(':=', i) and not re.search(r'let \S+\s*(: [^:]*)?$', decl[:i].split('\n')[-1]): return decl[:i]
        elif depth == 0 and re.match(r'where\n', decl[i:]): return decl[:i]
        elif depth == 0 and re.match(r'\n  \| ', decl[i:]): return decl[:i]
        i += 1
    raise Exception(decl)

KINDS = 'theorem|def|example|namespace|end|open|structure|inductive|instance|abbrev|section|variable|set_option|attribute|local'

def scratch(path, imports):
    s = strip_comments(open(path).read())
    body = re.split(r'\n(?=(?:@\[[^\]]*\] ?)?(?:private |noncomputable )?(?:%s)\b)' % KINDS, s)
    out, n = [], 0
    for b in body[1:]:
        if re.match(r'(private )?theorem (\w+\.)*C\d+_', b):
            out.append(statement(b).rstrip() + ' := sorry\n')
            n += 1
        elif re.match(r'(@\[[^\]]*\] ?)?(private def|(private )?(theorem|example|set_option|instance))\b', b): continue
        else: out.append(b)
    return ''.join('import %s\n' % m for m in imports) + '\n'.join(out) + '\n', n

def main():
    os.makedirs(OUT, exist_ok=True)
    imports = modules('Py') + modules('Model') + modules('Spec') + modules('Src', lambda f: f not in ('Simp.lean', 'Lookup.lean', 'Attr.lean'))
    bad = sorted(m for m in closure(imports) if re.match(r'Verif\.(Lemmas|Refine|Props)\b', m))
    if bad:
        print('proof files imported by the specification:', ' '.join(bad))
        return 1
    todo = []
    for root, _, fs in os.walk(os.path.join(LEAN, 'Verif', 'Props')):
        todo += [os.path.join(root, f) for f in sorted(fs) if f.endswith('.lean') and (not args or f[:-5] in args)]
    def one(path):
        text, n = scratch(path, imports)
        name = os.path.join(OUT, os.path.basename(path))
        open(name, 'w').write(text)
        r = subprocess.run(['lake', 'env', 'lean', name], cwd=LEAN, capture_output=True, text=True)
        errors = [l for l in (r.stdout + r.stderr).split('\n') if 'error' in l]
        return os.path.basename(path)[:-5], n, r.returncode, errors
    total = failed = 0
    with ThreadPoolExecutor(2) as ex:
        for name, n, rc, errors in ex.map(one, sorted(todo)):
            total += n
            if rc:
                failed += 1
                print(name, 'does not compile')
                for e in errors[:5]: print('   ', e[:300])
    print(f'{len(todo)} files, {total} statements, {failed} files that need a proof file')
    return 1 if failed else 0

if __name__ == "__main__": sys.exit(main())
