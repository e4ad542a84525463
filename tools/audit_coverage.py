"""List the functions of /repo/epcpy whose lines no model comment cites."""
import ast, glob, re
cites = {}
for f in glob.glob("/verif/lean/Verif/**/*.lean", recursive=True):
    for path, a, b in re.findall(r"/repo/(epcpy/[\w/]+\.py):(\d+)(?:-(\d+))?", open(f).read()):
        cites.setdefault(path, []).append((int(a), int(b or a)))
total = missing = 0
for f in sorted(glob.glob("/repo/epcpy/**/*.py", recursive=True)):
    rel = f[len("/repo/"):]
    tree = ast.parse(open(f).read())
    covered = set()
    for a, b in cites.get(rel, []):
        covered.update(range(a, b + 1))
    def walk(node, prefix):
        global total, missing
        for n in ast.iter_child_nodes(node):
            if isinstance(n, (ast.FunctionDef, ast.ClassDef)):
                name = prefix + n.name
                if isinstance(n, ast.FunctionDef):
                    total += 1
                    if n.lineno not in covered and not (set(range(n.lineno, n.end_lineno + 1)) & covered):
                        missing += 1
                        print(rel, name, n.lineno, n.end_lineno)
                walk(n, name + ".")
            elif isinstance(n, (ast.Assign, ast.AnnAssign)) :
                if not (set(range(n.lineno, n.end_lineno + 1)) & covered) and prefix == "":
                    print("   top-level", rel, n.lineno, n.end_lineno)
    walk(tree, "")
print(total, "functions,", missing, "not cited")
