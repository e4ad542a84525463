"""Write AXIOMS.txt: the axioms every theorem of MANIFEST.json depends on, as Lean's `#print axioms` reports them.

Run after `lake build`.
"""
import json, os, re, subprocess, tempfile

ROOT = os.path.dirname(os.path.dirname(os.path.abspath(__file__)))
names = [t for c in json.load(open(f"{ROOT}/MANIFEST.json"))["claims"] for t in c["theorems"]]
with tempfile.NamedTemporaryFile("w", suffix=".lean", delete=False) as f:
    f.write("import Verif\n" + "\n".join(f"#print axioms {n}" for n in names))
out = subprocess.run(["lake", "env", "lean", f.name], cwd=f"{ROOT}/lean", capture_output=True, text=True).stdout
os.unlink(f.name)
found = dict(re.findall(r"'([^']+)' depends on axioms: \[([^\]]*)\]", out))
found.update({n: "none" for n in re.findall(r"'([^']+)' does not depend on any axioms", out)})
missing = [n for n in names if n not in found]
assert not missing, missing
allowed = {"propext", "Classical.choice", "Quot.sound", "none"}
with open(f"{ROOT}/AXIOMS.txt", "w") as g:
    for n in names:
        ax = re.split(r",\s*", found[n].strip())
        assert set(ax) <= allowed, (n, ax)
        g.write(f"{n}: {', '.join(ax)}\n")
print(len(names), "theorems")
