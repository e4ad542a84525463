#!/usr/bin/env python3
"""Write MANIFEST.json from the theorems in lean/Verif/Props and the notes below; also regenerate lean/Verif.lean."""
import json, os, re, glob
ROOT = os.path.dirname(os.path.dirname(os.path.abspath(__file__)))
NOTES = json.load(open(os.path.join(ROOT, "tools", "notes.json")))
thms = {}
for f in sorted(glob.glob(os.path.join(ROOT, "lean/Verif/Props/**/*.lean"), recursive=True)):
    stack = []
    for m in re.finditer(r"^(?:theorem (C\d+)_(\S+)|namespace (\S+)|end (\S+))", open(f).read(), re.M):
        if m.group(3): stack.append(m.group(3))
        elif m.group(4):
            if stack and stack[-1] == m.group(4): stack.pop()
        else: thms.setdefault(m.group(1), []).append(".".join(stack + [m.group(1) + "_" + m.group(2)]))
claims = []
for line in open(os.path.join(ROOT, "properties.jsonl")):
    p = json.loads(line)["id"]
    if p not in thms:
        continue
    n = NOTES.get(p, {})
    claims.append({"property": p, "status": n.get("status", "proved"), "theorems": thms[p], "note": n.get("note", "")})
json.dump({"claims": claims}, open(os.path.join(ROOT, "MANIFEST.json"), "w"), indent=1, ensure_ascii=False)
mods = sorted(glob.glob(os.path.join(ROOT, "lean/Verif/**/*.lean"), recursive=True))
with open(os.path.join(ROOT, "lean/Verif.lean"), "w") as o:
    for f in mods:
        o.write("import " + os.path.relpath(f, os.path.join(ROOT, "lean"))[:-5].replace("/", ".") + "\n")
print(len(claims), "claims", sum(len(c["theorems"]) for c in claims), "theorems")
