#!/usr/bin/env python3
"""Rewrite the axiom table of DESIGN.md from `#print axioms` of every theorem named in MANIFEST.json.
Run after `lake build`, from anywhere."""
import json, os, re, subprocess, tempfile
root = os.path.dirname(os.path.dirname(os.path.abspath(__file__)))
names = []
for c in json.load(open(f"{root}/MANIFEST.json"))["claims"]:
    names += c["theorems"]
names = list(dict.fromkeys(names))
with tempfile.NamedTemporaryFile("w", suffix=".lean", delete=False) as f:
    f.write("import Verif\n" + "".join(f"#print axioms {n}\n" for n in names))
out = subprocess.run(["lake", "env", "lean", f.name], cwd=f"{root}/lean", capture_output=True, text=True).stdout
os.unlink(f.name)
dep = {}
for m in re.finditer(r"'([^']+)' (does not depend on any axioms|depends on axioms: \[([^\]]*)\])", out):
    dep[m.group(1)] = tuple(sorted(x.strip() for x in (m.group(3) or "").replace("\n", " ").split(",") if x.strip()))
missing = [n for n in names if n not in dep]
assert not missing, missing
groups = {}
for n in names:
    groups.setdefault(dep[n], []).append(n.replace("Mealpy.", ""))
allowed = {"propext", "Classical.choice", "Quot.sound"}
for g in groups:
    assert set(g) <= allowed, g
txt = ""
for g in sorted(groups, key=len):
    txt += f"* {', '.join(g) if g else 'no axiom at all'} ({len(groups[g])} theorems): " + ", ".join(f"`{n}`" for n in groups[g]) + "\n"
p = f"{root}/DESIGN.md"
s = open(p).read()
a, b = "<!-- axioms:begin -->\n", "<!-- axioms:end -->\n"
i, j = s.index(a) + len(a), s.index(b)
open(p, "w").write(s[:i] + txt + s[j:])
print(len(names), "theorems,", {", ".join(g): len(v) for g, v in groups.items()})
