#!/usr/bin/env python3
"""Check the citations of the model: `Class.method (path:a-b)` must be where that method is, `Class` (path:a-b) where that class is."""
import ast, glob, os, re, sys
REPO = "/repo"
trees = {}
def info(path):
    if path not in trees:
        full = os.path.join(REPO, path)
        if not os.path.exists(full):
            trees[path] = None
        else:
            src = open(full).read()
            cl = {}
            for n in ast.parse(src).body:
                if isinstance(n, ast.ClassDef):
                    cl[n.name] = (n.lineno, n.end_lineno, {m.name: (min([m.lineno] + [q.lineno for q in m.decorator_list]), m.end_lineno) for m in n.body if isinstance(m, ast.FunctionDef)})
            trees[path] = (src.count("\n") + 1, cl)
    return trees[path]
bad = 0
for f in sorted(glob.glob("/verif/lean/Verif/**/*.lean", recursive=True)):
    text = open(f).read()
    for m in re.finditer(r"(mealpy/[\w/]+\.py):([\d,\- ]+)", text):
        i = info(m.group(1))
        line = text[:m.start()].count("\n") + 1
        if i is None:
            print(f"{f}:{line}: no file {m.group(1)}"); bad += 1; continue
        nums = [int(x) for x in re.findall(r"\d+", m.group(2))]
        if nums and max(nums) > i[0]:
            print(f"{f}:{line}: {m.group(0)} past the end {i[0]}"); bad += 1
    for m in re.finditer(r"`(\w+)\.(\w+)` \(`(mealpy/[\w/]+\.py):(\d+)-(\d+)`", text):
        i = info(m.group(3))
        line = text[:m.start()].count("\n") + 1
        if i and m.group(1) in i[1]:
            ms = i[1][m.group(1)][2]
            if m.group(2) in ms and not (ms[m.group(2)][0] <= int(m.group(4)) and int(m.group(5)) <= ms[m.group(2)][1]):
                print(f"{f}:{line}: {m.group(0)} is at {ms[m.group(2)]}"); bad += 1
    for m in re.finditer(r"/-- `(\w+)` \(`(mealpy/[\w/]+\.py):(\d+)-(\d+)`\) -/", text):
        i = info(m.group(2))
        line = text[:m.start()].count("\n") + 1
        if i and m.group(1) in i[1] and i[1][m.group(1)][:2] != (int(m.group(3)), int(m.group(4))):
            print(f"{f}:{line}: {m.group(0)} is at {i[1][m.group(1)][:2]}"); bad += 1
print(bad, "problems")
