"""Seed wrong programs into a scratch copy of the model and see which theorems notice.

usage: mutate.py ROUND.py   -- ROUND.py defines MUTANTS = [(file, old, new, claim, what, matches, target ...), ...]; without targets all is built
The scratch copy is /root/mut/work, made from the pristine built copy /root/mut/pristine.
One line per mutant is appended to /verif/seeded/LOG.jsonl.
"""
import json, re, subprocess, sys, os, runpy

PRI, WORK, LOG = "/root/mut/pristine", "/root/mut/work", "/verif/seeded/LOG.jsonl"
DECL = re.compile(r"^\s*(?:@\[[^\]]*\]\s*)?(?:private |protected |noncomputable )*(theorem|lemma|def|abbrev|instance|example|structure|inductive|macro)\b\s*([^\s:({\[]*)")


def enclosing(path, line):
    ns, best = [], "?"
    for k, l in enumerate(open(path), 1):
        if k > line:
            break
        m = re.match(r"^namespace (\S+)", l)
        if m:
            ns.append(m.group(1))
        m = re.match(r"^end (\S+)", l)
        if m and ns and ns[-1] == m.group(1):
            ns.pop()
        m = DECL.match(l)
        if m:
            name = m.group(2) or m.group(1)
            best = f"{m.group(1)} {name}" if m.group(1) in ("example", "def") else name
    return best


def props_of(module):
    p = f"{WORK}/lean/{module.replace('.', '/')}.lean"
    return re.findall(r"^theorem (C\d+_\w+)", open(p).read(), re.M) if os.path.exists(p) else []


def run(mut):
    file, old, new, claim, what = mut[:5]
    count = mut[5] if len(mut) > 5 else 1
    subprocess.run(["rm", "-rf", WORK], check=True)
    subprocess.run(["cp", "-a", PRI, WORK], check=True)
    p = f"{WORK}/lean/Verif/{file}"
    src = open(p).read()
    if src.count(old) != count:
        return {"skip": f"{file}: {src.count(old)} matches for {old!r}"}
    open(p, "w").write(src.replace(old, new))
    r = subprocess.run(["lake", "build"] + list(mut[6:]), cwd=WORK + "/lean", capture_output=True, text=True)
    out = r.stdout + r.stderr
    failed, mods = [], set()
    for m in re.finditer(r"error: (Verif/\S+?\.lean):(\d+):\d+", out):
        mods.add(m.group(1)[:-5].replace("/", "."))
        d = enclosing(f"{WORK}/lean/{m.group(1)}", int(m.group(2)))
        if d not in failed:
            failed.append(d)
    built = set(re.findall(r"(?:Built|Replayed) (Verif\.\S+)", out))
    return {"ok": r.returncode == 0, "failed": failed, "modules": sorted(mods)}


def main():
    muts = runpy.run_path(sys.argv[1])["MUTANTS"]
    only = [int(x) for x in sys.argv[2:]]
    for k, m in enumerate(muts):
        if only and k not in only:
            continue
        res = run(m)
        if "skip" in res:
            print(k, "SKIP", res["skip"], flush=True)
            continue
        if not res["ok"] and not res["failed"]:
            # the build stopped without an error at a declaration (a killed prover, say): neither killed nor survived
            print(k, "UNCLEAR", m[0], "|", m[3], flush=True)
            continue
        print(k, "SURVIVED" if res["ok"] else "killed", m[0], "|", m[3], "|", res["failed"][:8], flush=True)
        rec = {"definition": f"lean/Verif/{m[0]}", "edit": m[4], "old": m[1], "new": m[2], "claim": m[3],
               "failed": res["failed"], "tightened": []}
        if res["ok"]:
            rec["survived"] = True
        with open(LOG, "a") as f:
            f.write(json.dumps(rec) + "\n")


main()
