"""Writes the inductives of lean/Verif/Catalogue.lean and their case analyses from one table."""
import re, os
HERE = os.path.dirname(os.path.abspath(__file__))
OUT = os.path.join(HERE, "..", "lean", "Verif", "Catalogue.lean")

MODULES = ["GWO2", "DE", "SA"]
ROWS = []


def row(kind, ctor, name, lo, budget, params="", hyps=(), ok=None, feas=None, before="Framed.pure", framed=None, keeps=None, err=None, wok=None):
    """kind: E elitist / T tracked / R resizing its population / L loose / K loose that keeps its best / X may raise err / Y resizing that may raise err /
    W careless / I writing in place / V wild / S writing in place and shrinking its population (these four rest on `lok`, and may raise err).
    params: binder names; hyps: list of (name, proposition); budget: 'first lo hi'."""
    ROWS.append(dict(kind=kind, ctor=ctor, name=name, lo=lo, budget=budget, params=params.split(), hyps=list(hyps), ok=ok,
                     feas=feas, before=before, framed=framed, keeps=keeps, err=err, wok=wok or ("lok" if kind in "WIVS" else "wok")))


N = "c.popSize"
NNN = f"{N} {N} {N}"
M = [("hM", "MirrorsBox c")]
D = [("hd", "0 < d")]

# GWO.py
row("E", "originalGWO", "OriginalGWO", 5, NNN)
row("E", "rwGWO", "RW_GWO", 5, f"{N} (3 + {N}) (3 + {N})")
row("E", "gwoWOA", "GWO_WOA", 5, NNN)
row("E", "iGWO", "IGWO", 5, NNN, "p")
row("E", "chaoticGWO", "ChaoticGWO", 5, NNN, "p")
row("E", "fuzzyGWO", "FuzzyGWO", 5, NNN, "p")
row("E", "incrementalGWO", "IncrementalGWO", 5, NNN, "p")
row("E", "exGWO", "ExGWO", 5, NNN)
row("E", "erGWO", "ER_GWO", 5, NNN, "p")
row("E", "oGWO", "OGWO", 5, f"(2 * {N}) {N} (2 * {N})", "p", M, ok="hE hP h hM p")
row("T", "cgGWO", "CG_GWO", 5, f"{N} (3 + {N}) (3 + 2 * {N})", before="Framed.pure")
row("T", "ioblGWO", "IOBL_GWO", 5, f"{N} (3 + {N}) (3 + 2 * {N})", "", M, before="Framed.pure")
row("T", "dsGWO", "DS_GWO", 10, f"{N} 0 0", "p", [("hg", "p.nGroups ≤ c.popSize")], before="(DS_GWO.framed_before hE p)")
# DE.py
row("E", "originalDE", "OriginalDE", 5, NNN, "p", [("h3", "(p.strategy = 3 → 6 ≤ c.popSize)")])
row("E", "jade", "JADE", 5, NNN, "p", D + [("ht", "0 < JADE.top c p ∧ JADE.top c p ≤ c.popSize")], ok="hE hP hd h p ht")
row("E", "sade", "SADE", 5, NNN, "", D, ok="hE hP hd h")
# SA.py
row("K", "originalSA", "OriginalSA", 2, f"{N} 1 1", "p", before="(OriginalSA.framed_before hE p)",
    keeps="(OriginalSA.before_covers p) (OriginalSA.covers p)")
row("K", "gaussianSA", "GaussianSA", 2, f"{N} 1 1", "p", before="(GaussianSA.framed_before hE p)",
    keeps="(GaussianSA.before_covers p) (GaussianSA.covers p)")
row("T", "swarmSA", "SwarmSA", 5, f"{N} (p.maxSubIter * ({N} * p.moveCount)) (p.maxSubIter * ({N} * p.moveCount))", "p", D,
    ok="hE hP hd h p", before="Framed.pure")
# HC.py
row("K", "originalHC", "OriginalHC", 2, f"{N} p.neighbours p.neighbours", "p", before="Framed.pure",
    keeps="(fun s => Wp.pure ⟨rfl, rfl⟩) (OriginalHC.covers hE p)")
row("E", "swarmHC", "SwarmHC", 5, f"{N} ({N} * p.neighbours) ({N} * p.neighbours)", "p")

import glob
for _f in sorted(glob.glob(os.path.join(HERE, "rows", "*.py")), key=lambda f: (len(f), f)):
    exec(open(_f).read())
    MODULES.append(os.path.basename(_f)[:-3])


def budget(r):
    """a budget '!first firstMax lo hi' has two bounds on the evaluations before the first epoch"""
    return f"(.of2 {r['budget'][1:]})" if r["budget"].startswith("!") else f"(.of {r['budget']})"


def ctor(r, ind):
    ps = " ".join(f"({p})" for p in r["params"])
    alg = f"({r['name']}.algo {' '.join(r['params'])})" if r["params"] else f"{r['name']}.algo"
    hy = "".join(f" {p} →" for _, p in r["hyps"])
    sp = " " + ps if ps else ""
    return f"  | {r['ctor']}{sp} : Accepted c {r['lo']} →{hy} {ind} c {alg} {budget(r)}" + (f" {r['err']}" if r["kind"] in "XYWIVS" else "")


def case(r):
    vs = r["params"] + ["h"] + [n for n, _ in r["hyps"]]
    ok = r["ok"] or " ".join(["hE", "hP", "h"] + r["params"] + [n for n, _ in r["hyps"]])
    fr = r["framed"] or f"({r['name']}.framed {' '.join(['hE'] + r['params'])})"
    if r["kind"] == "E":
        feas = r["feas"] or "(fun _ h => h)"
        body = f"exact .of h (by omega) ({r['name']}.ok {ok}) {feas} {r['before']} {fr}"
    elif r["kind"] in "WIV":
        pos = "(fun h => nomatch h)" if r["kind"] == "V" else "(fun _ _ h => h)"
        body = f"exact .of h (by omega) ({r['name']}.{r['wok']} {ok}) (fun _ h => h) {pos}"
    elif r["kind"] == "S":
        body = f"exact .ofE h (by omega) ({r['name']}.{r['wok']} {ok}) (fun _ _ h => h)"
    else:
        of = ".ofSized" if (r['kind'], r['wok']) == ("Y", "wokUneven") else ".of"
        body = f"exact {of} h (by omega) ({r['name']}.{r['wok']} {ok}) {r['before']} {fr}"
    return f"  | {r['ctor']} {' '.join(vs)} => {body}"


def disc(r):
    vs = r["params"] + ["h"] + [n for n, _ in r["hyps"]]
    fr = r["framed"] or f"({r['name']}.framed {' '.join(['hE'] + r['params'])})"
    return f"  | {r['ctor']} {' '.join(vs)} => exact ⟨true, {r['before']}, {fr}⟩"


def keeps(r):
    vs = r["params"] + ["h"] + [n for n, _ in r["hyps"]]
    return f"  | {r['ctor']} {' '.join(vs)} => exact ⟨rfl, {', '.join(re.split(r'(?<=[)]) (?=[(])', r['keeps'], maxsplit=1))}⟩"


KINDS = [("E", "Elitist", "every evaluated point is feasible, the returned agent is the best point evaluated, its target belongs to it, the population keeps its size, no exception"),
         ("T", "Tracked", "as Elitist, but returning the best point ever evaluated is not claimed"),
         ("R", "Resizing", "as Tracked, but the population may change size"),
         ("L", "Loose", "no exception, budget, history; evaluated points may leave the box"),
         ("K", "Keeping", "as Loose, and the best point evaluated is returned"),
         ("X", "Fallible", "as Tracked, or the run raises one of the errors listed"),
         ("Y", "Risky", "as Resizing, or the run raises one of the errors listed"),
         ("W", "Careless", "feasible evaluations, size, budget, history; the target may not belong to the solution; may raise the errors listed"),
         ("I", "InPlace", "feasible evaluations, size, budget; writes into arrays that other agents share; may raise the errors listed"),
         ("V", "Wild", "size, budget, history; evaluated points may leave the box, targets may not belong; may raise the errors listed"),
         ("S", "Shrinking", "feasible evaluations, budget; the population may shrink; writes into arrays that other agents share; may raise the errors listed")]


def repo_classes():
    """concrete optimizer classes of /repo/mealpy by file (read as text)"""
    out = {}
    for f in sorted(glob.glob("/repo/mealpy/*_based/*.py")):
        for m in re.finditer(r"^class (\w+)\(", open(f).read(), re.M):
            out[m.group(1)] = f[len("/repo/"):]
    return out


def overview():
    where = repo_classes()
    if not where:
        return
    lines = ["# Modelled algorithms", "",
             "Written by `tools/catalogue.py`: one line per constructor of the inductives in `lean/Verif/Catalogue.lean`.",
             "`pop_size >=` is the smallest size the python constructor accepts (`Accepted`). *Settings* are hypotheses beyond that;",
             "a class with several lines has one per contract. *Evaluations* are before the first epoch / least per epoch / most per epoch.",
             "`Err.hang` stands for a loop of the code that does not end.", "", "Contracts:", ""]
    lines += [f"* `{n}`: {t}." for _, n, t in KINDS] + [""]
    kind = {k: n for k, n, _ in KINDS}
    lines += ["| class | file | contract | pop_size >= | settings | evaluations | errors |", "|---|---|---|---|---|---|---|"]
    esc = lambda s: s.replace("|", "\\|").replace("c.popSize", "n")
    for r in ROWS:
        hy = "; ".join(f"`{esc(p)}`" for _, p in r["hyps"])
        b = r["budget"].lstrip("!")
        er = f"`{r['err']}`" if r["kind"] in "XYWIVS" else ""
        lines.append(f"| {r['name']} | {where.get(r['name'], '?')} | {kind[r['kind']]} | {r['lo']} | {hy} | `{esc(b)}` | {er} |")
    missing = [c for c in where if c not in {r["name"] for r in ROWS}]
    if missing:
        lines += ["", "Classes of `/repo/mealpy` without a line: " + ", ".join(f"`{c}` ({where[c]})" for c in missing) + ".", ""]
    open(os.path.join(HERE, "..", "ALGORITHMS.md"), "w").write("\n".join(lines))


def main():
    text = open(OUT).read()
    text = re.sub(r"\A(import .*\n)+", "", text)
    imports = "".join(f"import Verif.Alg.{m}\n" for m in MODULES) + "import Verif.Alg.Cover\nimport Verif.RunLemmas\n"
    def block(key, body):
        nonlocal text
        pat = re.compile(rf"(-- BEGIN {key}\n).*?(-- END {key}\n)", re.S)
        assert pat.search(text), key
        text = pat.sub(lambda m: m.group(1) + body + "\n" + m.group(2), text)
    for kind, ind in (("E", "Elitist"), ("T", "Tracked"), ("R", "Resizing"), ("L", "Loose"), ("K", "Keeping"), ("X", "Fallible"), ("Y", "Risky"),
                      ("W", "Careless"), ("I", "InPlace"), ("V", "Wild"), ("S", "Shrinking")):
        rs = [r for r in ROWS if r["kind"] == kind]
        block(ind, "\n".join(ctor(r, ind) for r in rs))
        block(ind + " facts", "\n".join(case(r) for r in rs))
        if kind in "WV":
            block(ind + " disc", "\n".join(disc(r) for r in rs))
        if kind == "K":
            block("Keeping keeps", "\n".join(keeps(r) for r in rs))
    open(OUT, "w").write(imports + text)
    overview()
    print(len(ROWS), "algorithms")


main()
