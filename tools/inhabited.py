"""Writes lean/Verif/Inhabited.lean: for every row of the catalogue, a configuration and parameters that meet its hypotheses."""
import os
HERE = os.path.dirname(os.path.abspath(__file__))
src = open(os.path.join(HERE, "catalogue.py")).read()
g = {"__file__": os.path.join(HERE, "catalogue.py"), "__name__": "rows"}
exec(src[:src.index("def main()")], g)
KIND = dict(E="Elitist", T="Tracked", R="Resizing", L="Loose", K="Keeping", X="Fallible", Y="Risky", W="Careless", I="InPlace", V="Wild", S="Shrinking")
GA = "⟨1 / 2, 1 / 2, .count 3, .tournament, .onePoint, .flip, true⟩"
CRO = "⟨2 / 5, 9 / 10, 1 / 10, 1 / 10, 1 / 2, 1 / 10, 1 / 50, 1 / 5, 5⟩"
# parameters, where a generic choice does not do
PARAMS = {
    "dsGWO": ["⟨1 / 2, 5, by decide +kernel, by decide +kernel⟩"],
    "swarmSA": ["⟨5, 1000, 1, 5, 1 / 2, 1 / 2, 1 / 2, by decide +kernel, by decide +kernel, by decide +kernel, (by decide : 2 ≤ 5 ∧ 5 ≤ 36 / 2), by decide +kernel, by decide +kernel, by decide +kernel⟩"],
    "baseGA": [GA], "multiGA": [GA], "eliteMultiGA": [GA, "⟨4, 18, 0⟩"], "singleGA": [GA], "eliteSingleGA": [GA, "⟨4, 18, 0⟩"], "originalHBO": ["2", "(fun _ => (0, 1))"],
    "originalEHO": ["⟨1 / 2, 1 / 2, 6, 6⟩"],
    "originalCOA": ["⟨6, 6, 1 / 2⟩"],
    "originalCSO": ["⟨3 / 20, 5, false, 4 / 5, 3 / 20, 2 / 5, 2 / 5, 9 / 10, 1⟩"],
    "originalHGSO": ["4"], "improvedTLO": ["3"], "eTLBO": ["5"],
    "devGSKA": ["⟨1 / 10, 7 / 10⟩"], "originalGSKA": ["⟨1 / 10, 1 / 2, 9 / 10, 5⟩"],
    "devEFO": ["⟨3 / 10, 17 / 20, 1 / 10, 9 / 20⟩"], "originalEFO": ["⟨3 / 10, 17 / 20, 1 / 10, 9 / 20⟩"],
    "originalFLA": ["⟨1 / 2, 2, 1 / 10, 1 / 5, 2, 1 / 100⟩"],
    "originalSFO": ["⟨1 / 10, 4, 1 / 100⟩"], "improvedSFO": ["(1 / 10)"],
    "improvedBSO": ["⟨6, 1 / 4, 1 / 2, 3 / 4, 1 / 2⟩"], "originalBSO": ["⟨⟨6, 1 / 4, 1 / 2, 3 / 4, 1 / 2⟩, 20⟩"],
    "originalPSS": ["⟨9 / 10, false⟩"],
    "originalCRO": [CRO], "oCRO": [f"⟨{CRO}, 20⟩"],
    "originalIWO": ["⟨2, 10, 2, 1, 1 / 100⟩"],
    "devSARO": ["⟨1 / 2, 5⟩"], "originalSARO": ["⟨1 / 2, 5⟩"], "lSHADE": ["⟨1 / 2, 1 / 2⟩"], "devCHIO": ["⟨3 / 20, 10⟩"],
    "originalPO": ["⟨6, 1⟩"],
    "originalSSpiderO": ["⟨13 / 20, 9 / 10⟩"],
    "devSMOEven": ["⟨6, 7 / 10, 50⟩"],
    "devWOAmM": ["⟨true, 5, 1 / 2, .reflect⟩"], 
}
# proofs of single hypotheses, where the tactic `wide` does not do
PROOFS = {
    "MirrorsBox c": "wide_mirror",
    "(OriginalESO.Calm c)": None,
    "(RoundMono K)": "roundMono_rat",
    "(OriginalSRSR.Calm c)": "wide_srsr",
    "(SAP_DE.Small K)": "sapde_rat",
    "(OriginalIWO.Sows p)": "sows_rat",
    "(OriginalFLA.Calm c p)": "wide_fla",
    "(OriginalSFO.Narrow c p)": "wide_sfo",
    "(OriginalWSO.Indexes c)": "wide_wso",
    "(OriginalSHADE.Tops c)": "wide_shade",
    "(L_SHADE.Tops c)": "wide_lshade",
    "(OriginalCRO.Rates c p)": "wide_cro",
    "(OriginalSSpiderO.Shares c p)": "wide_spiders",
    "(DevSMO.Even c p)": "(by cases m <;> exact (by decide : 6 * 6 = 36))",
    "(OriginalCRO.Rates c p.base)": "wide_cro",
}
import glob, re
STRUCT, ALGO = {}, {}
for f in glob.glob(os.path.join(HERE, "..", "lean", "Verif", "Alg", "*.lean")):
    ns, L = [], open(f).read().split("\n")
    for i, l in enumerate(L):
        if m := re.match(r"namespace (\S+)", l): ns.append(m.group(1))
        if (m := re.match(r"end (\S+)", l)) and ns and ns[-1] == m.group(1): ns.pop()
        pre = ".".join(x for x in ns if x != "Mealpy")
        if m := re.match(r"structure (\S+)", l):
            fields, j = [], i + 1
            while j < len(L) and L[j].startswith("  ") and " : " in L[j]:
                fields.append(tuple(L[j].strip().split(" : ", 1))); j += 1
            STRUCT[pre + "." + m.group(1)] = fields
        if m := re.match(r"(?:noncomputable )?def algo (.*)", l): ALGO[pre] = m.group(1).split(" : Algo")[0]
SPECIAL = {("FuzzyGWO", "miu"): "2", "aMax": "2", "tempInit": "100", ("ER_GWO", "miu"): "(1001 / 1000)", "sitters": "5"}


def value(name, field, ty):
    """a value of one parameter"""
    v = SPECIAL.get((name, field)) or SPECIAL.get(field)
    if v: return v
    if field.endswith("_ok"): return "(by decide +kernel)"
    if ty in ("K", "ℚ"): return "(1 / 2)"
    if ty in ("Nat", "ℕ"): return "5"
    if ty == "Int": return "5"
    if ty == "Bool": return "true"
    base = ty.split()[0]
    for key in (base, name + "." + base):
        if key in STRUCT: return "⟨" + ", ".join(value(key.rsplit(".", 1)[0], f, t) for f, t in STRUCT[key]) + "⟩"
    if " ≤ " in ty: return "(by first | decide | (cases m <;> decide))"
    return {"Bound": ".reflect", "Chaotic.Name": ".logistic"}.get(base, "?" + ty)


def params(r):
    bs = re.findall(r"\((\w+(?: \w+)*) : ([^)]*)\)", ALGO.get(r["name"], ""))
    tys = [t for names, t in bs for _ in names.split()]
    return [value(r["name"], "", t) for t in tys[:len(r["params"])]] if len(tys) >= len(r["params"]) else None


out = []
for r in g["ROWS"]:
    mode = "m"
    hy = [h for _, h in r["hyps"]]
    if "(c.swarmLike = true)" in hy: mode = ".thread"
    if "(c.swarmLike = false)" in hy or "(c.mode = .single)" in hy: mode = ".single"
    cfg = f"wideCfg {mode}"
    acc = f"(wide_accepted {mode} (by decide))"
    if r["ctor"] == "originalESO":
        cfg, acc, mode = "unitCfg m", "(unit_accepted m (by decide))", "m"
    ps = PARAMS.get(r["ctor"]) or params(r)
    n = len(r["params"])
    proofs = [("unit_eso m" if h == "(OriginalESO.Calm c)" else PROOFS.get(h, "(by wide)")) + (f" {mode}" if PROOFS.get(h, "").__class__ is str and PROOFS.get(h, "x").startswith("wide_") else "") if h in PROOFS else "(by wide)" for h in hy]
    if mode == "m": proofs = ["(by cases m <;> wide)" if p == "(by wide)" else p for p in proofs]
    proofs = [f"({p})" if " " in p and not p.startswith("(") else p for p in proofs]
    alg = f"({r['name']}.algo {' '.join(r['params'])})" if n else r["name"] + ".algo"
    ex = f"∃ {' '.join(r['params'] + ['b'])}, {KIND[r['kind']]} ({cfg}) {alg} b" + (f" {r['err']}" if r["kind"] in "XYWIVS" else "")
    bind = " (m)" if mode == "m" else ""
    head = f"/-- `{r['name']}` -/\nexample{bind} : {ex} :="
    ctor = f"{KIND[r['kind']]}.{r['ctor']}"
    if n == 0 or ps:
        vals = ps or []
        out.append(f"{head}\n  ⟨{', '.join(vals + ['_', ' '.join(['.' + r['ctor']] + ['_'] * n + [acc] + proofs)])}⟩")
    else:
        print('no parameters for', r['ctor'], ALGO.get(r['name']))
text = open(os.path.join(HERE, "inhabited_head.txt")).read() + "\n\n".join(out) + "\n\nend Mealpy\n"
open(os.path.join(HERE, "..", "lean", "Verif", "Inhabited.lean"), "w").write(text)
