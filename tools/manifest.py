"""Regenerates MANIFEST.json from the theorem names Cnn_* found in lean/Verif/Props."""
import json, re, glob, os
root = os.path.dirname(os.path.dirname(os.path.abspath(__file__)))
NOTES = {}
exec(open(os.path.join(root, "tools", "notes.py")).read())
thms = {}
for f in sorted(glob.glob(root + "/lean/Verif/Props/**/*.lean", recursive=True)):
    for m in re.finditer(r"^theorem (C(\d\d)_\w+)", open(f).read(), re.M):
        thms.setdefault("C" + m.group(2), []).append("Mealpy." + m.group(1))
ids = [json.loads(l)["id"] for l in open(root + "/properties.jsonl")]
claims = []
for i in ids:
    t = thms.get(i, [])
    if not t:
        claims.append({"property": i, "status": "partial", "theorems": [], "note": "not proved yet"})
        continue
    status = "partial" if any(x.endswith("_partial") for x in t) else "proved"
    status = STATUS.get(i, status)
    claims.append({"property": i, "status": status, "theorems": t, "note": NOTES.get(i, "")})
json.dump({"claims": claims}, open(root + "/MANIFEST.json", "w"), indent=1)
print(sum(c["status"] == "proved" for c in claims), "proved of", len(claims))
for k in thms:
    if k not in ids: print("no property for", k)
