"""Regenerate lean/Verif.lean (imports) and MANIFEST.json from the sources and tools/status.json."""
import glob, json, os, re
root = os.path.dirname(os.path.dirname(os.path.abspath(__file__)))
lean = os.path.join(root, "lean")
mods = sorted(os.path.relpath(f, lean)[:-5].replace("/", ".")
              for f in glob.glob(lean + "/Verif/**/*.lean", recursive=True))
order = {"Model": 0, "Spec": 1, "Lemmas": 2, "Props": 3}
mods.sort(key=lambda m: (order.get(m.split(".")[1], 9), m))
open(lean + "/Verif.lean", "w").write("".join(f"import {m}\n" for m in mods))
status = json.load(open(os.path.join(root, "tools/status.json")))
thms = {}
for f in sorted(glob.glob(lean + "/Verif/Props/*.lean")):
    for m in re.finditer(r"(?m)^theorem (C(\d\d+)_\S+)", open(f).read()):
        thms.setdefault("C" + m.group(2), []).append("GT." + m.group(1))
claims = []
for l in open(root + "/properties.jsonl"):
    p = json.loads(l)["id"]
    if p in status:
        st, note = status[p]
        claims.append({"property": p, "status": st, "theorems": thms.get(p, []), "note": note})
    elif p in thms:
        print("no status for", p)
for p in status:
    if p not in thms:
        print("no theorems for", p)
json.dump({"claims": claims}, open(root + "/MANIFEST.json", "w"), indent=1)
print(len(claims), "claims", sum(len(c["theorems"]) for c in claims), "theorems")
