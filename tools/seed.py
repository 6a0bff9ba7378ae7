#!/usr/bin/env python3
"""Seeded-bug check.  usage: seed.py seeds.json [--log]
Each seed: {"file","old","new","definition","edit","breaks":["C05"],"props":["Dense"]}.
The modules below the named Props files are concatenated into one file outside /verif with the edit applied;
a property theorem counts as failed if it no longer elaborates or depends on a failed lemma."""
import json, re, subprocess, sys, os, concurrent.futures as cf
ROOT = "/verif/lean"
def closure(mod, seen, order):
    if mod in seen: return
    seen.add(mod)
    p = f"{ROOT}/{mod.replace('.', '/')}.lean"
    for m in re.findall(r"^import (Verif\.\S+)", open(p).read(), re.M): closure(m, seen, order)
    order.append(mod)
def deps(mod):
    seen = set(); closure(mod, seen, []); return seen
def run(seed, idx):
    order, seen = [], set()
    for p in seed["props"]: closure(f"Verif.Props.{p}", seen, order)
    edited = "Verif." + seed["file"][:-5].replace("/", ".")
    imports, body, names = [], [], []
    hit = False
    for m in order:
        f = m.replace("Verif.", "").replace(".", "/") + ".lean"
        t = open(f"{ROOT}/Verif/{f}").read()
        if edited not in deps(m):      # unaffected: use the compiled module
            imports.append("import " + m); continue
        if f == seed["file"] and seed.get("old"):
            assert t.count(seed["old"]) == 1, (seed["file"], t.count(seed["old"]), seed["old"])
            t = t.replace(seed["old"], seed["new"]); hit = True
        imports += [l for l in re.findall(r"^import \S+", t, re.M) if not l.startswith("import Verif")]
        body.append(re.sub(r"^import .*$", "", t, flags=re.M))
        if "Props" in m: names += re.findall(r"^theorem (C\d\d\S*)", t, re.M)
    assert hit or not seed.get("old"), seed["file"]
    # `example`s are skipped: they only test non-vacuity
    src = "\n".join(sorted(set(imports))) + "\n" + "\n".join(body)
    src += "\n" + "\n".join(f"#print axioms GT.{n}" for n in names)
    fn = f"/tmp/work/seed/s{idx}.lean"
    open(fn, "w").write(src)
    r = subprocess.run(["lake", "env", "lean", fn], cwd=ROOT, capture_output=True, text=True)
    out = r.stdout
    ok = set()
    for m in re.finditer(r"'GT\.(C\d\d\S*)' (depends on axioms: \[([^\]]*)\]|does not depend)", out):
        if "sorryAx" not in (m.group(3) or ""): ok.add(m.group(1))
    # an error in the kernel leaves the name behind, so the place of each error is looked up as well
    lines = src.split("\n")
    for m in re.finditer(r"lean:(\d+):\d+: error", out):
        k = int(m.group(1)) - 1
        if lines[k].startswith("/--"):
            while k + 1 < len(lines) and not re.match(r"(theorem|example|def|lemma|instance)\b", lines[k]): k += 1
        while k >= 0 and not re.match(r"(theorem|example|def|lemma|instance)\b", lines[k]): k -= 1
        d = re.match(r"theorem (C\d\d\S*)", lines[k])
        if k >= 0 and d: ok.discard(d.group(1))
    return seed, [n for n in names if n not in ok], [n for n in names if n in ok], out
if __name__ == "__main__":
    seeds = json.load(open(sys.argv[1]))
    # theorems that already fail in the concatenated, unedited file are not counted
    groups = sorted({(tuple(s["props"]), s["file"]) for s in seeds})
    with cf.ThreadPoolExecutor(3) as ex:
        base = dict(zip(groups, ex.map(lambda a: run({"props": list(a[1][0]), "file": a[1][1]}, f"b{a[0]}")[1], enumerate(groups))))
        for g, b in base.items():
            if b: print("BASELINE FAILURES", g, b)
        res = list(ex.map(run, seeds, range(len(seeds))))
        res = [(s, [n for n in f if n not in base[(tuple(s["props"]), s["file"])]], ok, o) for s, f, ok, o in res]
    for seed, failed, ok, out in res:
        hit = [n for n in failed if any(n.startswith(c) for c in seed["breaks"])]
        print(("KILLED " if hit else "SURVIVED "), seed["definition"], "|", seed["edit"], "| breaks", seed["breaks"])
        print("   failed:", " ".join(failed))
        print("   still ok of the claim:", " ".join(n for n in ok if any(n.startswith(c) for c in seed["breaks"])))
        if "--log" in sys.argv:
            with open("/verif/seeded/LOG.jsonl", "a") as f:
                f.write(json.dumps({"definition": seed["definition"], "edit": seed["edit"],
                    "claim": ", ".join(seed["breaks"]), "failed": failed,
                    "tightened": seed.get("tightened", [])}) + "\n")
