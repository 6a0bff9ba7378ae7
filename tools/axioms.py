"""Lists the axioms every theorem of MANIFEST.json depends on in AXIOMS.md (run after a build)."""
import json, os, re, subprocess
root = os.path.dirname(os.path.dirname(os.path.abspath(__file__)))
names = [t for c in json.load(open(f"{root}/MANIFEST.json"))["claims"] for t in c["theorems"]]
src = "/tmp/axioms.lean"
open(src, "w").write("import Verif\n" + "".join(f"#print axioms {n}\n" for n in names))
out = subprocess.run(["lake", "env", "lean", src], cwd=f"{root}/lean", capture_output=True, text=True).stdout
groups = {}
for m in re.finditer(r"'(\S+)' (?:depends on axioms: \[([^\]]*)\]|does not depend on any axioms)", out):
    groups.setdefault(re.sub(r"\s+", " ", m.group(2) or ""), []).append(m.group(1))
assert sum(map(len, groups.values())) == len(names), (sum(map(len, groups.values())), len(names))
with open(f"{root}/AXIOMS.md", "w") as f:
    f.write("# Axioms of the theorems in MANIFEST.json\n\nWritten by `tools/axioms.py` from Lean's `#print axioms`.\n")
    for ax, ts in sorted(groups.items()):
        f.write(f"\n## {ax or 'no axioms'} ({len(ts)} theorems)\n\n" + "".join(f"* `{t}`\n" for t in ts))
