#!/usr/bin/env python3
"""Random small edits of the model, to find definitions no theorem depends on.
usage: mutate.py WORKDIR COUNT SEED [FILE...]   (WORKDIR/base: a built copy of lean/ without the examples)
Each edit is applied in a copy; the build stops at the first declaration that fails.  An edit after which the model itself does not
compile is not counted."""
import json, os, random, re, signal, subprocess, sys, glob, shutil, threading, queue, time
W, COUNT, SEED = sys.argv[1], int(sys.argv[2]), int(sys.argv[3])
FILES = sys.argv[4:] or sorted(os.path.basename(f) for f in glob.glob(f"{W}/base/Verif/Model/*.lean"))
OPS = [(r" < ", [" ≤ "]), (r" ≤ ", [" < "]), (r" > ", [" ≥ "]), (r" ≥ ", [" > "]), (r" \+ 1\b", ["", " + 2"]), (r" - 1\b", ["", " - 2"]),
       (r"\btrue\b", ["false"]), (r"\bfalse\b", ["true"]), (r" && ", [" || "]), (r" \|\| ", [" && "]), (r" ∧ ", [" ∨ "]), (r" ∨ ", [" ∧ "]),
       (r"\bif ([^\n]*?) then\b", None), (r" = 0\b", [" = 1"]), (r" \+ ", [" - "]), (r" - ", [" + "]), (r" \* ", [" + "]), (r"\b127\b", ["126"]),
       (r"\b128\b", ["127"]), (r"(?<!\.)\b0\b", ["1"]), (r"(?<![.+] )(?<!\.)\b1\b", ["0"]), (r"(?<!\.)\b2\b", ["1", "3"]), (r"\b32\b", ["31"]), (r"\b64\b", ["63"]),
       (r" \+\+ ", None), (r"\bsome\b", None), (r"\.1\b", [".2"]), (r"\.2\b", [".1"]), (r" := ([^\n]*) \}", None), (r" != ", [" == "]),
       (r" == ", [" != "]), (r" ≠ ", [" = "]), (r" = ", [" ≠ "])]
def blank(t):
    t = re.sub(r"/-.*?-/", lambda m: re.sub(r"[^\n]", " ", m.group()), t, flags=re.S)
    return re.sub(r"--[^\n]*", lambda m: " " * len(m.group()), t)
def mutants(f):
    t = open(f"{W}/base/Verif/Model/{f}").read(); b = blank(t)
    heads = [m for m in re.finditer(r"^(?:@\[[^\]]*\] |private |noncomputable )*(def|abbrev|structure|inductive|instance|theorem|variable|namespace|end|open|set_option|section|deriving)\b ?(\S*)", b, re.M)]
    for h, n in zip(heads, heads[1:] + [None]):
        if h.group(1) not in ("def", "abbrev"): continue
        e = n.start() if n else len(b)
        body = b[h.start():e]
        k = body.find(":=")
        k2 = body.find("\n  |")
        s = min(x for x in (k, k2, e) if x >= 0)
        seg = h.start() + s
        for pat, reps in OPS:
            for m in re.finditer(pat, b[seg:e]):
                i, j = seg + m.start(), seg + m.end()
                if reps is None:
                    if m.group().startswith("if"): yield f, h.group(2), i, j, f"if ¬ ({m.group(1)}) then"
                    continue
                for r in reps: yield f, h.group(2), i, j, r
def apply(mu):
    f, d, i, j, r = mu
    t = open(f"{W}/base/Verif/Model/{f}").read()
    return t[:i] + r + t[j:]
def line(mu):
    t = open(f"{W}/base/Verif/Model/{mu[0]}").read()
    s = t.rfind("\n", 0, mu[2]) + 1; e = t.find("\n", mu[3])
    return t[s:e].strip(), (t[s:mu[2]] + mu[4] + t[mu[3]:e]).strip()
def run(k, mu):
    d = f"{W}/w{k}"
    shutil.rmtree(d, ignore_errors=True); subprocess.run(["cp", "-a", f"{W}/base", d], check=True)
    open(f"{d}/Verif/Model/{mu[0]}", "w").write(apply(mu))
    p = subprocess.Popen(["lake", "build"], cwd=d, stdout=subprocess.PIPE, stderr=subprocess.STDOUT, text=True, start_new_session=True)
    err = None
    for l in p.stdout:
        m = re.match(r"error: (Verif/\S+?):(\d+):\d+", l)
        if m: err = (m.group(1), int(m.group(2))); break
    try: os.killpg(p.pid, signal.SIGKILL)
    except ProcessLookupError: pass
    p.wait()
    if err is None: return "SURVIVED", ""
    if "/Model/" in err[0]: return "INVALID", ""
    t = open(f"{d}/{err[0]}").read().split("\n")[:err[1]]
    name = next((re.search(r"(?:theorem|def|lemma|instance|example)\s*(\S*)", l).group(1) for l in reversed(t)
                 if re.match(r"(private |@\[.*\] )*(theorem|def|lemma|instance|example)\b", l)), "?")
    return "KILLED", f"{err[0]} {name}"
if __name__ == "__main__":
    random.seed(SEED)
    done = set()
    if os.path.exists(f"{W}/out.jsonl"):
        for l in open(f"{W}/out.jsonl"): o = json.loads(l); done.add((o["file"], o["definition"], o["new"]))
    by = {}
    for f in FILES:
        for mu in mutants(f): by.setdefault((f, mu[1]), []).append(mu)
    for v in by.values(): random.shuffle(v)
    keys = list(by); random.shuffle(keys)
    todo = []
    r = 0
    while len(todo) < COUNT * 3 and r < 50:
        for k in keys:
            if r < len(by[k]): todo.append(by[k][r])
        r += 1
    q = queue.Queue()
    for mu in todo: q.put(mu)
    lock = threading.Lock(); n = [0]
    def work(k):
        while n[0] < COUNT:
            try: mu = q.get_nowait()
            except queue.Empty: return
            old, new = line(mu)
            if (mu[0], mu[1], new) in done: continue
            t0 = time.time(); v, why = run(k, mu)
            with lock:
                if v != "INVALID": n[0] += 1
                with open(f"{W}/out.jsonl", "a") as o:
                    o.write(json.dumps({"file": mu[0], "definition": mu[1], "old": old, "new": new, "verdict": v, "by": why, "s": round(time.time() - t0)}, ensure_ascii=False) + "\n")
    ts = [threading.Thread(target=work, args=(k,)) for k in range(2)]
    for t in ts: t.start()
    for t in ts: t.join()
