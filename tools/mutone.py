#!/usr/bin/env python3
"""Seeded-bug runs without a scratch copy of the project: the edited model file and its file of theorems are checked as one file.

usage: mutone.py [--only <earlier result>] <result file> <limit> <model file>=<theorem file>[+<theorem file>...] [...]
Only the theorems of the given files are checked; the edited file is written to /tmp.  With --only, the edits that survived
an earlier run are made again, and no others.
"""
import json, os, random, re, subprocess, sys
only = None
if sys.argv[1] == "--only":
    only = {(d["file"], d["definition"], d["edit"]) for d in map(json.loads, open(sys.argv[2])) if d["outcome"] == "survived"}
    del sys.argv[1:3]
result, limit, pairs = sys.argv[1], int(sys.argv[2]), sys.argv[3:]
here = os.path.dirname(os.path.abspath(__file__))
lean = os.path.join(os.path.dirname(here), "lean")
src = open(os.path.join(here, "mutate.py")).read()
exec(src[src.index("def decls"):src.index("def build")])

def merged(texts):
    ims, bodies = [], []
    for t in texts:
        ls = t.split("\n")
        ims += [l for l in ls if l.startswith("import ")]
        bodies.append("\n".join(l for l in ls if not l.startswith("import ")))
    return ims, bodies

for pair in pairs:
    mf, pf = pair.split("=")
    mt, pts = open(os.path.join(lean, mf)).read(), [open(os.path.join(lean, f)).read() for f in pf.split("+")]
    me = ["import " + f[:-5].replace("/", ".") for f in [mf] + pf.split("+")]
    lines = mt.split("\n")
    ms = list(mutants(os.path.join(lean, mf)))
    if only is not None:
        ms = [m for m in ms if (mf, m[0], f"{m[2].strip()}  ==>  {m[3].strip()}") in only]
    elif limit and len(ms) > limit:
        random.seed(2); ms = random.sample(ms, limit)
    print(mf, len(ms), flush=True)
    for name, i, old, new in [(None, 0, lines[0], lines[0])] + ms:
        nl = lines[:]; nl[i] = new
        ims, bodies = merged(["\n".join(nl)] + pts)
        text = "\n".join([x for x in dict.fromkeys(ims) if x not in me]) + "\n" + "\n".join(bodies)
        path = "/tmp/mutone_%d.lean" % os.getpid()
        open(path, "w").write(text)
        try:
            r = subprocess.run(["lake", "env", "lean", path], cwd=lean, capture_output=True, text=True, timeout=400)
        except subprocess.TimeoutExpired:
            print("timeout", name, new.strip()[:60], flush=True); continue
        out, tl, failed, bad = r.stdout + r.stderr, text.split("\n"), [], False
        for m in re.finditer(r"\.lean:(\d+):\d+: error", out):
            for j in range(int(m.group(1)) - 1, -1, -1):
                q = re.match(r"(?:private |@\[[^\]]*\] )*(theorem|def|example|inductive|structure|abbrev|instance)\b\s*(\S*)", tl[j])
                if q:
                    if q.group(1) == "theorem": failed.append(q.group(2))
                    elif q.group(1) != "example" and q.group(2) == name: bad = True
                    elif q.group(1) == "example": failed.append("example")
                    break
        failed = sorted(set(failed))
        if name is None:
            print("unedited", r.returncode, failed, out[:200] if r.returncode else "", flush=True)
            if r.returncode: break
            continue
        outcome = "invalid" if bad else ("failed" if r.returncode else "survived")
        d = {"file": mf, "definition": name, "edit": f"{old.strip()}  ==>  {new.strip()}", "outcome": outcome,
             "theorems_failed": [x for x in failed if x != "example"] or (["example"] if failed else [])}
        open(result, "a").write(json.dumps(d, ensure_ascii=False) + "\n")
        print(outcome, name, new.strip()[:90], d["theorems_failed"], flush=True)
print("END")
