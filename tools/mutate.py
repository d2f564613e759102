#!/usr/bin/env python3
"""Seeded-bug runs: apply one small edit to a definition of the model in a scratch copy, rebuild, and list the theorems that fail.

usage: mutate.py <scratch copy of /verif> <result file> <model file> [<model file> ...]
       mutate.py <scratch copy> <result file> --manual <json file>   (a list of {file, def, old, new, claim})
"""
import json, os, re, subprocess, sys, random

scratch, result = sys.argv[1], sys.argv[2]
lean = os.path.join(scratch, "lean")

def decls(text):
    """(kind, name, first line, last line) of the declarations, 0-based"""
    out = []
    for i, l in enumerate(text.split("\n")):
        m = re.match(r"(?:private |protected |noncomputable |@\[[^\]]*\] )*(def|theorem|example|structure|inductive|abbrev|instance|lemma)\b\s*(\S*)", l)
        if m:
            if out: out[-1][3] = i - 1
            out.append([m.group(1), m.group(2), i, None])
    if out: out[-1][3] = len(text.split("\n")) - 1
    return out

def strip_comment(l):
    i = l.find("--")
    return l if i < 0 else l[:i]

RULES = [
    (r"(?<=\s)<(?=\s)", ["≤"]), (r"(?<=\s)≤(?=\s)", ["<"]), (r"(?<=\s)>(?=\s)", ["≥"]), (r"(?<=\s)≥(?=\s)", [">"]),
    (r"(?<=\s)∧(?=\s)", ["∨"]), (r"(?<=\s)∨(?=\s)", ["∧"]), (r"(?<=\s)≠(?=\s)", ["="]),
    (r"\btrue\b", ["false"]), (r"\bfalse\b", ["true"]),
    (r"(?<![\w.])\d+(?![\w.])", ["+1"]), (r'"[A-Za-z0-9_\-]+"', ['"xx"']),
    (r"(?<=\s)\+(?=\s)", ["-"]), (r"(?<=\s)-(?=\s)", ["+"]), (r"\.notConfirmed\b", [".confirmed"]), (r"\.confirmed\b", [".revoked"]),
    (r"\.revoked\b", [".revived"]), (r"\.updatedNotConfirmed\b", [".updated"]), (r"\.updated\b", [".updatedNotConfirmed"]),
    (r"¬ ", [""]), (r"(?<=\s)\|\|(?=\s)", ["&&"]), (r"(?<=\s)&&(?=\s)", ["||"]), (r"!(?=[\w(])", [""]),
    (r"(?<=\s)/(?=\s)", ["*"]), (r"(?<=\s)%(?=\s)", ["/"]), (r"\bsome\b", []),
]

def mutants(path):
    text = open(path).read()
    lines = text.split("\n")
    incomment = False
    for kind, name, a, b in decls(text):
        if kind != "def": continue
        started = False
        for i in range(a, b + 1):
            l = lines[i]
            if l.startswith("/-"): break
            body = strip_comment(l)
            if not started:
                j = body.find(":=")
                if j >= 0: started, off = True, j + 2
                elif re.match(r"\s*\|", body): started, off = True, 0
                else: continue
            else: off = 0
            for pat, reps in RULES:
                for m in re.finditer(pat, body):
                    if m.start() < off: continue
                    for r in reps:
                        new = str(int(m.group(0)) + 1) if r == "+1" else r
                        if new == m.group(0): continue
                        yield name, i, l, l[:m.start()] + new + l[m.end():]
            # comparison in a condition
            if re.search(r"\bif\b|\bdecide\b|∧|∨", body):
                for m in re.finditer(r"(?<=\s)=(?=\s)", body):
                    if m.start() >= off: yield name, i, l, l[:m.start()] + "≠" + l[m.end():]

def build():
    p = subprocess.run(["lake", "build"], cwd=lean, capture_output=True, text=True)
    return p.returncode, p.stdout + p.stderr

def failures(out):
    res = {}
    for f, ln in re.findall(r"error: (?:\./)?(Verif/\S+\.lean):(\d+):\d+", out):
        t = open(os.path.join(lean, f)).read()
        for kind, name, a, b in decls(t):
            if a <= int(ln) - 1 <= b:
                res.setdefault((f, kind, name), 0)
    return list(res)

def run(path, name, text, newtext, desc, extra):
    full = os.path.join(lean, path)
    open(full, "w").write(newtext)
    try:
        code, out = build()
        fl = failures(out)
    finally:
        open(full, "w").write(text)
    invalid = any(f == path and k in ("def", "structure", "inductive", "abbrev", "instance") for f, k, n in fl)
    r = {"file": path, "definition": name, "edit": desc, "outcome": "invalid" if invalid else ("survived" if code == 0 else "failed"),
         "theorems_failed": [n if k != "example" else "example in " + f for f, k, n in fl]}
    r.update(extra)
    with open(result, "a") as g: g.write(json.dumps(r, ensure_ascii=False) + "\n")
    print(r["outcome"], path, name, desc[:100], r["theorems_failed"][:3], flush=True)

done = set()
if os.path.exists(result):
    for l in open(result):
        d = json.loads(l); done.add((d["file"], d["definition"], d["edit"]))

if sys.argv[3] == "--manual":
    for e in json.load(open(sys.argv[4])):
        full = os.path.join(lean, e["file"])
        text = open(full).read()
        if text.count(e["old"]) < 1: print("NOT FOUND", e["file"], e["old"][:60]); continue
        desc = f"{e['old']}  ==>  {e['new']}"
        if (e["file"], e["def"], desc) in done: continue
        if e.get("def"):
            i = text.index(e["def"]); j = text.index(e["old"], i)
            new = text[:j] + e["new"] + text[j + len(e["old"]):]
        else:
            new = text.replace(e["old"], e["new"], 1)
        run(e["file"], e["def"], text, new, desc, {"claim": e.get("claim", "")})
else:
    limit = int(os.environ.get("LIMIT", "0"))
    for path in sys.argv[3:]:
        text = open(os.path.join(lean, path)).read()
        lines = text.split("\n")
        ms = list(mutants(os.path.join(lean, path)))
        if limit and len(ms) > limit:
            random.seed(1); ms = random.sample(ms, limit)
        print(path, len(ms), flush=True)
        for name, i, old, new in ms:
            desc = f"{old.strip()}  ==>  {new.strip()}"
            if (path, name, desc) in done: continue
            newlines = lines[:]; newlines[i] = new
            run(path, name, text, "\n".join(newlines), desc, {})
