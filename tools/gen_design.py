#!/usr/bin/env python3
"""Writes DESIGN.md: the head, the modelled code, the disagreements, and the axioms of the theorems of the manifest."""
import glob, json, os, re, subprocess, sys
root = os.path.dirname(os.path.dirname(os.path.abspath(__file__)))
lean = os.path.join(root, "lean")
out = [open(os.path.join(root, "tools/design_head.md")).read().rstrip()]
props = {}
for l in open(os.path.join(root, "properties.jsonl")):
    p = json.loads(l); props[p["id"]] = p
man = json.load(open(os.path.join(root, "MANIFEST.json")))["claims"]

# 3. modelled code
out.append("\n## 3. Modelled code\n")
for f in sorted(glob.glob(os.path.join(lean, "Verif/*/*.lean"))):
    t = open(f).read()
    if f.endswith("Props.lean") or not re.search(r"^(def|structure|inductive)\b", t, re.M): continue
    m = re.search(r"/-!\s*\n(.*?)-/", t, re.S)
    if not m: continue
    n_d = len(re.findall(r"^(?:def|structure|inductive|abbrev)\b", t, re.M)); n_t = len(re.findall(r"^theorem\b", t, re.M))
    if n_t: continue
    doc = m.group(1).strip().split("\n\n", 1)
    title = " ".join(doc[0].lstrip("# ").split())
    rel = os.path.relpath(f, lean)
    out.append(f"### `{rel}`\n\n{title} ({n_d} definitions).")
    if len(doc) > 1: out.append("\n" + doc[1].strip())
    fns = []
    for c in re.findall(r"/--(.*?)-/", t, re.S):
        for fn in re.findall(r"[0-9]`?,? `([A-Za-z_][A-Za-z_0-9.]*)`|^\s*`([A-Za-z_][A-Za-z_0-9.]*)` \([0-9]", c):
            n = fn[0] or fn[1]
            if n not in fns and not n.endswith(".py"): fns.append(n)
    if fns: out.append("\nFunctions: " + ", ".join(f"`{n}`" for n in fns) + ".")
    out.append("")

# 4. disagreements
docs = {}
where = {}
for f in glob.glob(os.path.join(lean, "Verif/**/*.lean"), recursive=True):
    t = open(f).read()
    ns = re.search(r"^namespace (\S+)", t, re.M)
    for m in re.finditer(r"/--((?:(?!-/).)*?)-/\s*(?:@\[[^\]]*\]\s*)?(?:omit [^\n]* in\s*)?(?:set_option [^\n]* in\s*)?(?:theorem)\s+(\S+)", t, re.S):
        docs[m.group(2)] = " ".join(m.group(1).split())
        where[m.group(2)] = os.path.relpath(f, lean)
out.append("## 4. Disagreements between code and claim\n")
out.append("Every entry is a theorem; its file is given. The claim that remains true of the code is in the theorems of the\nmanifest that are not listed here.\n")
n = 0
for c in sorted(man, key=lambda c: int(c['property'][1:])):
    ref = [x for x in c["theorems"] if x.endswith("_refuted") or "_refuted_" in x]
    if not ref: continue
    p = props[c["property"]]
    out.append(f"**{p['id']}. {p['title']}.** Claim: {p['statement']}\n")
    for x in ref:
        n += 1
        s = x.split(".")[-1]
        d = re.sub(r"^\*\*[^*]*\*\*[\s:]*", "", docs.get(s, ""))
        d = re.sub(r"^C\d+,? \(?refuted[^:]*:\s*", "", d)
        d = d[:1].upper() + d[1:]
        out.append(f"* `{s}` (`{where.get(s, '?')}`): {d}")
    if c.get("note"): out.append(f"\n  Status `{c['status']}`: {c['note']}")
    out.append("")

# 5. axioms
names = sorted({x for c in man for x in c["theorems"]})
src = "import Verif\n" + "\n".join(f"#print axioms {x}" for x in names)
tmp = "/tmp/axioms_audit.lean"
open(tmp, "w").write(src)
r = subprocess.run(["lake", "env", "lean", tmp], cwd=lean, capture_output=True, text=True)
txt = re.sub(r"\n\s+", " ", r.stdout)
groups = {}
for l in txt.split("\n"):
    m = re.match(r"'(\S+)' depends on axioms: \[(.*)\]", l)
    if m: groups.setdefault(tuple(sorted(x.strip() for x in m.group(2).split(","))), []).append(m.group(1))
    else:
        m = re.match(r"'(\S+)' does not depend on any axioms", l)
        if m: groups.setdefault((), []).append(m.group(1))
tot = sum(len(v) for v in groups.values())
if tot != len(names):
    print("axioms: only", tot, "of", len(names)); print(r.stdout[-2000:], r.stderr[-2000:])
out.append("## 5. Axiom audit\n")
out.append(f"`#print axioms` for the {tot} theorems of the manifest:\n")
for k in sorted(groups, key=lambda k: (len(k), k)):
    out.append(f"* {', '.join(f'`{a}`' for a in k) or 'no axioms'} ({len(groups[k])}): " + ", ".join(x.split(".")[-1] for x in sorted(groups[k])) + ".")
open(os.path.join(root, "DESIGN.md"), "w").write("\n".join(out) + "\n")
print(n, "disagreements,", tot, "theorems,", {k: len(v) for k, v in groups.items()})
