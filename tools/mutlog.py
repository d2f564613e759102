#!/usr/bin/env python3
"""Convert results of mutate.py into lines of seeded/LOG.jsonl.

usage: mutlog.py <first run> [<run after tightening>] [--notes <json: {"definition|edit": note}>]
An edit that survived the first run and fails now was caught by theorems added or tightened in between.
"""
import json, re, sys

args = [a for a in sys.argv[1:]]
notes = {}
if "--notes" in args:
    i = args.index("--notes")
    notes = json.load(open(args[i + 1]))
    del args[i:i + 2]
titles = {}
for l in open("/verif/properties.jsonl"):
    d = json.loads(l)
    titles[d["id"]] = d["title"]
def load(p):
    return {(d["file"], d["definition"], d["edit"]): d for d in map(json.loads, open(p))}
first = load(args[0])
last = load(args[1]) if len(args) > 1 else first
out = []
for key, d in last.items():
    if d["outcome"] == "invalid": continue
    failed = d["theorems_failed"]
    ids = sorted({m.group(1) for t in failed for m in [re.match(r"(C\d+)_", t)] if m}, key=lambda s: int(s[1:]))
    was = first.get(key, d)["outcome"]
    tight = failed if was == "survived" and d["outcome"] != "survived" else []
    if d.get("claim"): claim = d["claim"]
    elif ids: claim = "; ".join(f"{i}: {titles.get(i, '')}" for i in ids)
    elif failed: claim = "the claims that use the failing lemmas"
    else: claim = "none"
    e = {"definition": d["file"] + ": " + d["definition"], "edit": d["edit"], "claim": claim,
         "theorems_failed": failed, "theorems_tightened": tight}
    n = notes.get(d["definition"] + "|" + d["edit"])
    if n: e["note"] = n
    elif not failed: e["note"] = "survived"
    out.append(e)
with open("/verif/seeded/LOG.jsonl", "a") as f:
    for e in out: f.write(json.dumps(e, ensure_ascii=False) + "\n")
print(len(out), "lines;", sum(1 for e in out if e["theorems_tightened"]), "tightened;", sum(1 for e in out if not e["theorems_failed"]), "survived")
