#!/usr/bin/env python3
"""Regenerates MANIFEST.json from the theorem names in lean/Verif/Props (theorem Cxx_... in the namespace open there)."""
import re, json, glob, os
root = os.path.dirname(os.path.dirname(os.path.abspath(__file__)))
notes = {}
nf = os.path.join(root, "tools", "notes.json")
if os.path.exists(nf): notes = json.load(open(nf))
th = {}
for fn in sorted(glob.glob(root + "/lean/Verif/Props/**/*.lean", recursive=True)):
    ns = []
    for line in open(fn):
        m = re.match(r"namespace (\S+)", line)
        if m: ns.append(m.group(1)); continue
        m = re.match(r"end (\S+)", line)
        if m and ns and ns[-1] == m.group(1): ns.pop(); continue
        m = re.match(r"theorem ((C\d\d+)_\S+)", line)
        if m: th.setdefault(m.group(2), []).append(".".join(ns + [m.group(1)]))
claims = []
for line in open(root + "/properties.jsonl"):
    pid = json.loads(line)["id"]
    names = th.get(pid, [])
    if not names:
        if pid in notes and notes[pid].get("status") == "not_applicable":
            claims.append({"property": pid, "status": "not_applicable", "theorems": [], "note": notes[pid]["note"]})
        continue
    n = notes.get(pid, {})
    status = n.get("status") or ("partial" if any(x.endswith("_partial") for x in names) else "proved")
    claims.append({"property": pid, "status": status, "theorems": names, "note": n.get("note", "")})
json.dump({"claims": claims}, open(root + "/MANIFEST.json", "w"), indent=1)
print(len(claims), "claims", sum(len(c["theorems"]) for c in claims), "theorems; missing:",
      [json.loads(l)["id"] for l in open(root + "/properties.jsonl") if json.loads(l)["id"] not in {c["property"] for c in claims}])
