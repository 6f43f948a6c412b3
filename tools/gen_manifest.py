#!/usr/bin/env python3
"""Collect the property theorems (`theorem Cnn_...` in lean/Verif/Props) into MANIFEST.json."""
import json, os, re, collections
root = os.path.dirname(os.path.dirname(os.path.abspath(__file__)))
props = [json.loads(l)["id"] for l in open(os.path.join(root, "properties.jsonl"))]
meta = json.load(open(os.path.join(root, "tools", "manifest_notes.json")))
thms = collections.defaultdict(list)
pdir = os.path.join(root, "lean", "Verif", "Props")
for fn in sorted(os.listdir(pdir)):
    if not fn.endswith(".lean"):
        continue
    ns = []
    for line in open(os.path.join(pdir, fn)):
        m = re.match(r"namespace (\S+)", line)
        if m:
            ns.append(m.group(1))
        m = re.match(r"end (\S+)", line)
        if m and ns and ns[-1] == m.group(1):
            ns.pop()
        m = re.match(r"theorem (C\d\d)(_\S*)", line)
        if m:
            thms[m.group(1)].append(".".join(ns + [m.group(1) + m.group(2)]))
claims = []
for p in props:
    if not thms[p] and meta.get(p, {}).get("status") != "not_applicable":
        continue
    m = meta.get(p, {})
    st = m.get("status", "proved")
    claims.append({"property": p, "status": st, "theorems": thms[p], "note": m.get("note", "")})
json.dump({"claims": claims}, open(os.path.join(root, "MANIFEST.json"), "w"), indent=1, ensure_ascii=False)
print(len(claims), "claims,", sum(len(c["theorems"]) for c in claims), "theorems; missing:",
      [p for p in props if p not in [c["property"] for c in claims]])
