#!/usr/bin/env python3
"""usage: note.py Cnn status "note"  — set the manifest note of a property, then regenerate MANIFEST.json."""
import json, os, sys, subprocess
root = os.path.dirname(os.path.dirname(os.path.abspath(__file__)))
p = os.path.join(root, "tools", "manifest_notes.json")
d = json.load(open(p))
a = sys.argv[1:]
while a:
    d[a[0]] = {"status": a[1], "note": a[2]}
    a = a[3:]
with open(p, "w") as f:
    f.write("{\n" + ",\n".join(f" {json.dumps(k)}: {json.dumps(d[k], ensure_ascii=False)}" for k in sorted(d)) + "\n}\n")
subprocess.run([sys.executable, os.path.join(root, "tools", "gen_manifest.py")], check=True)
