#!/usr/bin/env python3
"""Write lean/Verif/Model/ShabalTables.lean from /repo/shabal/src (initial values, index table of perm_blocks)."""
import re, os
root = os.path.dirname(os.path.dirname(os.path.abspath(__file__)))
src = open("/repo/shabal/src/core_api.rs").read()
rows = [re.findall(r"\d+", re.sub(r"m\[", "", l)) for l in re.findall(r"self\.perm_elt\(([^)]*)\);", src)]
assert len(rows) == 48 and all(len(r) == 8 for r in rows)
con = open("/repo/shabal/src/consts.rs").read().replace("_", "")
out = ["import Verif.Base.Vec", "/- Generated by tools/gen_shabal.py from /repo/shabal/src. -/", "namespace Hashes.Shabal", "",
       "/-- Arguments of the 48 calls in `perm_blocks`, core_api.rs:93-142: `xa0, xa1, xb0, xb1, xb2, xb3, xc0`, index into `m`. -/",
       "def permTable : List (List Nat) := ["]
out.append(",\n".join("  [" + ", ".join(r) + "]" for r in rows) + "]\n")
for n in ("192", "224", "256", "384", "512"):
    body = re.search(r"INIT%s: .*? = \((.*?)\);" % n, con, re.S).group(1)
    nums = re.findall(r"0x[0-9A-Fa-f]+", body)
    assert len(nums) == 44
    ln = open("/repo/shabal/src/consts.rs").read().split("\n")
    at = next(i for i, l in enumerate(ln) if "INIT_" + n in l) + 1
    for nm, a, b in (("A", 0, 12), ("B", 12, 28), ("C", 28, 44)):
        out.append("/-- `INIT_%s`, consts.rs:%d, component %s -/" % (n, at, nm))
        ws = nums[a:b]
        out.append("def init%s%s : List W32 := [" % (n, nm))
        out.append(",\n".join("  " + ", ".join(ws[i:i+4]) for i in range(0, len(ws), 4)) + "]")
out.append("\nend Hashes.Shabal")
open(os.path.join(root, "lean/Verif/Model/ShabalTables.lean"), "w").write("\n".join(out) + "\n")
