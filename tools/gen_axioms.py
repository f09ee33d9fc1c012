#!/usr/bin/env python3
"""Writes AXIOMS.md: the axioms every claimed theorem depends on, as printed by Lean."""
import json, os, re, subprocess
root = os.path.join(os.path.dirname(os.path.abspath(__file__)), "..")
M = json.load(open(os.path.join(root, "MANIFEST.json")))["claims"]
names = [t for c in M for t in c["theorems"]]
src = "import Verif\nset_option linter.all false\n" + "".join(f"#print axioms Verif.Props.{t}\n" for t in names)
open("/tmp/axioms.lean", "w").write(src)
out = subprocess.run(["lake", "env", "lean", "/tmp/axioms.lean"], cwd=os.path.join(root, "lean"), capture_output=True, text=True).stdout
ax = {}
for m in re.finditer(r"'Verif\.Props\.(\S+)' (?:depends on axioms: \[([^\]]*)\]|does not depend on any axioms)", out):
    ax[m.group(1)] = ", ".join(x.strip() for x in (m.group(2) or "none").replace("\n", " ").split(","))
assert all(t in ax for t in names), [t for t in names if t not in ax][:5]
with open(os.path.join(root, "AXIOMS.md"), "w") as f:
    f.write("# Axioms of the claimed theorems\n\nGenerated by `tools/gen_axioms.py` from `#print axioms`.\n")
    for c in M:
        f.write(f"\n## {c['property']}\n\n")
        for t in c["theorems"]: f.write(f"* `{t}`: {ax[t]}\n")
print(len(names), sorted(set(ax.values())))
