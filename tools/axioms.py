#!/usr/bin/env python3
"""Writes AXIOMS.md: the axioms every theorem of MANIFEST.json depends on, as printed by Lean. Run after `lake build`."""
import json, os, re, subprocess, tempfile
root = os.path.dirname(os.path.dirname(os.path.abspath(__file__)))
names = sorted({t for c in json.load(open(f"{root}/MANIFEST.json"))["claims"] for t in c["theorems"]})
with tempfile.NamedTemporaryFile("w", suffix=".lean", delete=False) as f:
    f.write("import Verif\n" + "".join(f"#print axioms {n}\n" for n in names))
out = subprocess.run(["lake", "env", "lean", f.name], cwd=f"{root}/lean", capture_output=True, text=True).stdout
out = re.sub(r",\s+", ", ", out)
by = {}
for m in re.finditer(r"'(\S+)' (?:depends on axioms: \[([^\]]*)\]|does not depend on any axioms)", out):
    by.setdefault(m.group(2) or "none", []).append(m.group(1))
assert sum(map(len, by.values())) == len(names), out[:2000]
with open(f"{root}/AXIOMS.md", "w") as f:
    f.write("# Axioms\n\nGenerated by `tools/axioms.py` from Lean's `#print axioms`.\n")
    for ax in sorted(by):
        f.write(f"\n## {ax}\n\n" + "".join(f"* `{n}`\n" for n in by[ax]))
print({k: len(v) for k, v in by.items()})
