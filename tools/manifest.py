#!/usr/bin/env python3
"""Regenerates MANIFEST.json from tools/claims.json and checks that every theorem named there exists."""
import json, re, glob, os
root = os.path.dirname(os.path.dirname(os.path.abspath(__file__)))
props = [json.loads(l)["id"] for l in open(f"{root}/properties.jsonl")]
thms = set()
for f in glob.glob(f"{root}/lean/Verif/**/*.lean", recursive=True):
    ns = []
    for line in open(f):
        m = re.match(r"namespace (\S+)", line)
        if m: ns.append(m.group(1))
        m = re.match(r"end (\S+)", line)
        if m and ns and ns[-1] == m.group(1): ns.pop()
        m = re.match(r"(?:private )?theorem (\S+)", line)
        if m: thms.add(".".join(ns + [m.group(1)]))
out = []
auto = {}
for t in sorted(thms):
    m = re.match(r"(?:\w+\.)*?(C\d\d+)_", t)
    if m and re.search(r"(^|\.)C\d\d+_", t):
        auto.setdefault(m.group(1), []).append(t)
claims = json.load(open(f"{root}/tools/claims.json"))
for pid in props:
    c = claims.get(pid)
    if c is None:
        continue
    names = c.get("theorems") or auto.get(pid, [])
    for n in names:
        assert n in thms, (pid, n)
    out.append({"property": pid, "status": c["status"], "theorems": names, "note": c.get("note", "")})
json.dump({"claims": out}, open(f"{root}/MANIFEST.json", "w"), indent=1)
print(len(out), "claims;", "missing:", [p for p in props if p not in claims])
