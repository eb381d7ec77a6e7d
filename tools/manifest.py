#!/usr/bin/env python3
"""Writes MANIFEST.json and lean/Verif/Axioms.lean from tools/claims.json.

claims.json: list of {property, status, module_theorems: [...], note}.
Checks that every named theorem occurs in a Lean source file and that every
property of properties.jsonl has a claim."""
import json, re, pathlib, sys
root = pathlib.Path(__file__).resolve().parent.parent
claims = json.load(open(root / "tools/claims.json"))
props = [json.loads(l)["id"] for l in open(root / "properties.jsonl") if l.strip()]
names = set(); mod = {}
for f in sorted((root / "lean/Verif").rglob("*.lean")):
    if f.name == "Axioms.lean": continue
    ns = []
    for line in open(f):
        m = re.match(r"namespace (\S+)", line)
        if m: ns.append(m.group(1))
        m = re.match(r"end (\S+)", line)
        if m and ns and ns[-1] == m.group(1): ns.pop()
        m = re.match(r"(?:private )?theorem (\S+)", line)
        if m:
            n = ".".join(ns + [m.group(1)]); names.add(n)
            mod[n] = ".".join(f.relative_to(root / "lean").with_suffix("").parts)
bad = [t for c in claims for t in c["theorems"] if t not in names]
missing = [p for p in props if p not in {c["property"] for c in claims}]
if bad: print("unknown theorems:", bad)
if missing: print("properties without claim:", missing)
json.dump({"claims": [{k: c[k] for k in ("property", "status", "theorems", "note")} for c in claims]},
          open(root / "MANIFEST.json", "w"), indent=1, ensure_ascii=False)
ts = [t for c in claims for t in c["theorems"]]
with open(root / "lean/Verif/Axioms.lean", "w") as o:
    for m in sorted({mod[t] for t in ts if t in mod}): o.write(f"import {m}\n")
    o.write("\n/-! The axioms of every property theorem, printed during the build. -/\n\n")
    for t in dict.fromkeys(ts): o.write(f"#print axioms {t}\n")
# property-like theorems not claimed
un = [n for n in sorted(names) if re.match(r"C\d\d", n.split(".")[-1]) and n not in ts]
if un: print("unclaimed:", un)
sys.exit(1 if bad else 0)
