#!/usr/bin/env python3
"""Writes AXIOMS.md: for every theorem named in MANIFEST.json the axioms it depends on, as reported by Lean (needs a finished build)."""
import json, re, subprocess, pathlib, tempfile
root = pathlib.Path(__file__).resolve().parent.parent
claims = json.loads((root / "MANIFEST.json").read_text())["claims"]
names = []
for c in claims:
    for t in c["theorems"]:
        if t not in names:
            names.append(t)
with tempfile.NamedTemporaryFile("w", suffix=".lean", delete=False) as f:
    f.write("import Verif\n" + "".join(f"#print axioms {n}\n" for n in names))
out = subprocess.run(["lake", "env", "lean", f.name], cwd=root / "lean", capture_output=True, text=True).stdout
found = {}
for m in re.finditer(r"'([^']+)' (?:depends on axioms: \[([^\]]*)\]|does not depend on any axioms)", out):
    found[m.group(1)] = " ".join((m.group(2) or "none").split())
lines = ["# Axioms of the claimed theorems", "", "Generated by `tools/axioms.py`.", "", "| theorem | axioms |", "|---|---|"]
for n in names:
    lines.append(f"| `{n}` | {found[n]} |")
(root / "AXIOMS.md").write_text("\n".join(lines) + "\n")
print(len(names), sorted(set(found.values())))
