#!/usr/bin/env python3
"""Writes MANIFEST.json from the list below; fails when a named theorem is not found in the sources."""
import json, re, subprocess, pathlib
root = pathlib.Path(__file__).resolve().parent.parent
names = set()
for f in (root / "lean" / "Verif").rglob("*.lean"):
    names.update(re.findall(r"^(?:protected )?theorem ([\w.']+)", f.read_text(), re.M))
claims = json.loads((root / "tools" / "claims.json").read_text())
known = [json.loads(l)["id"] for l in (root / "properties.jsonl").read_text().splitlines() if l.strip()]
out = []
for pid in known:
    c = claims.get(pid)
    if c is None:
        continue
    for t in c["theorems"]:
        short = t.removeprefix("Phone.").removeprefix("Builtin.").removeprefix("Xml.").removeprefix("Lazy.").removeprefix("Shipped.").removeprefix("XmlReader.").removeprefix("Serde.").removeprefix("Postcard.").removeprefix("Nom.").removeprefix("Loader.")
        assert short in names, (pid, t)
    out.append({"property": pid, "status": c["status"], "theorems": c["theorems"], "note": c["note"]})
missing = [p for p in known if p not in claims]
(root / "MANIFEST.json").write_text(json.dumps({"claims": out}, indent=1) + "\n")
print("claims", len(out), "missing", missing)
