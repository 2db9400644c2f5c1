#!/usr/bin/env python3
"""Writes MANIFEST.json: collects, for every property Cnn, the theorems named Cnn_* in lean/Verif/Props."""
import json, re, pathlib
root = pathlib.Path(__file__).resolve().parent.parent
props = [json.loads(l) for l in open(root / "properties.jsonl")]
notes = json.load(open(root / "tools" / "manifest_notes.json"))
thms = {}
for f in sorted((root / "lean/Verif/Props").glob("*.lean")):
    ns = "Poseidon."
    for m in re.finditer(r"^theorem (C(\d\d\d?)_[A-Za-z0-9_']+)", f.read_text(), re.M):
        thms.setdefault("C" + m.group(2), []).append(ns + m.group(1))
claims = []
for p in props:
    i = p["id"]
    n = notes.get(i, {})
    th = thms.get(i, []) + n.get("extra", [])
    if not th and "status" not in n:
        continue
    claims.append({"property": i, "status": n.get("status", "proved"), "theorems": th, "note": n.get("note", "")})
json.dump({"claims": claims}, open(root / "MANIFEST.json", "w"), indent=1)
missing = [p["id"] for p in props if p["id"] not in {c["property"] for c in claims}]
print("claims", len(claims), "missing", missing)
