#!/usr/bin/env python3
"""Writes seeded/LOG.jsonl from /tmp/seed/results.jsonl and seeded/bugs*.json (last result of each bug; a bug that an older version
of the theorems missed carries the theorems that were tightened).  Lines already in the log for other bugs are kept."""
import json, os, pathlib
root = pathlib.Path(__file__).resolve().parent.parent
bugs = {b["id"]: b for f in sorted((root / "seeded").glob("bugs*.json")) for b in json.load(open(f))}
log = {}
path = root / "seeded" / "LOG.jsonl"
if path.exists():
    for l in open(path):
        if l.strip():
            d = json.loads(l); log[d["id"]] = d
if os.path.exists("/tmp/seed/results.jsonl"):
    for l in open("/tmp/seed/results.jsonl"):
        r = json.loads(l)
        b = bugs.get(r["id"])
        if b is None or r["status"] != "ok":
            continue
        e = b.get("edits") or [{"file": b["file"], "old": b["old"], "new": b["new"]}]
        log[r["id"]] = {
            "id": r["id"], "definition": b["definition"], "file": e[0]["file"], "edit": b["edit"],
            "old": e[0]["old"], "new": e[0]["new"], "claim": b["claims"],
            "failed": r["failed"], "not_caught": [c for c in b["claims"] if c not in {n.split("_")[0] for n in r["failed"]}], "tightened": b.get("tightened", [])}
with open(path, "w") as f:
    for k in sorted(log):
        f.write(json.dumps(log[k], ensure_ascii=False) + "\n")
print(len(log), "of", len(bugs), "missed:", [k for k in log if log[k]["not_caught"]])
