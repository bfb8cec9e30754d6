#!/usr/bin/env python3
"""Add to the entries of seeded/LOG.jsonl the theorems refute.py refuted.

    logrefuted.py RESULTS.jsonl

Each entry gets the key "refuted": theorems whose statement was proved false
under the edit."""
import json, pathlib, sys
log = pathlib.Path(__file__).resolve().parent.parent / "seeded/LOG.jsonl"
entries = [json.loads(l) for l in log.read_text().splitlines() if l.strip()]
known = {e["name"]: e for e in entries}
for line in open(sys.argv[1]):
    r = json.loads(line)
    if "refuted" not in r:
        continue
    e = known[r["name"]]
    if r["refuted"] not in e["failed"]:
        # the theorem is newer than the entry
        e["failed"] = sorted(e["failed"] + [r["refuted"]])
    e["refuted"] = sorted(set(e.get("refuted", [])) | {r["refuted"]})
log.write_text("".join(json.dumps(e, ensure_ascii=False) + "\n" for e in entries))
