#!/usr/bin/env python3
"""Append to seeded/LOG.jsonl the results of seed.py.

    log.py MUTANTS.py RESULTS.jsonl

Mutants already in the log under the same name are left out."""
import json, pathlib, sys
root = pathlib.Path(__file__).resolve().parent.parent
ns = {}
exec(open(sys.argv[1]).read(), ns)
mutants = {m["name"]: m for m in ns["MUTANTS"]}
log = root / "seeded/LOG.jsonl"
seen = {json.loads(l)["name"] for l in log.read_text().splitlines() if l.strip()} if log.exists() else set()
with log.open("a") as out:
    for line in open(sys.argv[2]):
        r = json.loads(line)
        if r["name"] in seen or "problem" in r:
            continue
        m = mutants[r["name"]]
        survivors = [e for e in m.get("expect", []) if e not in r["failed"]]
        if survivors:
            print(r["name"], "survives", survivors)
        out.write(json.dumps({"name": m["name"], "file": m.get("file") or [e[0] for e in m["edits"]],
            "definition": m["definition"], "edit": m["edit"], "breaks": m["breaks"],
            "first_to_fail": r["declarations"], "failed": r["failed"],
            "tightened": m.get("tightened", [])}, ensure_ascii=False) + "\n")
