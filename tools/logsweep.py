#!/usr/bin/env python3
"""Append to seeded/LOG.jsonl the results of sweep.py.

    logsweep.py NAME BASE RESULTS.jsonl

BASE is the copy that was swept (SWEEP/base), NAME a prefix for the entries. Notes on
survivors are read from seeded/survivors.json."""
import json, pathlib, sys
sys.path.insert(0, str(pathlib.Path(__file__).parent))
from seed import decl_at
root = pathlib.Path(__file__).resolve().parent.parent
name, base, results = sys.argv[1], pathlib.Path(sys.argv[2]), sys.argv[3]
notes = json.loads((root / "seeded/survivors.json").read_text())
log = root / "seeded/LOG.jsonl"
seen = {json.loads(l)["name"] for l in log.read_text().splitlines() if l.strip()}
with log.open("a") as out:
    for k, line in enumerate(open(results), 1):
        r = json.loads(line)
        key = f"{name}-{k}"
        if key in seen:
            continue
        failed = []
        if r["error"] and ":" in r["error"]:
            f, ln = r["error"].rsplit(":", 1)
            lines = (base / f).read_text().split("\n")
            d = decl_at(lines, int(ln) - 1) if int(ln) <= len(lines) else None
            failed = [d[3] if d and d[3] else r["error"]]
        e = {"name": key, "file": r["file"], "definition": r["definition"],
             "edit": f"`{r['old'].strip()}` becomes `{r['new'].strip()}`",
             "breaks": f"what is claimed of {r['definition']} and its callers",
             "first_to_fail": failed, "failed": failed, "tightened": []}
        if r["error"] is None:
            n = notes.get(f"{r['definition']}: {r['new'].strip()}")
            if n is None:
                print("no note:", key, r["definition"], "|", r["old"].strip(), "|", r["new"].strip())
                continue
            e.update(n)
        out.write(json.dumps(e, ensure_ascii=False) + "\n")
