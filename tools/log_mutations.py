#!/usr/bin/env python3
"""Append records of a mutation run (one JSON object per line) to seeded/LOG.jsonl.
usage: log_mutations.py records.jsonl [tightened.json]
tightened.json maps "definition|edit" to the list of theorems added or strengthened because the edit survived."""
import json, sys, os
root = os.path.dirname(os.path.dirname(os.path.abspath(__file__)))
tight = json.load(open(sys.argv[2])) if len(sys.argv) > 2 else {}
with open(os.path.join(root, "seeded/LOG.jsonl"), "a") as out:
    for l in open(sys.argv[1]):
        r = json.loads(l)
        r["theorems_tightened"] = tight.get(r["definition"] + "|" + r["edit"], [])
        out.write(json.dumps(r, ensure_ascii=False) + "\n")
