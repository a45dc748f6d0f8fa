#!/usr/bin/env python3
"""Write MANIFEST.json from the theorem names in lean/Verif/Props and the notes below.

A property is "partial" if one of its theorems is named `_partial` and the note table does not
override it.
"""
import glob
import json
import os
import re

ROOT = os.path.dirname(os.path.dirname(os.path.abspath(__file__)))
NOTES = json.load(open(os.path.join(ROOT, "tools", "notes.json")))

names = {}
for path in sorted(glob.glob(os.path.join(ROOT, "lean/Verif/Props/*.lean"))):
    for m in re.finditer(r"^theorem (C(\d\d)_\w+)", open(path).read(), re.M):
        names.setdefault("C" + m.group(2), []).append("Ansak.Props." + m.group(1))

claims = []
for line in open(os.path.join(ROOT, "properties.jsonl")):
    pid = json.loads(line)["id"]
    note = NOTES.get(pid, {})
    thms = names.get(pid, [])
    if not thms:
        continue
    status = note.get("status") or (
        "partial" if any(t.endswith("_partial") for t in thms) else "proved")
    claims.append({"property": pid, "status": status, "theorems": thms,
                   "note": note.get("note", "")})
json.dump({"claims": claims}, open(os.path.join(ROOT, "MANIFEST.json"), "w"), indent=1,
          ensure_ascii=False)
print(len(claims), "claims;", sum(c["status"] == "proved" for c in claims), "proved")
