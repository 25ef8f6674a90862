"""Regenerate /verif/MANIFEST.json from the theorem names in lean/Verif/Props.

A property is "partial" when one of its theorems has the suffix _partial, "proved" when it has theorems and none has
it, and "not_applicable" when NOTES says so.  Notes come from tools/notes.json.
"""
import glob
import json
import re

root = "/verif/"
notes = json.load(open(root + "tools/notes.json"))
theorems = {}
for path in sorted(glob.glob(root + "lean/Verif/Props/*.lean")):
    stack = []
    for line in open(path):
        if m := re.match(r"namespace\s+(\S+)", line):
            stack.append(m[1])
        elif re.match(r"(noncomputable )?section\b|mutual\b", line):
            stack.append(None)
        elif re.match(r"end\b", line):
            if stack:
                stack.pop()
        elif m := re.match(r"theorem\s+((C\d+)_\w+)", line):
            theorems.setdefault(m[2], []).append(".".join([n for n in stack if n] + [m[1]]))
claims = []
for line in open(root + "properties.jsonl"):
    cid = json.loads(line)["id"]
    names = theorems.get(cid, [])
    if not names:
        if cid in notes and notes[cid].startswith("n/a:"):
            claims.append({"property": cid, "status": "not_applicable", "theorems": [], "note": notes[cid][4:].strip()})
        continue
    status = "partial" if any(n.endswith("_partial") for n in names) else "proved"
    claims.append({"property": cid, "status": status, "theorems": names, "note": notes.get(cid, "")})
json.dump({"claims": claims}, open(root + "MANIFEST.json", "w"), indent=1)
print({c["property"]: (c["status"], len(c["theorems"])) for c in claims})
