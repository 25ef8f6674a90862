#!/usr/bin/env python3
"""Regenerate /verif/DESIGN.md from tools/design.md.  Needs a finished `lake build`."""
import glob, json, os, subprocess, sys
ROOT = os.path.dirname(os.path.dirname(os.path.abspath(__file__)))
sys.path.insert(0, os.path.join(ROOT, "tools"))
from axioms import axioms

def load(name):
    return json.load(open(os.path.join(ROOT, name)))

plan, claims = load("tools/plan.json"), {c["property"]: c for c in load("MANIFEST.json")["claims"]}
rows = ["| id | property | modelled and proved | status | remarks |", "|---|---|---|---|---|"]
for line in open(os.path.join(ROOT, "properties.jsonl")):
    p = json.loads(line)
    c = claims.get(p["id"], {"status": "open", "note": "", "theorems": []})
    rows.append(f"| {p['id']} | {p['title']} | {plan.get(p['id'], '')} | {c['status']}, {len(c['theorems'])} theorems | {c['note']} |")

listing = subprocess.run([sys.executable, os.path.join(ROOT, "tools/citations.py"), "--list"], capture_output=True, text=True).stdout.strip()
cited = {l.split("|")[1].strip() for l in listing.splitlines() if l.startswith("|")}
rest = []
for f in sorted(glob.glob("/repo/kasa/**/*.py", recursive=True)):
    rel = os.path.relpath(f, "/repo/kasa")
    if rel not in cited:
        n = sum(1 for _ in open(f))
        if not rel.endswith("__init__.py"):
            rest.append(f"{rel} ({n})")
groups = {}
for r in rest:
    groups.setdefault(os.path.dirname(r) or ".", []).append(os.path.basename(r))
unmodelled = "\n".join(f"* `{d}/`: " + ", ".join(v) for d, v in sorted(groups.items()))
ax = "\n".join(f"  * {k} ({len(v)}): " + ", ".join(n.removeprefix("Kasa.") for n in v) for k, v in sorted(axioms().items()))
text = open(os.path.join(ROOT, "tools/design.md")).read()
for k, v in {"PROPERTIES": "\n".join(rows), "MODELLED": "| source | lines | model |\n|---|---|---|\n" + listing, "UNMODELLED": unmodelled, "AXIOMS": ax}.items():
    text = text.replace(f"@{k}@", v)
open(os.path.join(ROOT, "DESIGN.md"), "w").write(text)
