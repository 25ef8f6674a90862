#!/usr/bin/env python3
"""Print the axioms each theorem of MANIFEST.json depends on, grouped, as Markdown.  Needs a finished `lake build`."""
import json, os, re, subprocess, tempfile
ROOT = os.path.dirname(os.path.dirname(os.path.abspath(__file__)))
LEAN = os.path.join(ROOT, "lean")

def axioms():
    names = [t for c in json.load(open(os.path.join(ROOT, "MANIFEST.json")))["claims"] for t in c["theorems"]]
    src = "import Verif\n" + "".join(f"#print axioms {n}\n" for n in names)
    with tempfile.NamedTemporaryFile("w", suffix=".lean", delete=False) as f:
        f.write(src)
    out = subprocess.run(["lake", "env", "lean", f.name], cwd=LEAN, capture_output=True, text=True).stdout
    os.unlink(f.name)
    out = re.sub(r"\n\s+", " ", out)
    groups = {}
    for m in re.finditer(r"'([^']+(?:'[^' ]*)*)' (?:depends on axioms: \[([^\]]*)\]|does not depend on any axioms)", out):
        key = ", ".join(sorted(a.strip() for a in (m.group(2) or "").split(",") if a.strip())) or "none"
        groups.setdefault(key, []).append(m.group(1))
    assert sum(len(v) for v in groups.values()) == len(names), (sum(len(v) for v in groups.values()), len(names))
    return groups

if __name__ == "__main__":
    for k, v in sorted(axioms().items()):
        print(f"* axioms: {k} ({len(v)} theorems): " + ", ".join(n.removeprefix("Kasa.") for n in v))
