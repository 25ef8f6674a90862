#!/usr/bin/env python3
"""Apply wrong-program edits to a scratch copy of the model and record which theorems stop proving.

usage: mutate.py edits.json   (list of {file, old, new, definition, edit, claim, expect, log?})
The scratch copy lives in /tmp/scratch (never in /verif). Results go to stdout and, when an edit is
refuted, a line is appended to /verif/seeded/LOG.jsonl. An edit after which a definition of the model no longer
elaborates is reported as INVALID and not logged: no theorem has rejected it.
"""
import json, os, re, subprocess, sys

SCRATCH = "/tmp/scratch/lean"
LOG = "/verif/seeded/LOG.jsonl"


def theorem_at(path, line):
    name = kind = None
    with open(path) as f:
        for i, text in enumerate(f, 1):
            m = re.match(r"\s*(?:private )?(theorem|lemma|def|example|instance)\b\s*([^\s:({\[]*)", text)
            if m:
                name, kind = m.group(2) or m.group(1), m.group(1)
            if i >= line:
                break
    return name, kind


def main():
    edits = json.load(open(sys.argv[1]))
    os.makedirs("/tmp/scratch", exist_ok=True)
    subprocess.run("rm -rf /tmp/scratch/lean; cp -a /verif/lean /tmp/scratch/lean", shell=True, check=True)
    with open(f"{SCRATCH}/Verif.lean", "w") as f:
        for d, _, names in sorted(os.walk(f"{SCRATCH}/Verif")):
            for n in sorted(names):
                if n.endswith(".lean"):
                    f.write("import " + os.path.relpath(f"{d}/{n}", SCRATCH)[:-5].replace("/", ".") + "\n")
    for e in edits:
        path = f"{SCRATCH}/Verif/{e['file']}"
        src = open(path).read()
        if src.count(e["old"]) != 1:
            print("SKIP (old occurs %d times): %s" % (src.count(e["old"]), e["edit"]))
            continue
        open(path, "w").write(src.replace(e["old"], e["new"]))
        r = subprocess.run(["lake", "build"], cwd=SCRATCH, capture_output=True, text=True)
        out = r.stdout + r.stderr
        failed, mods, invalid = [], [], False
        for m in re.finditer(r"error: (Verif/\S+\.lean):(\d+):", out):
            t, kind = theorem_at(f"{SCRATCH}/{m.group(1)}", int(m.group(2)))
            invalid = invalid or (kind in ("def", "instance") and m.group(1).startswith("Verif/Model/"))
            label = f"{m.group(1)[6:-5].replace('/', '.')}:{t}"
            if label not in failed:
                failed.append(label)
        for m in re.finditer(r"^- (Verif\.\S+)", out, re.M):
            mods.append(m.group(1))
        # modules that could not be built because an import failed
        blocked = sorted(set(re.findall(r"bad import '?(\S+?)'", out)))
        print(("INVALID " if invalid else "KILLED " if r.returncode else "SURVIVED ") + e["edit"])
        for f in failed:
            print("    ", f)
        open(path, "w").write(src)
        if r.returncode and not invalid:
            with open(LOG, "a") as f:
                f.write(json.dumps({"definition": e["definition"], "edit": e["edit"], "claim": e["claim"],
                                    "failed": failed, "tightened": e.get("tightened", [])}) + "\n")
        sys.stdout.flush()


main()
