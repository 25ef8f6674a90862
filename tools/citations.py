#!/usr/bin/env python3
"""Check the citations in the comments of the model against /repo: each cited file must be unambiguous and long enough, and a
range cited for a backticked function must lie near that function.  With --list, print the cited lines per file."""
import ast, glob, os, re, sys
SRC = "/repo/kasa/"
ROOT = os.path.dirname(os.path.dirname(os.path.abspath(__file__)))
files = [os.path.relpath(f, SRC) for f in glob.glob(SRC + "**/*.py", recursive=True)]

def resolve(name):
    if name.startswith("kasa/"):
        n = name[5:]
        return [n] if n in files else []
    hits = [f for f in files if f == name or f.endswith("/" + name)]
    if len(hits) > 1 and name in files:
        hits = [name]
    return hits

defs = {}
def spans(f):
    if f not in defs:
        d = {}
        for node in ast.walk(ast.parse(open(SRC + f).read())):
            if isinstance(node, (ast.FunctionDef, ast.AsyncFunctionDef, ast.ClassDef)):
                start = min([node.lineno] + [x.lineno for x in node.decorator_list])
                d.setdefault(node.name, []).append((start, node.end_lineno))
        defs[f] = d
    return defs[f]

problems, cited = [], {}
for path in sorted(glob.glob(ROOT + "/lean/Verif/**/*.lean", recursive=True)):
    text = open(path).read()
    for c in re.finditer(r"/-[-!](.*?)-/", text, re.S):
        comment = c.group(1)
        line = text[:c.start()].count("\n") + 1
        where = f"{os.path.relpath(path, ROOT + '/lean/Verif')}:{line}"
        for m in re.finditer(r"((?:[a-z_]+/)*[a-z_]+\.py):(\d+(?:-\d+)?(?:, ?\d+(?:-\d+)?)*)", comment):
            hits = resolve(m.group(1))
            if len(hits) != 1:
                problems.append(f"{where}: {m.group(1)} -> {hits}")
                continue
            f = hits[0]
            ranges = []
            for r in re.split(r", ?", m.group(2)):
                a, _, b = r.partition("-")
                ranges.append((int(a), int(b or a)))
            cited.setdefault(f, []).extend((a, b, where) for a, b in ranges)
            n = sum(1 for _ in open(SRC + f))
            for a, b in ranges:
                if b > n or a > b:
                    problems.append(f"{where}: {f}:{a}-{b} of {n} lines")
            before = comment[:m.start()].split(".py:")[-1]
            syms = [x.split("(")[0].split(".")[-1] for x in re.findall(r"`([A-Za-z_][\w.]*(?:\(\))?)`", before)]
            for s in syms[-1:]:
                if s in spans(f):
                    ok = any(max(a, x) <= min(b, y) and a >= x - 2 and b <= y + 2 for a, b in ranges for x, y in spans(f)[s])
                    if not ok:
                        problems.append(f"{where}: {s} cited at {m.group(2)} but {f} has it at {spans(f)[s]}")
if "--list" in sys.argv:
    for f in sorted(cited):
        ls = sorted({(a, b) for a, b, _ in cited[f]})
        merged = []
        for a, b in ls:
            if merged and a <= merged[-1][1] + 1:
                merged[-1][1] = max(b, merged[-1][1])
            else:
                merged.append([a, b])
        mods = sorted({w.split(":")[0] for _, _, w in cited[f]})
        print(f"| {f} | {', '.join(f'{a}-{b}' if a != b else str(a) for a, b in merged)} | {', '.join(m.replace('.lean','') for m in mods)} |")
else:
    print("\n".join(problems) or "ok")
