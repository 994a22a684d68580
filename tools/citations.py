#!/usr/bin/env python3
"""Lists the source lines of /repo/src that no definition of the model cites,
and citations outside the files.  Usage: citations.py [/repo]"""
import re, sys, pathlib
root = pathlib.Path(__file__).resolve().parent.parent
repo = pathlib.Path(sys.argv[1] if len(sys.argv) > 1 else "/repo")
lines = {str(f.relative_to(repo)): f.read_text().split("\n") for f in (repo / "src").rglob("*.rs")}
cited = {f: set() for f in lines}
bad = []
num = re.compile(r"\s*(\d+)(?:-(\d+))?")
for f in (root / "lean/Verif").rglob("*.lean"):
    text = f.read_text()
    for m in re.finditer(r"`?(src/[\w/]+\.rs):((?:\s*\d+(?:-\d+)?,?)+)", text):
        name = m.group(1)
        for a, b in re.findall(r"(\d+)(?:-(\d+))?", m.group(2)):
            a = int(a); b = int(b or a)
            if name not in lines or b > len(lines[name]) or a > b or a < 1:
                bad.append((f.name, name, a, b)); continue
            cited[name].update(range(a, b + 1))
for b in bad: print("BAD", *b)
for name in sorted(lines):
    run = []
    for i, l in enumerate(lines[name], 1):
        s = l.strip()
        if i in cited[name] or not s or s.startswith("//"): continue
        run.append(i)
    groups = []
    for i in run:
        if groups and i - groups[-1][1] <= 1: groups[-1][1] = i
        else: groups.append([i, i])
    print(name, "cited", len(cited[name]), "of", len(lines[name]), "uncited:",
          ", ".join(f"{a}-{b}" if a != b else str(a) for a, b in groups))
