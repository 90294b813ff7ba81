#!/usr/bin/env python3
"""List every citation of /repo in the Lean sources, DESIGN.md and properties.jsonl with the
first and last cited source line, for checking by eye.  Exit 1 if a range leaves its file."""
import glob, os, re, sys
root = os.path.dirname(os.path.dirname(os.path.abspath(__file__)))
files = sorted(glob.glob(root + "/lean/Verif/**/*.lean", recursive=True))
files += [root + "/DESIGN.md", root + "/properties.jsonl"]
pat = re.compile(r"(?:/repo/)?((?:src|include|test|tests)/[\w./]+\.(?:cpp|hpp|h|f90|c)):(\d+(?:-\d+)?(?:,\s*\d+(?:-\d+)?)*)")
bad = 0
for f in files:
    text = open(f).read()
    for m in pat.finditer(text):
        path = "/repo/" + m.group(1)
        if not os.path.exists(path):
            print("MISSING", f, path); bad = 1; continue
        lines = open(path, errors="replace").read().split("\n")
        for r in re.split(r",\s*", m.group(2)):
            a, _, b = r.partition("-")
            a = int(a); b = int(b or a)
            if not 1 <= a <= b <= len(lines):
                print("RANGE", f, path, r); bad = 1; continue
            before = text[max(0, m.start() - 60):m.start()].replace("\n", " ")
            print(f"{os.path.basename(f)}|{before[-45:]}|{m.group(1)}:{r}|{lines[a-1].strip()[:50]}|{lines[b-1].strip()[:40]}")
sys.exit(bad)
