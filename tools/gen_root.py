#!/usr/bin/env python3
"""Write lean/Verif.lean so that it imports every module under lean/Verif."""
import os
root = os.path.join(os.path.dirname(__file__), "..", "lean")
mods = []
for d, _, fs in os.walk(os.path.join(root, "Verif")):
    for f in fs:
        if f.endswith(".lean"):
            p = os.path.relpath(os.path.join(d, f), root)
            mods.append(p[:-5].replace("/", "."))
with open(os.path.join(root, "Verif.lean"), "w") as o:
    for m in sorted(mods):
        o.write("import %s\n" % m)
