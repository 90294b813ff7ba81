#!/usr/bin/env python3
# Generates lean/Verif/Model/EllInit3D.lean from the text of /repo/src/ell.cpp (ell_init_3D).
import re
L = open("/repo/src/ell.cpp").read().split("\n")
start = next(i for i,l in enumerate(L) if l.startswith("void ell_init_3D"))
out = []
blocks = []   # (name, line0, line1, loops, nodargs, entries)
i = start
cur = None
loops = []
while i < len(L):
    l = L[i].strip()
    m = re.match(r"for \(int ([ijk]) = 1; \1 < (n[xyz]) - 1; \1\+\+\) \{", l)
    if l.startswith("// ") : 
        if cur: blocks.append(cur)
        cur = dict(cm=l[3:], l0=i+1, loops=[], ent={})
    elif m: cur["loops"].append((m.group(1), m.group(2)))
    elif l.startswith("nn = nod_index("):
        cur["nod"] = [a.strip() for a in re.match(r"nn = nod_index\((.*)\);", l).group(1).split(",")]
    elif l.startswith("mcols = "): assert l == "mcols = &(m->cols[nn * nFields * nnz]);"
    elif l.startswith("for (int d"): assert re.match(r"for \(int (d[12]) = 0; \1 < nFields; \1\+\+\) \{", l)
    elif l.startswith("mcols["):
        m = re.match(r"mcols\[(\d+) \* nFields \+ nnz \* d1 \+ d2\] = (.*);", l)
        s, e = int(m.group(1)), m.group(2)
        assert s == len(cur["ent"])
        if e == "0": cur["ent"][s] = None
        else:
            m2 = re.match(r"\((.*)\) \* nFields \+ d2$", e)
            assert m2, e
            cur["ent"][s] = m2.group(1)
        cur["l1"] = i+1
    i += 1
blocks.append(cur)
assert len(blocks) == 27
def nm(k): return "stencil3D_%02d" % k
o = []
o.append("""import Verif.Model.Ell

/-!
# ell_init_3D

Generated by /verif/tools/gen_init3d.py from the text of /repo/src/ell.cpp.  Each table lists
the right-hand sides of the 27 assignments `mcols[s * nFields + nnz * d1 + d2] = ...` of one
loop nest: `none` for `0`, `some e` for `(e) * nFields + d2`.
-/

namespace Verif
""")
for k,b in enumerate(blocks):
    o.append("/-- %s: /repo/src/ell.cpp:%d-%d. -/" % (b["cm"], b["l0"], b["l1"]+2+len(b["loops"])))
    o.append("def %s (nn nx ny : Int) : List (Option Int) :=" % nm(k))
    ents = []
    for s in range(27):
        e = b["ent"][s]
        ents.append("none" if e is None else "some (%s)" % e)
    lines = []
    for r in range(9):
        lines.append(", ".join(ents[3*r:3*r+3]))
    o.append("  [" + ",\n   ".join(lines) + "]\n")
o.append("""/-- /repo/src/ell.cpp:865-1876 (`ell_init_3D`).  `jc`, `jv` are the contents of the two
freshly malloc'ed blocks.  `n - 1`, `n - 2` are natural-number subtractions; the sizes are `>= 1`. -/
def ellInit3D {α : Type} (jc : Nat → Int) (jv : Nat → α) (nF nx ny nz : Nat) : M (Ell α) := do
  let nn := nx * ny * nz
  let nnz := 27 * nF
  let nrow := nn * nF
  let c : Buf Int := ⟨nnz * nrow, jc⟩""")
for k,b in enumerate(blocks):
    nod = ", ".join(b["nod"])
    args = " ".join(a if re.match(r"^\w+$", a) else "(%s)" % a for a in b["nod"])
    o.append("  -- %s" % b["cm"])
    body = "fillNode nF nnz (nodIndex nx ny %s) (%s (nodIndex nx ny %s : Nat) nx ny)" % (args, nm(k), args)
    s = body
    if not b["loops"]:
        o.append("  let c ← %s c" % body)
    else:
        ind = "  let c ← "
        s = ""
        for v,n in b["loops"]:
            s += "loopFrom 1 (%s - 1) (fun %s c => " % (n, v)
        s += "\n    " + body + " c"
        s += "".join(") c" for _ in b["loops"])
        o.append(ind + s)
o.append("""  pure { nrow := nrow, ncol := nrow, nnz := nnz, cols := c, vals := ⟨nnz * nrow, jv⟩ }

end Verif""")
open("/verif/lean/Verif/Model/EllInit3D.lean","w").write("\n".join(o)+"\n")
