import Verif.Model.Ell

/-!
# ell_init_3D

Generated by /verif/tools/gen_init3d.py from the text of /repo/src/ell.cpp.  Each table lists
the right-hand sides of the 27 assignments `mcols[s * nFields + nnz * d1 + d2] = ...` of one
loop nest: `none` for `0`, `some e` for `(e) * nFields + d2`.
-/

namespace Verif

/-- x=0 y=0 z=0: /repo/src/ell.cpp:878-911. -/
def stencil3D_00 (nn nx ny : Int) : List (Option Int) :=
  [none, none, none,
   none, none, none,
   none, none, none,
   none, none, none,
   none, some (nn), some (nn + 1),
   none, some (nn + nx), some (nn + nx + 1),
   none, none, none,
   none, some (nn + (nx * ny)), some (nn + (nx * ny) + 1),
   none, some (nn + (nx * ny) + nx), some (nn + (nx * ny) + nx + 1)]

/-- x=lx y=0 z=0: /repo/src/ell.cpp:913-946. -/
def stencil3D_01 (nn nx ny : Int) : List (Option Int) :=
  [none, none, none,
   none, none, none,
   none, none, none,
   none, none, none,
   some (nn - 1), some (nn), none,
   some (nn + nx - 1), some (nn + nx), none,
   none, none, none,
   some (nn + (nx * ny) - 1), some (nn + (nx * ny)), none,
   some (nn + (nx * ny) + nx - 1), some (nn + (nx * ny) + nx), none]

/-- x=lx y=ly z=0: /repo/src/ell.cpp:948-981. -/
def stencil3D_02 (nn nx ny : Int) : List (Option Int) :=
  [none, none, none,
   none, none, none,
   none, none, none,
   some (nn - nx - 1), some (nn - nx), none,
   some (nn - 1), some (nn), none,
   none, none, none,
   some (nn + (nx * ny) - nx - 1), some (nn + (nx * ny) - nx), none,
   some (nn + (nx * ny) - 1), some (nn + (nx * ny)), none,
   none, none, none]

/-- x=0 y=ly z=0: /repo/src/ell.cpp:983-1016. -/
def stencil3D_03 (nn nx ny : Int) : List (Option Int) :=
  [none, none, none,
   none, none, none,
   none, none, none,
   none, some (nn - nx), some (nn - nx + 1),
   none, some (nn), some (nn + 1),
   none, none, none,
   none, some (nn + (nx * ny) - nx), some (nn + (nx * ny) - nx + 1),
   none, some (nn + (nx * ny)), some (nn + (nx * ny) + 1),
   none, none, none]

/-- x=0 y=0 z=lz: /repo/src/ell.cpp:1018-1051. -/
def stencil3D_04 (nn nx ny : Int) : List (Option Int) :=
  [none, none, none,
   none, some (nn - (nx * ny)), some (nn - (nx * ny) + 1),
   none, some (nn - (nx * ny) + nx), some (nn - (nx * ny) + nx + 1),
   none, none, none,
   none, some (nn), some (nn + 1),
   none, some (nn + nx), some (nn + nx + 1),
   none, none, none,
   none, none, none,
   none, none, none]

/-- x=lx y=0 z=lz: /repo/src/ell.cpp:1053-1086. -/
def stencil3D_05 (nn nx ny : Int) : List (Option Int) :=
  [none, none, none,
   some (nn - (nx * ny) - 1), some (nn - (nx * ny)), none,
   some (nn - (nx * ny) + nx - 1), some (nn - (nx * ny) + nx), none,
   none, none, none,
   some (nn - 1), some (nn), none,
   some (nn + nx - 1), some (nn + nx), none,
   none, none, none,
   none, none, none,
   none, none, none]

/-- x=lx y=ly z=lz: /repo/src/ell.cpp:1088-1121. -/
def stencil3D_06 (nn nx ny : Int) : List (Option Int) :=
  [some (nn - (nx * ny) - nx - 1), some (nn - (nx * ny) - nx), none,
   some (nn - (nx * ny) - 1), some (nn - (nx * ny)), none,
   none, none, none,
   some (nn - nx - 1), some (nn - nx), none,
   some (nn - 1), some (nn), none,
   none, none, none,
   none, none, none,
   none, none, none,
   none, none, none]

/-- x=0 y=ly z=lz: /repo/src/ell.cpp:1123-1156. -/
def stencil3D_07 (nn nx ny : Int) : List (Option Int) :=
  [none, some (nn - (nx * ny) - nx), some (nn - (nx * ny) - nx + 1),
   none, some (nn - (nx * ny)), some (nn - (nx * ny) + 1),
   none, none, none,
   none, some (nn - nx), some (nn - nx + 1),
   none, some (nn), some (nn + 1),
   none, none, none,
   none, none, none,
   none, none, none,
   none, none, none]

/-- x=0 y=0 (linea): /repo/src/ell.cpp:1158-1193. -/
def stencil3D_08 (nn nx ny : Int) : List (Option Int) :=
  [none, none, none,
   none, some (nn - (nx * ny)), some (nn - (nx * ny) + 1),
   none, some (nn - (nx * ny) + nx), some (nn - (nx * ny) + nx + 1),
   none, none, none,
   none, some (nn), some (nn + 1),
   none, some (nn + nx), some (nn + nx + 1),
   none, none, none,
   none, some (nn + (nx * ny)), some (nn + (nx * ny) + 1),
   none, some (nn + (nx * ny) + nx), some (nn + (nx * ny) + nx + 1)]

/-- x=lx y=0 (linea): /repo/src/ell.cpp:1195-1230. -/
def stencil3D_09 (nn nx ny : Int) : List (Option Int) :=
  [none, none, none,
   some (nn - (nx * ny) - 1), some (nn - (nx * ny)), none,
   some (nn - (nx * ny) + nx - 1), some (nn - (nx * ny) + nx), none,
   none, none, none,
   some (nn - 1), some (nn), none,
   some (nn + nx - 1), some (nn + nx), none,
   none, none, none,
   some (nn + (nx * ny) - 1), some (nn + (nx * ny)), none,
   some (nn + (nx * ny) + nx - 1), some (nn + (nx * ny) + nx), none]

/-- x=lx y=ly (linea): /repo/src/ell.cpp:1232-1267. -/
def stencil3D_10 (nn nx ny : Int) : List (Option Int) :=
  [some (nn - (nx * ny) - nx - 1), some (nn - (nx * ny) - nx), none,
   some (nn - (nx * ny) - 1), some (nn - (nx * ny)), none,
   none, none, none,
   some (nn - nx - 1), some (nn - nx), none,
   some (nn - 1), some (nn), none,
   none, none, none,
   some (nn + (nx * ny) - nx - 1), some (nn + (nx * ny) - nx), none,
   some (nn + (nx * ny) - 1), some (nn + (nx * ny)), none,
   none, none, none]

/-- x=0 y=ly (linea): /repo/src/ell.cpp:1269-1304. -/
def stencil3D_11 (nn nx ny : Int) : List (Option Int) :=
  [none, some (nn - (nx * ny) - nx), some (nn - (nx * ny) - nx + 1),
   none, some (nn - (nx * ny)), some (nn - (nx * ny) + 1),
   none, none, none,
   none, some (nn - nx), some (nn - nx + 1),
   none, some (nn), some (nn + 1),
   none, none, none,
   none, some (nn + (nx * ny) - nx), some (nn + (nx * ny) - nx + 1),
   none, some (nn + (nx * ny)), some (nn + (nx * ny) + 1),
   none, none, none]

/-- y=0 z=0 (linea): /repo/src/ell.cpp:1306-1341. -/
def stencil3D_12 (nn nx ny : Int) : List (Option Int) :=
  [none, none, none,
   none, none, none,
   none, none, none,
   none, none, none,
   some (nn - 1), some (nn), some (nn + 1),
   some (nn + nx - 1), some (nn + nx), some (nn + nx + 1),
   none, none, none,
   some (nn + (nx * ny) - 1), some (nn + (nx * ny)), some (nn + (nx * ny) + 1),
   some (nn + (nx * ny) + nx - 1), some (nn + (nx * ny) + nx), some (nn + (nx * ny) + nx + 1)]

/-- y=ly z=0 (linea): /repo/src/ell.cpp:1343-1378. -/
def stencil3D_13 (nn nx ny : Int) : List (Option Int) :=
  [none, none, none,
   none, none, none,
   none, none, none,
   some (nn - nx - 1), some (nn - nx), some (nn - nx + 1),
   some (nn - 1), some (nn), some (nn + 1),
   none, none, none,
   some (nn + (nx * ny) - nx - 1), some (nn + (nx * ny) - nx), some (nn + (nx * ny) - nx + 1),
   some (nn + (nx * ny) - 1), some (nn + (nx * ny)), some (nn + (nx * ny) + 1),
   none, none, none]

/-- y=ly z=lz (linea): /repo/src/ell.cpp:1380-1415. -/
def stencil3D_14 (nn nx ny : Int) : List (Option Int) :=
  [some (nn - (nx * ny) - nx - 1), some (nn - (nx * ny) - nx), some (nn - (nx * ny) - nx + 1),
   some (nn - (nx * ny) - 1), some (nn - (nx * ny)), some (nn - (nx * ny) + 1),
   none, none, none,
   some (nn - nx - 1), some (nn - nx), some (nn - nx + 1),
   some (nn - 1), some (nn), some (nn + 1),
   none, none, none,
   none, none, none,
   none, none, none,
   none, none, none]

/-- y=0 z=lz (linea): /repo/src/ell.cpp:1417-1452. -/
def stencil3D_15 (nn nx ny : Int) : List (Option Int) :=
  [none, none, none,
   some (nn - (nx * ny) - 1), some (nn - (nx * ny)), some (nn - (nx * ny) + 1),
   some (nn - (nx * ny) + nx - 1), some (nn - (nx * ny) + nx), some (nn - (nx * ny) + nx + 1),
   none, none, none,
   some (nn - 1), some (nn), some (nn + 1),
   some (nn + nx - 1), some (nn + nx), some (nn + nx + 1),
   none, none, none,
   none, none, none,
   none, none, none]

/-- x=0 z=0 (linea): /repo/src/ell.cpp:1454-1489. -/
def stencil3D_16 (nn nx ny : Int) : List (Option Int) :=
  [none, none, none,
   none, none, none,
   none, none, none,
   none, some (nn - nx), some (nn - nx + 1),
   none, some (nn), some (nn + 1),
   none, some (nn + nx), some (nn + nx + 1),
   none, some (nn + (nx * ny) - nx), some (nn + (nx * ny) - nx + 1),
   none, some (nn + (nx * ny)), some (nn + (nx * ny) + 1),
   none, some (nn + (nx * ny) + nx), some (nn + (nx * ny) + nx + 1)]

/-- x=lx z=0 (linea): /repo/src/ell.cpp:1491-1526. -/
def stencil3D_17 (nn nx ny : Int) : List (Option Int) :=
  [none, none, none,
   none, none, none,
   none, none, none,
   some (nn - nx - 1), some (nn - nx), none,
   some (nn - 1), some (nn), none,
   some (nn + nx - 1), some (nn + nx), none,
   some (nn + (nx * ny) - nx - 1), some (nn + (nx * ny) - nx), none,
   some (nn + (nx * ny) - 1), some (nn + (nx * ny)), none,
   some (nn + (nx * ny) + nx - 1), some (nn + (nx * ny) + nx), none]

/-- x=lx z=lz (linea): /repo/src/ell.cpp:1528-1563. -/
def stencil3D_18 (nn nx ny : Int) : List (Option Int) :=
  [some (nn - (nx * ny) - nx - 1), some (nn - (nx * ny) - nx), none,
   some (nn - (nx * ny) - 1), some (nn - (nx * ny)), none,
   some (nn - (nx * ny) + nx - 1), some (nn - (nx * ny) + nx), none,
   some (nn - nx - 1), some (nn - nx), none,
   some (nn - 1), some (nn), none,
   some (nn + nx - 1), some (nn + nx), none,
   none, none, none,
   none, none, none,
   none, none, none]

/-- x=0 z=lz (linea): /repo/src/ell.cpp:1565-1600. -/
def stencil3D_19 (nn nx ny : Int) : List (Option Int) :=
  [none, some (nn - (nx * ny) - nx), some (nn - (nx * ny) - nx + 1),
   none, some (nn - (nx * ny)), some (nn - (nx * ny) + 1),
   none, some (nn - (nx * ny) + nx), some (nn - (nx * ny) + nx + 1),
   none, some (nn - nx), some (nn - nx + 1),
   none, some (nn), some (nn + 1),
   none, some (nn + nx), some (nn + nx + 1),
   none, none, none,
   none, none, none,
   none, none, none]

/-- z=0: /repo/src/ell.cpp:1602-1639. -/
def stencil3D_20 (nn nx ny : Int) : List (Option Int) :=
  [none, none, none,
   none, none, none,
   none, none, none,
   some (nn - nx - 1), some (nn - nx), some (nn - nx + 1),
   some (nn - 1), some (nn), some (nn + 1),
   some (nn + nx - 1), some (nn + nx), some (nn + nx + 1),
   some (nn + (nx * ny) - nx - 1), some (nn + (nx * ny) - nx), some (nn + (nx * ny) - nx + 1),
   some (nn + (nx * ny) - 1), some (nn + (nx * ny)), some (nn + (nx * ny) + 1),
   some (nn + (nx * ny) + nx - 1), some (nn + (nx * ny) + nx), some (nn + (nx * ny) + nx + 1)]

/-- z=lz: /repo/src/ell.cpp:1641-1678. -/
def stencil3D_21 (nn nx ny : Int) : List (Option Int) :=
  [some (nn - (nx * ny) - nx - 1), some (nn - (nx * ny) - nx), some (nn - (nx * ny) - nx + 1),
   some (nn - (nx * ny) - 1), some (nn - (nx * ny)), some (nn - (nx * ny) + 1),
   some (nn - (nx * ny) + nx - 1), some (nn - (nx * ny) + nx), some (nn - (nx * ny) + nx + 1),
   some (nn - nx - 1), some (nn - nx), some (nn - nx + 1),
   some (nn - 1), some (nn), some (nn + 1),
   some (nn + nx - 1), some (nn + nx), some (nn + nx + 1),
   none, none, none,
   none, none, none,
   none, none, none]

/-- y=0: /repo/src/ell.cpp:1680-1717. -/
def stencil3D_22 (nn nx ny : Int) : List (Option Int) :=
  [none, none, none,
   some (nn - (nx * ny) - 1), some (nn - (nx * ny)), some (nn - (nx * ny) + 1),
   some (nn - (nx * ny) + nx - 1), some (nn - (nx * ny) + nx), some (nn - (nx * ny) + nx + 1),
   none, none, none,
   some (nn - 1), some (nn), some (nn + 1),
   some (nn + nx - 1), some (nn + nx), some (nn + nx + 1),
   none, none, none,
   some (nn + (nx * ny) - 1), some (nn + (nx * ny)), some (nn + (nx * ny) + 1),
   some (nn + (nx * ny) + nx - 1), some (nn + (nx * ny) + nx), some (nn + (nx * ny) + nx + 1)]

/-- y=ly: /repo/src/ell.cpp:1719-1756. -/
def stencil3D_23 (nn nx ny : Int) : List (Option Int) :=
  [some (nn - (nx * ny) - nx - 1), some (nn - (nx * ny) - nx), some (nn - (nx * ny) - nx + 1),
   some (nn - (nx * ny) - 1), some (nn - (nx * ny)), some (nn - (nx * ny) + 1),
   none, none, none,
   some (nn - nx - 1), some (nn - nx), some (nn - nx + 1),
   some (nn - 1), some (nn), some (nn + 1),
   none, none, none,
   some (nn + (nx * ny) - nx - 1), some (nn + (nx * ny) - nx), some (nn + (nx * ny) - nx + 1),
   some (nn + (nx * ny) - 1), some (nn + (nx * ny)), some (nn + (nx * ny) + 1),
   none, none, none]

/-- x=0: /repo/src/ell.cpp:1758-1795. -/
def stencil3D_24 (nn nx ny : Int) : List (Option Int) :=
  [none, some (nn - (nx * ny) - nx), some (nn - (nx * ny) - nx + 1),
   none, some (nn - (nx * ny)), some (nn - (nx * ny) + 1),
   none, some (nn - (nx * ny) + nx), some (nn - (nx * ny) + nx + 1),
   none, some (nn - nx), some (nn - nx + 1),
   none, some (nn), some (nn + 1),
   none, some (nn + nx), some (nn + nx + 1),
   none, some (nn + (nx * ny) - nx), some (nn + (nx * ny) - nx + 1),
   none, some (nn + (nx * ny)), some (nn + (nx * ny) + 1),
   none, some (nn + (nx * ny) + nx), some (nn + (nx * ny) + nx + 1)]

/-- x=lx: /repo/src/ell.cpp:1797-1834. -/
def stencil3D_25 (nn nx ny : Int) : List (Option Int) :=
  [some (nn - (nx * ny) - nx - 1), some (nn - (nx * ny) - nx), none,
   some (nn - (nx * ny) - 1), some (nn - (nx * ny)), none,
   some (nn - (nx * ny) + nx - 1), some (nn - (nx * ny) + nx), none,
   some (nn - nx - 1), some (nn - nx), none,
   some (nn - 1), some (nn), none,
   some (nn + nx - 1), some (nn + nx), none,
   some (nn + (nx * ny) - nx - 1), some (nn + (nx * ny) - nx), none,
   some (nn + (nx * ny) - 1), some (nn + (nx * ny)), none,
   some (nn + (nx * ny) + nx - 1), some (nn + (nx * ny) + nx), none]

/-- Internal nodes: /repo/src/ell.cpp:1836-1875. -/
def stencil3D_26 (nn nx ny : Int) : List (Option Int) :=
  [some (nn - (nx * ny) - nx - 1), some (nn - (nx * ny) - nx), some (nn - (nx * ny) - nx + 1),
   some (nn - (nx * ny) - 1), some (nn - (nx * ny)), some (nn - (nx * ny) + 1),
   some (nn - (nx * ny) + nx - 1), some (nn - (nx * ny) + nx), some (nn - (nx * ny) + nx + 1),
   some (nn - nx - 1), some (nn - nx), some (nn - nx + 1),
   some (nn - 1), some (nn), some (nn + 1),
   some (nn + nx - 1), some (nn + nx), some (nn + nx + 1),
   some (nn + (nx * ny) - nx - 1), some (nn + (nx * ny) - nx), some (nn + (nx * ny) - nx + 1),
   some (nn + (nx * ny) - 1), some (nn + (nx * ny)), some (nn + (nx * ny) + 1),
   some (nn + (nx * ny) + nx - 1), some (nn + (nx * ny) + nx), some (nn + (nx * ny) + nx + 1)]

/-- /repo/src/ell.cpp:865-1876 (`ell_init_3D`).  `jc`, `jv` are the contents of the two
freshly malloc'ed blocks.  `n - 1`, `n - 2` are natural-number subtractions; the sizes are `>= 1`. -/
def ellInit3D {α : Type} (jc : Nat → Int) (jv : Nat → α) (nF nx ny nz : Nat) : M (Ell α) := do
  let nn := nx * ny * nz
  let nnz := 27 * nF
  let nrow := nn * nF
  let c : Buf Int := ⟨nnz * nrow, jc⟩
  -- x=0 y=0 z=0
  let c ← fillNode nF nnz (nodIndex nx ny 0 0 0) (stencil3D_00 (nodIndex nx ny 0 0 0 : Nat) nx ny) c
  -- x=lx y=0 z=0
  let c ← fillNode nF nnz (nodIndex nx ny (nx - 1) 0 0) (stencil3D_01 (nodIndex nx ny (nx - 1) 0 0 : Nat) nx ny) c
  -- x=lx y=ly z=0
  let c ← fillNode nF nnz (nodIndex nx ny (nx - 1) (ny - 1) 0) (stencil3D_02 (nodIndex nx ny (nx - 1) (ny - 1) 0 : Nat) nx ny) c
  -- x=0 y=ly z=0
  let c ← fillNode nF nnz (nodIndex nx ny 0 (ny - 1) 0) (stencil3D_03 (nodIndex nx ny 0 (ny - 1) 0 : Nat) nx ny) c
  -- x=0 y=0 z=lz
  let c ← fillNode nF nnz (nodIndex nx ny 0 0 (nz - 1)) (stencil3D_04 (nodIndex nx ny 0 0 (nz - 1) : Nat) nx ny) c
  -- x=lx y=0 z=lz
  let c ← fillNode nF nnz (nodIndex nx ny (nx - 1) 0 (nz - 1)) (stencil3D_05 (nodIndex nx ny (nx - 1) 0 (nz - 1) : Nat) nx ny) c
  -- x=lx y=ly z=lz
  let c ← fillNode nF nnz (nodIndex nx ny (nx - 1) (ny - 1) (nz - 1)) (stencil3D_06 (nodIndex nx ny (nx - 1) (ny - 1) (nz - 1) : Nat) nx ny) c
  -- x=0 y=ly z=lz
  let c ← fillNode nF nnz (nodIndex nx ny 0 (ny - 1) (nz - 1)) (stencil3D_07 (nodIndex nx ny 0 (ny - 1) (nz - 1) : Nat) nx ny) c
  -- x=0 y=0 (linea)
  let c ← loopFrom 1 (nz - 1) (fun k c => 
    fillNode nF nnz (nodIndex nx ny 0 0 k) (stencil3D_08 (nodIndex nx ny 0 0 k : Nat) nx ny) c) c
  -- x=lx y=0 (linea)
  let c ← loopFrom 1 (nz - 1) (fun k c => 
    fillNode nF nnz (nodIndex nx ny (nx - 1) 0 k) (stencil3D_09 (nodIndex nx ny (nx - 1) 0 k : Nat) nx ny) c) c
  -- x=lx y=ly (linea)
  let c ← loopFrom 1 (nz - 1) (fun k c => 
    fillNode nF nnz (nodIndex nx ny (nx - 1) (ny - 1) k) (stencil3D_10 (nodIndex nx ny (nx - 1) (ny - 1) k : Nat) nx ny) c) c
  -- x=0 y=ly (linea)
  let c ← loopFrom 1 (nz - 1) (fun k c => 
    fillNode nF nnz (nodIndex nx ny 0 (ny - 1) k) (stencil3D_11 (nodIndex nx ny 0 (ny - 1) k : Nat) nx ny) c) c
  -- y=0 z=0 (linea)
  let c ← loopFrom 1 (nx - 1) (fun i c => 
    fillNode nF nnz (nodIndex nx ny i 0 0) (stencil3D_12 (nodIndex nx ny i 0 0 : Nat) nx ny) c) c
  -- y=ly z=0 (linea)
  let c ← loopFrom 1 (nx - 1) (fun i c => 
    fillNode nF nnz (nodIndex nx ny i (ny - 1) 0) (stencil3D_13 (nodIndex nx ny i (ny - 1) 0 : Nat) nx ny) c) c
  -- y=ly z=lz (linea)
  let c ← loopFrom 1 (nx - 1) (fun i c => 
    fillNode nF nnz (nodIndex nx ny i (ny - 1) (nz - 1)) (stencil3D_14 (nodIndex nx ny i (ny - 1) (nz - 1) : Nat) nx ny) c) c
  -- y=0 z=lz (linea)
  let c ← loopFrom 1 (nx - 1) (fun i c => 
    fillNode nF nnz (nodIndex nx ny i 0 (nz - 1)) (stencil3D_15 (nodIndex nx ny i 0 (nz - 1) : Nat) nx ny) c) c
  -- x=0 z=0 (linea)
  let c ← loopFrom 1 (ny - 1) (fun j c => 
    fillNode nF nnz (nodIndex nx ny 0 j 0) (stencil3D_16 (nodIndex nx ny 0 j 0 : Nat) nx ny) c) c
  -- x=lx z=0 (linea)
  let c ← loopFrom 1 (ny - 1) (fun j c => 
    fillNode nF nnz (nodIndex nx ny (nx - 1) j 0) (stencil3D_17 (nodIndex nx ny (nx - 1) j 0 : Nat) nx ny) c) c
  -- x=lx z=lz (linea)
  let c ← loopFrom 1 (ny - 1) (fun j c => 
    fillNode nF nnz (nodIndex nx ny (nx - 1) j (nz - 1)) (stencil3D_18 (nodIndex nx ny (nx - 1) j (nz - 1) : Nat) nx ny) c) c
  -- x=0 z=lz (linea)
  let c ← loopFrom 1 (ny - 1) (fun j c => 
    fillNode nF nnz (nodIndex nx ny 0 j (nz - 1)) (stencil3D_19 (nodIndex nx ny 0 j (nz - 1) : Nat) nx ny) c) c
  -- z=0
  let c ← loopFrom 1 (nx - 1) (fun i c => loopFrom 1 (ny - 1) (fun j c => 
    fillNode nF nnz (nodIndex nx ny i j 0) (stencil3D_20 (nodIndex nx ny i j 0 : Nat) nx ny) c) c) c
  -- z=lz
  let c ← loopFrom 1 (nx - 1) (fun i c => loopFrom 1 (ny - 1) (fun j c => 
    fillNode nF nnz (nodIndex nx ny i j (nz - 1)) (stencil3D_21 (nodIndex nx ny i j (nz - 1) : Nat) nx ny) c) c) c
  -- y=0
  let c ← loopFrom 1 (nx - 1) (fun i c => loopFrom 1 (nz - 1) (fun k c => 
    fillNode nF nnz (nodIndex nx ny i 0 k) (stencil3D_22 (nodIndex nx ny i 0 k : Nat) nx ny) c) c) c
  -- y=ly
  let c ← loopFrom 1 (nx - 1) (fun i c => loopFrom 1 (nz - 1) (fun k c => 
    fillNode nF nnz (nodIndex nx ny i (ny - 1) k) (stencil3D_23 (nodIndex nx ny i (ny - 1) k : Nat) nx ny) c) c) c
  -- x=0
  let c ← loopFrom 1 (ny - 1) (fun j c => loopFrom 1 (nz - 1) (fun k c => 
    fillNode nF nnz (nodIndex nx ny 0 j k) (stencil3D_24 (nodIndex nx ny 0 j k : Nat) nx ny) c) c) c
  -- x=lx
  let c ← loopFrom 1 (ny - 1) (fun j c => loopFrom 1 (nz - 1) (fun k c => 
    fillNode nF nnz (nodIndex nx ny (nx - 1) j k) (stencil3D_25 (nodIndex nx ny (nx - 1) j k : Nat) nx ny) c) c) c
  -- Internal nodes
  let c ← loopFrom 1 (nx - 1) (fun i c => loopFrom 1 (ny - 1) (fun j c => loopFrom 1 (nz - 1) (fun k c => 
    fillNode nF nnz (nodIndex nx ny i j k) (stencil3D_26 (nodIndex nx ny i j k : Nat) nx ny) c) c) c) c
  pure { nrow := nrow, ncol := nrow, nnz := nnz, cols := c, vals := ⟨nnz * nrow, jv⟩ }

end Verif
