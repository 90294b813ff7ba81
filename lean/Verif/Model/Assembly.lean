import Verif.Model.Micro

/-!
# Assembly and material laws: /repo/src/assembly.cpp

Integer literals mixed with doubles are written `((n : Nat) : α)`.  The association order of the
source is kept.
-/

namespace Verif

variable {α : Type} [Scalar α]

/-! ## Prescribed displacements -/

/-- The assignments of `dux`, `duy`: /repo/src/assembly.cpp:37-38 (and 46-47, 55-56, 64-65). -/
def affine2 (eps : Nat → α) (x y : α) (d : Nat) : α :=
  if d = 0 then eps 0 * x + 0.5 * eps 2 * y else 0.5 * eps 2 * x + eps 1 * y

/-- The assignments of `dux`, `duy`, `duz`: /repo/src/assembly.cpp:79-81 (and 94-96, 110-112, 126-128, 142-144,
158-160). -/
def affine3 (eps : Nat → α) (x y z : α) (d : Nat) : α :=
  if d = 0 then eps 0 * x + 0.5 * eps 3 * y + 0.5 * eps 4 * z
  else if d = 1 then 0.5 * eps 3 * x + eps 1 * y + 0.5 * eps 5 * z
  else 0.5 * eps 4 * x + 0.5 * eps 5 * y + eps 2 * z

/-- `u[n * dim] = ..; u[n * dim + 1] = ..; ..`: /repo/src/assembly.cpp:39-40, 82-84. -/
def setNode (dim n : Nat) (f : Nat → α) (u : Buf α) : M (Buf α) :=
  loop dim (fun d u => u.write (n * dim + d) (f d)) u

/-- `set_displ`, `dim == 2`: /repo/src/assembly.cpp:32-68. -/
def setDispl2D (c : Cfg α) (eps : Nat → α) (u : Buf α) : M (Buf α) := do
  -- y = 0
  let u ← loop c.nx (fun i u =>
    setNode 2 i (affine2 eps ((i : Nat) * c.dx) 0) u) u
  -- y = ly
  let u ← loop c.nx (fun i u =>
    setNode 2 (i + (c.ny - 1) * c.nx) (affine2 eps ((i : Nat) * c.dx) c.ly) u) u
  -- x = 0
  let u ← loop (c.ny - 2) (fun i u =>
    setNode 2 ((i + 1) * c.nx) (affine2 eps 0 ((i + 1 : Nat) * c.dy)) u) u
  -- x = lx
  loop (c.ny - 2) (fun i u =>
    setNode 2 ((i + 2) * c.nx - 1) (affine2 eps c.lx ((i + 1 : Nat) * c.dy)) u) u

/-- `set_displ`, `dim == 3`: /repo/src/assembly.cpp:70-167. -/
def setDispl3D (c : Cfg α) (eps : Nat → α) (u : Buf α) : M (Buf α) := do
  -- z = 0
  let u ← loop c.nx (fun i u => loop c.ny (fun j u =>
    setNode 3 (nodIndex c.nx c.ny i j 0)
      (affine3 eps ((i : Nat) * c.dx) ((j : Nat) * c.dy) 0) u) u) u
  -- z = lz
  let u ← loop c.nx (fun i u => loop c.ny (fun j u =>
    setNode 3 (nodIndex c.nx c.ny i j (c.nz - 1))
      (affine3 eps ((i : Nat) * c.dx) ((j : Nat) * c.dy) c.lz) u) u) u
  -- y = 0
  let u ← loop c.nx (fun i u => loopFrom 1 (c.nz - 1) (fun k u =>
    setNode 3 (nodIndex c.nx c.ny i 0 k)
      (affine3 eps ((i : Nat) * c.dx) 0 ((k : Nat) * c.dz)) u) u) u
  -- y = ly
  let u ← loop c.nx (fun i u => loopFrom 1 (c.nz - 1) (fun k u =>
    setNode 3 (nodIndex c.nx c.ny i (c.ny - 1) k)
      (affine3 eps ((i : Nat) * c.dx) c.ly ((k : Nat) * c.dz)) u) u) u
  -- x = 0
  let u ← loopFrom 1 (c.ny - 1) (fun j u => loopFrom 1 (c.nz - 1) (fun k u =>
    setNode 3 (nodIndex c.nx c.ny 0 j k)
      (affine3 eps 0 ((j : Nat) * c.dy) ((k : Nat) * c.dz)) u) u) u
  -- x = lx
  loopFrom 1 (c.ny - 1) (fun j u => loopFrom 1 (c.nz - 1) (fun k u =>
    setNode 3 (nodIndex c.nx c.ny (c.nx - 1) j k)
      (affine3 eps c.lx ((j : Nat) * c.dy) ((k : Nat) * c.dz)) u) u) u

/-- `set_displ`: /repo/src/assembly.cpp:29-168. -/
def setDispl (c : Cfg α) (w : Work α) (eps : Nat → α) : M (Work α) :=
  if c.dim = 2 then do
    let u ← setDispl2D c eps w.u
    pure { w with u := u }
  else if c.dim = 3 then do
    let u ← setDispl3D c eps w.u
    pure { w with u := u }
  else pure w

/-! ## Materials -/

/-- `get_material`: /repo/src/assembly.cpp:1064-1087.  For a `micro_type` other than 0 and 1 the
index `mat_num` is unassigned. -/
def getMaterial (c : Cfg α) (e : Nat) : M (Material α) :=
  if c.microType = 0 ∨ c.microType = 1 then do
    let t ← c.elemType.read e
    pure (c.mats (if t = 0 then 0 else 1))
  else .error .uninit

/-- `get_dev_tensor`: /repo/src/assembly.cpp:963-970. -/
def devTensor (t : Nat → α) (i : Nat) : α :=
  if i < 3 then t i - (1 / 3.0) * (t 0 + t 1 + t 2) else t i

/-- Output of `plastic_step`. -/
structure PlasticOut (α : Type) where
  epsP : Nat → α
  alpha : α
  nl : Bool
  stress : Nat → α

/-- `sig_dev_trial`: /repo/src/assembly.cpp:1018-1025. -/
def sigTrial (m : Material α) (eps epsP : Nat → α) (i : Nat) : α :=
  if i < 3 then ((2 : Nat) : α) * m.mu * (devTensor eps i - devTensor epsP i)
  else m.mu * (devTensor eps i - devTensor epsP i)

/-- `sig_dev_trial_norm`: /repo/src/assembly.cpp:1027-1032. -/
def sigNorm (s : Nat → α) : α :=
  Scalar.sqrt (s 0 * s 0 + s 1 * s 1 + s 2 * s 2 + ((2 : Nat) : α) * s 3 * s 3
    + ((2 : Nat) : α) * s 4 * s 4 + ((2 : Nat) : α) * s 5 * s 5)

/-- `f_trial`: /repo/src/assembly.cpp:1034. -/
def fTrial (m : Material α) (eps epsP : Nat → α) (alpha : α) : α :=
  sigNorm (sigTrial m eps epsP)
    - Scalar.sqrt (2.0 / ((3 : Nat) : α)) * (m.Sy + m.Ka * alpha)

/-- The stress loops: /repo/src/assembly.cpp:1054-1061. -/
def plasticStress (m : Material α) (eps sig : Nat → α) (dl : α) (normal : Nat → α) (i : Nat) : α :=
  let s := if i < 3 then sig i + m.k * (eps 0 + eps 1 + eps 2) else sig i
  s - ((2 : Nat) : α) * m.mu * dl * normal i

/-- `plastic_step`: /repo/src/assembly.cpp:1007-1062.  `nl` is the value `*non_linear` receives,
given that the caller has set it to `false`. -/
def plasticStep (m : Material α) (eps epsPOld : Nat → α) (alphaOld : α) : PlasticOut α :=
  let sig := sigTrial m eps epsPOld
  let norm := sigNorm sig
  let f := fTrial m eps epsPOld alphaOld
  if Scalar.lt 0 f then
    let normal := fun i => sig i / norm
    let dl := f / (((2 : Nat) : α) * m.mu * (1.0 + (0.0 * m.Ka) / (((3 : Nat) : α) * m.mu)))
    { epsP := fun i => epsPOld i + dl * normal i
      alpha := alphaOld + Scalar.sqrt (2.0 / ((3 : Nat) : α)) * dl
      nl := true
      stress := plasticStress m eps sig dl normal }
  else
    { epsP := epsPOld
      alpha := alphaOld
      nl := false
      stress := plasticStress m eps sig 0 (fun _ => 0) }

/-- The linear branch of `get_stress3D`: /repo/src/assembly.cpp:997-1002. -/
def elasticStress3D (m : Material α) (eps : Nat → α) (i : Nat) : α :=
  if i < 3 then m.lambda * (eps 0 + eps 1 + eps 2) + ((2 : Nat) : α) * m.mu * eps i
  else m.mu * eps i

/-- Consecutive reads `a[i] = p[ix(i)]`, `i < n`. -/
def gather (n : Nat) (p : Buf α) (ix : Nat → Nat) : M (Nat → α) :=
  loop n (fun i a => do
    let v ← p.read (ix i)
    pure (fun j => if j = i then v else a j)) (fun _ => 0)

/-- Output of `get_stress3D`: `*non_linear`, `stress_gp`, `vars_new`. -/
structure StressOut (α : Type) where
  nl : Bool
  stress : Nat → α
  varsNew : Buf α

/-- `get_stress3D`: /repo/src/assembly.cpp:972-1005. -/
def getStress3D (c : Cfg α) (varsOld varsNew : Buf α) (ex ey ez gp : Nat) (eps : Nat → α) :
    M (StressOut α) := do
  let e := gloElem3D c.nx c.ny ex ey ez
  let m ← getMaterial c e
  if m.plasticity = true then do
    let epsPOld ← gather 6 varsOld (fun i => intvarIx e gp i)
    let alphaOld ← varsOld.read (intvarIx e gp 6)
    let r := plasticStep m eps epsPOld alphaOld
    let v ← loop 6 (fun i v => v.write (intvarIx e gp i) (r.epsP i)) varsNew
    let v ← v.write (intvarIx e gp 6) r.alpha
    pure { nl := r.nl, stress := r.stress, varsNew := v }
  else
    pure { nl := false, stress := elasticStress3D m eps, varsNew := varsNew }

/-- The matrix `ctan` of `get_stress2D` and `get_elem_mat2D`: /repo/src/assembly.cpp:382-394,
941-952. -/
def ctan2D (m : Material α) (i j : Nat) : α :=
  (if i = 2 then (if j = 2 then (1 - ((2 : Nat) : α) * m.nu) / ((2 : Nat) : α) else 0)
    else if j = 2 then 0
    else if i = j then 1 - m.nu else m.nu)
    * (m.E / ((1 + m.nu) * (1 - ((2 : Nat) : α) * m.nu)))

/-- `get_stress2D`: /repo/src/assembly.cpp:924-961.  `*non_linear` is always `false`. -/
def getStress2D (c : Cfg α) (ex ey : Nat) (eps : Nat → α) : M (Nat → α) := do
  let m ← getMaterial c (gloElem3D c.nx c.ny ex ey 0)
  pure (fun i => accum 3 (fun j s => s + ctan2D m i j * eps j) 0)

/-! ## Strains -/

/-- The coordinate of the Gauss points. -/
def gaussX : α := 0.577350269189626

/-- `xg[gp][d]` of the 2D functions: /repo/src/assembly.cpp:396-401, 657-662, 1094-1099. -/
def xg2D (gp d : Nat) : α :=
  (([[-gaussX, -gaussX], [gaussX, -gaussX], [gaussX, gaussX], [-gaussX, gaussX]] :
    List (List α)).getD gp []).getD d 0

/-- `xg[gp][d]` of `calc_bmat_3D`: /repo/src/assembly.cpp:593-602. -/
def xg3D (gp d : Nat) : α :=
  (([[-gaussX, -gaussX, -gaussX], [gaussX, -gaussX, -gaussX], [gaussX, gaussX, -gaussX],
     [-gaussX, gaussX, -gaussX], [-gaussX, -gaussX, gaussX], [gaussX, -gaussX, gaussX],
     [gaussX, gaussX, gaussX], [-gaussX, gaussX, gaussX]] :
    List (List α)).getD gp []).getD d 0

/-- `dsh[i][d]` of the 2D functions: /repo/src/assembly.cpp:410-417, 669-676, 1103-1110. -/
def dsh2D (dx dy : α) (gp i d : Nat) : α :=
  let x : α := xg2D gp 0
  let y : α := xg2D gp 1
  let f := ((4 : Nat) : α)
  let t := ((2 : Nat) : α)
  (([[-(1 - y) / f * t / dx, -(1 - x) / f * t / dy],
     [(1 - y) / f * t / dx, -(1 + x) / f * t / dy],
     [(1 + y) / f * t / dx, (1 + x) / f * t / dy],
     [-(1 + y) / f * t / dx, (1 - x) / f * t / dy]] : List (List α)).getD i []).getD d 0

/-- `bmat[v][j]` of the 2D functions: /repo/src/assembly.cpp:419-426, 678-685, 1112-1119. -/
def bmat2D (dx dy : α) (gp v j : Nat) : α :=
  let i := j / 2
  (([[dsh2D dx dy gp i 0, 0],
     [0, dsh2D dx dy gp i 1],
     [dsh2D dx dy gp i 1, dsh2D dx dy gp i 0]] : List (List α)).getD v []).getD (j % 2) 0

/-- `dsh[i][d]` of `calc_bmat_3D`: /repo/src/assembly.cpp:606-629. -/
def dsh3D (dx dy dz : α) (gp i d : Nat) : α :=
  let x : α := xg3D gp 0
  let y : α := xg3D gp 1
  let z : α := xg3D gp 2
  let e := ((8 : Nat) : α)
  let t := ((2 : Nat) : α)
  (([[-(1 - y) * (1 - z) / e * t / dx, -(1 - x) * (1 - z) / e * t / dy,
      -(1 - x) * (1 - y) / e * t / dz],
     [(1 - y) * (1 - z) / e * t / dx, -(1 + x) * (1 - z) / e * t / dy,
      -(1 + x) * (1 - y) / e * t / dz],
     [(1 + y) * (1 - z) / e * t / dx, (1 + x) * (1 - z) / e * t / dy,
      -(1 + x) * (1 + y) / e * t / dz],
     [-(1 + y) * (1 - z) / e * t / dx, (1 - x) * (1 - z) / e * t / dy,
      -(1 - x) * (1 + y) / e * t / dz],
     [-(1 - y) * (1 + z) / e * t / dx, -(1 - x) * (1 + z) / e * t / dy,
      (1 - x) * (1 - y) / e * t / dz],
     [(1 - y) * (1 + z) / e * t / dx, -(1 + x) * (1 + z) / e * t / dy,
      (1 + x) * (1 - y) / e * t / dz],
     [(1 + y) * (1 + z) / e * t / dx, (1 + x) * (1 + z) / e * t / dy,
      (1 + x) * (1 + y) / e * t / dz],
     [-(1 + y) * (1 + z) / e * t / dx, (1 - x) * (1 + z) / e * t / dy,
      (1 - x) * (1 + y) / e * t / dz]] : List (List α)).getD i []).getD d 0

/-- `bmat[v][j]` of `calc_bmat_3D`: /repo/src/assembly.cpp:631-650. -/
def bmat3D (dx dy dz : α) (gp v j : Nat) : α :=
  let i := j / 3
  (([[dsh3D dx dy dz gp i 0, 0, 0],
     [0, dsh3D dx dy dz gp i 1, 0],
     [0, 0, dsh3D dx dy dz gp i 2],
     [dsh3D dx dy dz gp i 1, dsh3D dx dy dz gp i 0, 0],
     [dsh3D dx dy dz gp i 2, 0, dsh3D dx dy dz gp i 0],
     [0, dsh3D dx dy dz gp i 2, dsh3D dx dy dz gp i 1]] :
    List (List α)).getD v []).getD (j % 3) 0

/-- `n0 … n3` of `getElemDisp`: /repo/src/assembly.cpp:1148-1151. -/
def dispNode2D (nx ex ey k : Nat) : Nat :=
  ([ey * nx + ex, ey * nx + ex + 1, (ey + 1) * nx + ex + 1, (ey + 1) * nx + ex]).getD k 0

/-- `getElemDisp` (2D): /repo/src/assembly.cpp:1146-1159. -/
def getElemDisp2D (c : Cfg α) (u : Buf α) (ex ey : Nat) : M (Nat → α) :=
  gather 8 u (fun j => dispNode2D c.nx ex ey (j / 2) * 2 + j % 2)

/-- `n0 … n7` of `getElemDisp`: /repo/src/assembly.cpp:1163-1170. -/
def dispNode3D (nx ny ex ey ez k : Nat) : Nat :=
  let n0 := ez * (nx * ny) + ey * nx + ex
  let n1 := ez * (nx * ny) + ey * nx + ex + 1
  let n2 := ez * (nx * ny) + (ey + 1) * nx + ex + 1
  let n3 := ez * (nx * ny) + (ey + 1) * nx + ex
  ([n0, n1, n2, n3, n0 + nx * ny, n1 + nx * ny, n2 + nx * ny, n3 + nx * ny]).getD k 0

/-- `getElemDisp` (3D): /repo/src/assembly.cpp:1161-1182. -/
def getElemDisp3D (c : Cfg α) (u : Buf α) (ex ey ez : Nat) : M (Nat → α) :=
  gather 24 u (fun j => dispNode3D c.nx c.ny ex ey ez (j / 3) * 3 + j % 3)

/-- `get_strain2D`: /repo/src/assembly.cpp:1089-1127. -/
def getStrain2D (c : Cfg α) (u : Buf α) (ex ey gp : Nat) : M (Nat → α) := do
  let d ← getElemDisp2D c u ex ey
  pure (fun v => accum 8 (fun i s => s + bmat2D c.dx c.dy gp v i * d i) 0)

/-- `get_strain3D`: /repo/src/assembly.cpp:1129-1144. -/
def getStrain3D (c : Cfg α) (u : Buf α) (ex ey ez gp : Nat) : M (Nat → α) := do
  let d ← getElemDisp3D c u ex ey ez
  pure (fun v => accum 24 (fun i s => s + bmat3D c.dx c.dy c.dz gp v i * d i) 0)

/-- `0.25 * dx * dy`: /repo/src/assembly.cpp:436, 691, 743, 806, 865. -/
def wg2D (c : Cfg α) : α := 0.25 * c.dx * c.dy

/-- `(1 / 8.0) * dx * dy * dz`: /repo/src/assembly.cpp:502, 716, 770, 829, 900. -/
def wg3D (c : Cfg α) : α := (1 / 8.0) * c.dx * c.dy * c.dz

/-! ## Element vectors -/

/-- `get_elem_rhs2D`: /repo/src/assembly.cpp:654-699.  `*non_linear` is `false` afterwards. -/
def getElemRhs2D (c : Cfg α) (u : Buf α) (ex ey : Nat) : M (Nat → α) :=
  loop 4 (fun gp be => do
    let eps ← getStrain2D c u ex ey gp
    let sig ← getStress2D c ex ey eps
    pure (fun i => accum 3 (fun j s => s + bmat2D c.dx c.dy gp j i * sig j * wg2D c) (be i)))
    (fun _ => 0)

/-- State of the Gauss point loop of `get_elem_rhs3D`. -/
structure ElemRhs (α : Type) where
  be : Nat → α
  nl : Bool
  varsNew : Buf α

/-- `get_elem_rhs3D`: /repo/src/assembly.cpp:701-722.  `nl` is the value of `*non_linear` on
entry and exit. -/
def getElemRhs3D (c : Cfg α) (u varsOld varsNew : Buf α) (ex ey ez : Nat) (nl : Bool) :
    M (ElemRhs α) :=
  loop 8 (fun gp s => do
    let eps ← getStrain3D c u ex ey ez gp
    let r ← getStress3D c varsOld s.varsNew ex ey ez gp eps
    pure { be := fun i => accum 6 (fun j t => t + bmat3D c.dx c.dy c.dz gp j i * r.stress j
              * wg3D c) (s.be i)
           nl := r.nl
           varsNew := r.varsNew })
    { be := fun _ => 0, nl := nl, varsNew := varsNew }

/-! ## Right hand side -/

/-- `n0 … n3` of `assembly_rhs`: /repo/src/assembly.cpp:187-190. -/
def rhsNode2D (nx ex ey k : Nat) : Nat :=
  ([ey * nx + ex, ey * nx + ex + 1, (ey + 1) * nx + ex + 1, (ey + 1) * nx + ex]).getD k 0

/-- `n0 … n7` of `assembly_rhs`: /repo/src/assembly.cpp:239-246. -/
def rhsNode3D (nx ny ex ey ez k : Nat) : Nat :=
  let n0 := ez * (nx * ny) + ey * nx + ex
  let n1 := ez * (nx * ny) + ey * nx + ex + 1
  let n2 := ez * (nx * ny) + (ey + 1) * nx + ex + 1
  let n3 := ez * (nx * ny) + (ey + 1) * nx + ex
  ([n0, n1, n2, n3, n0 + nx * ny, n1 + nx * ny, n2 + nx * ny, n3 + nx * ny]).getD k 0

/-- `for (i < n) b[index[i]] += be[i];`: /repo/src/assembly.cpp:205-206, 263-264. -/
def scatterAdd (n : Nat) (index : Nat → Nat) (be : Nat → α) (b : Buf α) : M (Buf α) :=
  loop n (fun i b => do
    let v ← b.read (index i)
    b.write (index i) (v + be i)) b

/-- `for (d < dim) b[n * dim + d] = 0.0;`: /repo/src/assembly.cpp:214-215 (and 219-220, 224-225,
229-230, 275-276, 283-284, 291-292, 299-300, 307-308, 315-316). -/
def zeroNode (dim n : Nat) (b : Buf α) : M (Buf α) :=
  loop dim (fun d b => b.write (n * dim + d) 0) b

/-- The boundary loops of `assembly_rhs`, 2D: /repo/src/assembly.cpp:211-230. -/
def rhsBc2D (c : Cfg α) (b : Buf α) : M (Buf α) := do
  let b ← loop c.nx (fun i b => zeroNode 2 i b) b
  let b ← loop c.nx (fun i b => zeroNode 2 (i + (c.ny - 1) * c.nx) b) b
  let b ← loop (c.ny - 2) (fun i b => zeroNode 2 ((i + 1) * c.nx) b) b
  loop (c.ny - 2) (fun i b => zeroNode 2 ((i + 2) * c.nx - 1) b) b

/-- The boundary loops of `assembly_rhs`, 3D: /repo/src/assembly.cpp:270-318. -/
def rhsBc3D (c : Cfg α) (b : Buf α) : M (Buf α) := do
  let b ← loop c.nx (fun i b => loop c.ny (fun j b =>
    zeroNode 3 (nodIndex c.nx c.ny i j 0) b) b) b
  let b ← loop c.nx (fun i b => loop c.ny (fun j b =>
    zeroNode 3 (nodIndex c.nx c.ny i j (c.nz - 1)) b) b) b
  let b ← loop c.nx (fun i b => loopFrom 1 (c.nz - 1) (fun k b =>
    zeroNode 3 (nodIndex c.nx c.ny i 0 k) b) b) b
  let b ← loop c.nx (fun i b => loopFrom 1 (c.nz - 1) (fun k b =>
    zeroNode 3 (nodIndex c.nx c.ny i (c.ny - 1) k) b) b) b
  let b ← loopFrom 1 (c.ny - 1) (fun j b => loopFrom 1 (c.nz - 1) (fun k b =>
    zeroNode 3 (nodIndex c.nx c.ny 0 j k) b) b) b
  loopFrom 1 (c.ny - 1) (fun j b => loopFrom 1 (c.nz - 1) (fun k b =>
    zeroNode 3 (nodIndex c.nx c.ny (c.nx - 1) j k) b) b) b

/-- State of the element loops of `assembly_rhs`: `b`, `*non_linear`, `non_linear_one_elem`,
`vars_new`. -/
structure RhsState (α : Type) where
  b : Buf α
  nl : Bool
  nlOne : Bool
  varsNew : Buf α

/-- The body for one 2D element: /repo/src/assembly.cpp:187-206. -/
def rhsElem2D (c : Cfg α) (u : Buf α) (ex ey : Nat) (b : Buf α) : M (Buf α) := do
  let be ← getElemRhs2D c u ex ey
  scatterAdd 8 (fun i => rhsNode2D c.nx ex ey (i / 2) * 2 + i % 2) be b

/-- The body for one 3D element: /repo/src/assembly.cpp:239-264. -/
def rhsElem3D (c : Cfg α) (u varsOld : Buf α) (ex ey ez : Nat) (s : RhsState α) :
    M (RhsState α) := do
  let r ← getElemRhs3D c u varsOld s.varsNew ex ey ez s.nlOne
  let b ← scatterAdd 24 (fun i => rhsNode3D c.nx c.ny ex ey ez (i / 3) * 3 + i % 3) r.be s.b
  pure { b := b, nl := if r.nl = true then true else s.nl, nlOne := r.nl, varsNew := r.varsNew }

/-- Negation and norm: /repo/src/assembly.cpp:322-328. -/
def negNorm (n : Nat) (b : Buf α) : M (Buf α × α) := do
  let b ← loop n (fun i b => do
    let v ← b.read i
    b.write i (-v)) b
  let s ← loop n (fun i s => do
    let v ← b.read i
    pure (s + v * v)) 0
  pure (b, Scalar.sqrt s)

/-- Output of `assembly_rhs`: object state, returned norm, `*non_linear`. -/
structure RhsOut (α : Type) where
  work : Work α
  norm : α
  nl : Bool

/-- `assembly_rhs`: /repo/src/assembly.cpp:170-331. -/
def assemblyRhs (c : Cfg α) (w : Work α) : M (RhsOut α) := do
  let b ← loop (c.nn * c.dim) (fun i b => b.write i 0) w.b
  if c.dim = 2 then do
    let b ← loop (c.nx - 1) (fun ex b => loop (c.ny - 1) (fun ey b =>
      rhsElem2D c w.u ex ey b) b) b
    let b ← rhsBc2D c b
    let r ← negNorm (c.nn * c.dim) b
    pure { work := { w with b := r.1 }, norm := r.2, nl := false }
  else if c.dim = 3 then do
    let s ← loop (c.nx - 1) (fun ex s => loop (c.ny - 1) (fun ey s => loop (c.nz - 1) (fun ez s =>
      rhsElem3D c w.u w.varsOld ex ey ez s) s) s)
      { b := b, nl := false, nlOne := false, varsNew := w.varsNew }
    let b ← rhsBc3D c s.b
    let r ← negNorm (c.nn * c.dim) b
    pure { work := { w with b := r.1, varsNew := s.varsNew }, norm := r.2, nl := s.nl }
  else do
    let r ← negNorm (c.nn * c.dim) b
    pure { work := { w with b := r.1 }, norm := r.2, nl := false }

/-! ## Element matrices -/

/-- `get_elem_mat2D`: /repo/src/assembly.cpp:366-443. -/
def getElemMat2D (c : Cfg α) (ex ey : Nat) : M (Buf α) := do
  let m ← getMaterial c (gloElem3D c.nx c.ny ex ey 0)
  let Ae := accum 4 (fun gp (Ae : Nat → α) => fun q =>
    let i := q / 8
    let j := q % 8
    accum 3 (fun k s => s + bmat2D c.dx c.dy gp k i
      * accum 3 (fun l t => t + ctan2D m k l * bmat2D c.dx c.dy gp l j) 0 * wg2D c) (Ae q))
    (fun _ => 0)
  pure ⟨64, Ae⟩

/-- The elastic `ctan` of `get_elem_mat3D`: /repo/src/assembly.cpp:475-487. -/
def ctan3D (m : Material α) (i j : Nat) : α :=
  let c0 : α := 0
  let c1 := if i < 3 ∧ j < 3 then c0 + m.lambda else c0
  let c2 := if i < 3 ∧ i = j then c1 + ((2 : Nat) : α) * m.mu else c1
  if ¬ i < 3 ∧ i = j then c2 + m.mu else c2

/-- State of the perturbation loop: `ctan`, `vars_new`. -/
structure CtanOut (α : Type) where
  ctan : Nat → Nat → α
  varsNew : Buf α

/-- `get_ctan_plast_pert`: /repo/src/assembly.cpp:571-588.  The array `ctan` is completely
assigned; `0` stands for its previous content. -/
def getCtanPlastPert (c : Cfg α) (u varsOld varsNew : Buf α) (ex ey ez gp : Nat) :
    M (CtanOut α) := do
  let deps : α := 1.0e-8
  let eps0 ← getStrain3D c u ex ey ez gp
  let s0 ← getStress3D c varsOld varsNew ex ey ez gp eps0
  loop 6 (fun i s => do
    let r ← getStress3D c varsOld s.varsNew ex ey ez gp
      (fun j => if j = i then eps0 j + deps else eps0 j)
    pure { ctan := fun j l => if l = i then (r.stress j - s0.stress j) / deps else s.ctan j l
           varsNew := r.varsNew })
    { ctan := fun _ _ => 0, varsNew := s0.varsNew }

/-- `get_ctan_plast_sec`: /repo/src/assembly.cpp:511-532 (not called by the library). -/
def getCtanPlastSec (c : Cfg α) (u varsOld varsNew : Buf α) (ex ey ez gp : Nat) :
    M (CtanOut α) := do
  let deps : α := 1.0e-8
  let eps0 ← getStrain3D c u ex ey ez gp
  loop 6 (fun i s => do
    let p := if Scalar.lt 1.0e-7 (Scalar.abs (eps0 i)) then eps0 i else deps
    let r ← getStress3D c varsOld s.varsNew ex ey ez gp (fun j => if j = i then p else 0)
    pure { ctan := fun j l => if l = i then r.stress j / p else s.ctan j l
           varsNew := r.varsNew })
    { ctan := fun _ _ => 0, varsNew := varsNew }

/-- `get_ctan_plast_exact`: /repo/src/assembly.cpp:534-569 (not called by the library; the
plastic correction is commented out). -/
def getCtanPlastExact (c : Cfg α) (u : Buf α) (ex ey ez gp : Nat) : M (Nat → Nat → α) := do
  let _ ← getStrain3D c u ex ey ez gp
  let m ← getMaterial c (gloElem3D c.nx c.ny ex ey ez)
  pure (ctan3D m)

/-- State of the Gauss point loop of `get_elem_mat3D`. -/
structure ElemMat (α : Type) where
  Ae : Nat → α
  varsNew : Buf α

/-- `get_elem_mat3D`: /repo/src/assembly.cpp:445-509. -/
def getElemMat3D (c : Cfg α) (u varsOld varsNew : Buf α) (ex ey ez : Nat) : M (ElemMat α) := do
  let m ← getMaterial c (gloElem3D c.nx c.ny ex ey ez)
  loop 8 (fun gp s => do
    let r ← if m.plasticity = true then getCtanPlastPert c u varsOld s.varsNew ex ey ez gp
      else pure { ctan := ctan3D m, varsNew := s.varsNew }
    pure { Ae := fun q =>
             let i := q / 24
             let j := q % 24
             accum 6 (fun k t => t + bmat3D c.dx c.dy c.dz gp k i
               * accum 6 (fun l y => y + r.ctan k l * bmat3D c.dx c.dy c.dz gp l j) 0
               * wg3D c) (s.Ae q)
           varsNew := r.varsNew })
    { Ae := fun _ => 0, varsNew := varsNew }

/-- State of the element loops of `assembly_mat`. -/
structure MatState (α : Type) where
  A : Ell α
  varsNew : Buf α

/-- `assembly_mat`: /repo/src/assembly.cpp:333-364. -/
def assemblyMat (c : Cfg α) (w : Work α) : M (Work α) := do
  let A ← ellSetZeroMat w.A
  if c.dim = 2 then do
    let A ← loop (c.nx - 1) (fun ex A => loop (c.ny - 1) (fun ey A => do
      let Ae ← getElemMat2D c ex ey
      ellAddStruct2D A ex ey Ae c.dim c.nx c.ny) A) A
    let A ← ellSetBc2D A c.dim c.nx c.ny
    pure { w with A := A }
  else if c.dim = 3 then do
    let s ← loop (c.nx - 1) (fun ex s => loop (c.ny - 1) (fun ey s => loop (c.nz - 1) (fun ez s => do
      let r ← getElemMat3D c w.u w.varsOld s.varsNew ex ey ez
      let A ← ellAddStruct3D s.A ex ey ez ⟨576, r.Ae⟩ c.dim c.nx c.ny c.nz
      pure { A := A, varsNew := r.varsNew }) s) s) ({ A := A, varsNew := w.varsNew } : MatState α)
    let A ← ellSetBc3D s.A c.dim c.nx c.ny c.nz
    pure { w with A := A, varsNew := s.varsNew }
  else pure { w with A := A }

/-! ## Averages and fields -/

/-- State of the averaging loops: accumulated values and `vars_new`. -/
structure AveState (α : Type) where
  ave : Nat → α
  varsNew : Buf α

/-- The Gauss point loop of `calc_ave_stress` for a 2D element and the addition of
`stress_aux`: /repo/src/assembly.cpp:736-753. -/
def aveStressElem2D (c : Cfg α) (u : Buf α) (ex ey : Nat) (ave : Nat → α) : M (Nat → α) := do
  let aux ← loop 4 (fun gp (aux : Nat → α) => do
    let eps ← getStrain2D c u ex ey gp
    let sig ← getStress2D c ex ey eps
    pure (fun v => aux v + sig v * wg2D c)) (fun _ => 0)
  pure (fun v => ave v + aux v)

/-- The Gauss point loop of `calc_ave_stress` for a 3D element: /repo/src/assembly.cpp:763-780. -/
def aveStressElem3D (c : Cfg α) (u varsOld : Buf α) (ex ey ez : Nat) (s : AveState α) :
    M (AveState α) := do
  let r ← loop 8 (fun gp (a : AveState α) => do
    let eps ← getStrain3D c u ex ey ez gp
    let sig ← getStress3D c varsOld a.varsNew ex ey ez gp eps
    pure { ave := fun v => a.ave v + sig.stress v * wg3D c, varsNew := sig.varsNew })
    { ave := fun _ => 0, varsNew := s.varsNew }
  pure { ave := fun v => s.ave v + r.ave v, varsNew := r.varsNew }

/-- `calc_ave_stress`: /repo/src/assembly.cpp:724-788.  Both dimensions divide by `lx * ly`. -/
def calcAveStress (c : Cfg α) (w : Work α) : M (AveState α) :=
  if c.dim = 2 then do
    let a ← loop (c.nx - 1) (fun ex a => loop (c.ny - 1) (fun ey a =>
      aveStressElem2D c w.u ex ey a) a) (fun _ => 0)
    pure { ave := fun v => a v / (c.lx * c.ly), varsNew := w.varsNew }
  else if c.dim = 3 then do
    let s ← loop (c.nx - 1) (fun ex s => loop (c.ny - 1) (fun ey s => loop (c.nz - 1) (fun ez s =>
      aveStressElem3D c w.u w.varsOld ex ey ez s) s) s) { ave := fun _ => 0, varsNew := w.varsNew }
    pure { ave := fun v => s.ave v / (c.lx * c.ly), varsNew := s.varsNew }
  else pure { ave := fun _ => 0 / (c.lx * c.ly), varsNew := w.varsNew }

/-- `calc_ave_strain`: /repo/src/assembly.cpp:790-844.  Both dimensions divide by `lx * ly`. -/
def calcAveStrain (c : Cfg α) (u : Buf α) : M (Nat → α) :=
  if c.dim = 2 then do
    let a ← loop (c.nx - 1) (fun ex a => loop (c.ny - 1) (fun ey (a : Nat → α) => do
      let aux ← loop 4 (fun gp (aux : Nat → α) => do
        let eps ← getStrain2D c u ex ey gp
        pure (fun v => aux v + eps v * wg2D c)) (fun _ => 0)
      pure (fun v => a v + aux v)) a) (fun _ => 0)
    pure (fun v => a v / (c.lx * c.ly))
  else if c.dim = 3 then do
    let a ← loop (c.nx - 1) (fun ex a => loop (c.ny - 1) (fun ey a => loop (c.nz - 1)
      (fun ez (a : Nat → α) => do
        let aux ← loop 8 (fun gp (aux : Nat → α) => do
          let eps ← getStrain3D c u ex ey ez gp
          pure (fun v => aux v + eps v * wg3D c)) (fun _ => 0)
        pure (fun v => a v + aux v)) a) a) (fun _ => 0)
    pure (fun v => a v / (c.lx * c.ly))
  else pure (fun _ => 0 / (c.lx * c.ly))

/-- State of `calc_fields`. -/
structure FieldState (α : Type) where
  strain : Buf α
  stress : Buf α
  varsNew : Buf α

/-- State of the Gauss point loop of `calc_fields`. -/
structure FieldAux (α : Type) where
  strain : Nat → α
  stress : Nat → α
  varsNew : Buf α

/-- The stores into `elem_strain`, `elem_stress`: /repo/src/assembly.cpp:877-880, 913-916. -/
def fieldStore (nvoi e : Nat) (vol : α) (r : FieldAux α) (s : FieldState α) :
    M (FieldState α) :=
  loop nvoi (fun v s => do
    let a ← s.strain.write (e * nvoi + v) (r.strain v / vol)
    let b ← s.stress.write (e * nvoi + v) (r.stress v / vol)
    pure { s with strain := a, stress := b })
    { s with varsNew := r.varsNew }

/-- One 2D element of `calc_fields`: /repo/src/assembly.cpp:855-880. -/
def fieldElem2D (c : Cfg α) (u : Buf α) (ex ey : Nat) (s : FieldState α) : M (FieldState α) := do
  let r ← loop 4 (fun gp (a : FieldAux α) => do
    let eps ← getStrain2D c u ex ey gp
    let sig ← getStress2D c ex ey eps
    pure { a with strain := fun v => a.strain v + eps v * wg2D c
                  stress := fun v => a.stress v + sig v * wg2D c })
    { strain := fun _ => 0, stress := fun _ => 0, varsNew := s.varsNew }
  fieldStore 3 (gloElem3D c.nx c.ny ex ey 0) (c.dx * c.dy) r s

/-- One 3D element of `calc_fields`: /repo/src/assembly.cpp:890-916. -/
def fieldElem3D (c : Cfg α) (u varsOld : Buf α) (ex ey ez : Nat) (s : FieldState α) :
    M (FieldState α) := do
  let r ← loop 8 (fun gp (a : FieldAux α) => do
    let eps ← getStrain3D c u ex ey ez gp
    let sig ← getStress3D c varsOld a.varsNew ex ey ez gp eps
    pure { strain := fun v => a.strain v + eps v * wg3D c
           stress := fun v => a.stress v + sig.stress v * wg3D c
           varsNew := sig.varsNew })
    { strain := fun _ => 0, stress := fun _ => 0, varsNew := s.varsNew }
  fieldStore 6 (gloElem3D c.nx c.ny ex ey ez) (c.dx * c.dy * c.dz) r s

/-- `calc_fields`: /repo/src/assembly.cpp:846-922. -/
def calcFields (c : Cfg α) (w : Work α) : M (Work α) :=
  if c.dim = 2 then do
    let s ← loop (c.nx - 1) (fun ex s => loop (c.ny - 1) (fun ey s =>
      fieldElem2D c w.u ex ey s) s)
      { strain := w.elemStrain, stress := w.elemStress, varsNew := w.varsNew }
    pure { w with elemStrain := s.strain, elemStress := s.stress, varsNew := s.varsNew }
  else if c.dim = 3 then do
    let s ← loop (c.nx - 1) (fun ex s => loop (c.ny - 1) (fun ey s => loop (c.nz - 1) (fun ez s =>
      fieldElem3D c w.u w.varsOld ex ey ez s) s) s)
      { strain := w.elemStrain, stress := w.elemStress, varsNew := w.varsNew }
    pure { w with elemStrain := s.strain, elemStress := s.stress, varsNew := s.varsNew }
  else pure w

end Verif
