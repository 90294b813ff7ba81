import Verif.Model.Mem

/-!
# Structured ELL matrices: /repo/src/ell.cpp, /repo/include/ell.hpp

Naming: `nF` is `nFields`.  Indices are natural numbers; 32-bit overflow is treated in
`Verif.Props.Int32`.  Subtractions such as `nx - 1` are natural-number subtractions; they agree
with C++ because the sizes are at least 1 and because a loop with a negative bound runs 0 times.
-/

namespace Verif

/-- `ell_matrix`: /repo/include/ell.hpp:24-30. -/
structure Ell (α : Type) where
  nrow : Nat
  ncol : Nat
  nnz : Nat
  cols : Buf Int
  vals : Buf α

/-- `ell_solver`: /repo/include/ell.hpp:32-37. -/
structure EllSolver (α : Type) where
  maxIts : Int
  its : Int
  minTol : α
  err : α

/-- `nod_index`: /repo/src/ell.cpp:28. -/
def nodIndex (nx ny i j k : Nat) : Nat := k * nx * ny + j * nx + i

section generic
variable {α : Type} [Scalar α]

/-- `ell_set_zero_mat`: /repo/src/ell.cpp:40-46. -/
def ellSetZeroMat (m : Ell α) : M (Ell α) := do
  let v ← loop m.nrow (fun i v =>
    loop m.nnz (fun j v => v.write (i * m.nnz + j) 0) v) m.vals
  pure { m with vals := v }

/-- `ell_mvp_2D`: /repo/src/ell.cpp:48-56.  `x` and `y` are distinct blocks at every call. -/
def ellMvp2D (m : Ell α) (x y : Buf α) : M (Buf α) :=
  loop m.nrow (fun i y => do
    let y ← y.write i 0
    loop m.nnz (fun j y => do
      let yi ← y.read i
      let a ← m.vals.read ((i * m.nnz) + j)
      let c ← m.cols.read ((i * m.nnz) + j)
      let xc ← x.readI c
      y.write i (yi + a * xc)) y) y

/-- The loop filling `k[i * nFields + d] = 1 / vals[...]`: /repo/src/ell.cpp:72-76, 142-146,
231-243.  `slot` is the literal 4 (2D) or 13 (3D). -/
def diagLoop (m : Ell α) (nF nn slot : Nat) (k : Buf α) : M (Buf α) :=
  loop nn (fun i k => loop nF (fun d k => do
    let a ← m.vals.read (i * nF * m.nnz + slot * nF + d * m.nnz + d)
    k.write (i * nF + d) (1 / a)) k) k

/-- `for (i < nrow) r[i] -= b[i]`: /repo/src/ell.cpp:150-151, 246-247. -/
def subLoop (n : Nat) (b r : Buf α) : M (Buf α) :=
  loop n (fun i r => do
    let ri ← r.read i
    let bi ← b.read i
    r.write i (ri - bi)) r

/-- `s = 0; for (i < n) s += a[i] * b[i]`: /repo/src/ell.cpp:155-157, 166-168, 180-182
(and 251-253, 261-263, 275-277). -/
def dotLoop (n : Nat) (a b : Buf α) : M α :=
  loop n (fun i s => do
    let ai ← a.read i
    let bi ← b.read i
    pure (s + ai * bi)) 0

/-- `for (i < n) z[i] = k[i] * r[i]`: /repo/src/ell.cpp:163-164, 258-259. -/
def mulLoop (n : Nat) (k r z : Buf α) : M (Buf α) :=
  loop n (fun i z => do
    let ki ← k.read i
    let ri ← r.read i
    z.write i (ki * ri)) z

/-- `for (i < n) p[i] = z[i]`: /repo/src/ell.cpp:171-172, 266-267. -/
def copyLoop (n : Nat) (z p : Buf α) : M (Buf α) :=
  loop n (fun i p => do
    let zi ← z.read i
    p.write i zi) p

/-- `for (i < n) p[i] = z[i] + beta * p[i]`: /repo/src/ell.cpp:175-176, 270-271. -/
def xpbyLoop (n : Nat) (beta : α) (z p : Buf α) : M (Buf α) :=
  loop n (fun i p => do
    let zi ← z.read i
    let pi ← p.read i
    p.write i (zi + beta * pi)) p

/-- `for (i < n) { x[i] -= d * p[i]; r[i] -= d * q[i]; }`: /repo/src/ell.cpp:185-188,
280-283. -/
def stepLoop (n : Nat) (d : α) (p q : Buf α) (xr : Buf α × Buf α) : M (Buf α × Buf α) :=
  loop n (fun i xr => do
    let xi ← xr.1.read i
    let pi ← p.read i
    let x ← xr.1.write i (xi - d * pi)
    let ri ← xr.2.read i
    let qi ← q.read i
    let r ← xr.2.write i (ri - d * qi)
    pure (x, r)) xr

/-- Local variables of the CG loop: /repo/src/ell.cpp:131-138, 222-229. -/
structure CgState (α : Type) where
  its : Nat
  x : Buf α
  r : Buf α
  z : Buf α
  p : Buf α
  q : Buf α
  rho0 : α
  err : α

/-- One pass through the body of the do-while of `ell_solve_cgpd_2D` /
`ell_solve_cgpd_struct` up to the `break`: /repo/src/ell.cpp:155-159, 251-254. -/
def cgErr (m : Ell α) (s : CgState α) : M α := do
  let e ← dotLoop m.nrow s.r s.r
  pure (Scalar.sqrt e)

/-- `if (its == 0) p = z else p = z + beta * p`: /repo/src/ell.cpp:170-177, 265-272.  (`beta` is
only evaluated in the second case.) -/
def cgDir (n its : Nat) (beta : α) (z p : Buf α) : M (Buf α) :=
  if its = 0 then copyLoop n z p else xpbyLoop n beta z p

/-- The remainder of the body: /repo/src/ell.cpp:163-191, 258-286.  On the first pass `rho_0`
and the contents of `p` are not read. -/
def cgBody (m : Ell α) (k : Buf α) (s : CgState α) (err : α) : M (CgState α) := do
  let z ← mulLoop m.nrow k s.r s.z
  let rho1 ← dotLoop m.nrow s.r z
  let p ← cgDir m.nrow s.its (rho1 / s.rho0) z s.p
  let q ← ellMvp2D m p s.q
  let aux ← dotLoop m.nrow p q
  let d := rho1 / aux
  let xr ← stepLoop m.nrow d p q (s.x, s.r)
  pure { its := s.its + 1, x := xr.1, r := xr.2, z := z, p := p, q := q, rho0 := rho1, err := err }

/-- The do-while loop: /repo/src/ell.cpp:153-193, 249-288. -/
def cgLoop (m : Ell α) (k : Buf α) (maxIts : Int) (minTol : α) (s : CgState α) :
    M (CgState α) := do
  let err ← cgErr m s
  if Scalar.lt err minTol then
    pure { s with err := err }
  else
    let s' ← cgBody m k s err
    if _h : (s.its : Int) + 1 < maxIts then
      cgLoop m k maxIts minTol { s' with its := s.its + 1 }
    else
      pure s'
termination_by (maxIts - s.its).toNat
decreasing_by simp; omega

/-- Common body of the two CG solvers after the NULL check.  `junk i` is the content of the
`i`-th work buffer (`k r z p q`) returned by malloc and of the unassigned `rho_0`. -/
def cgSolve (junk : Nat → Nat → α) (solver : EllSolver α) (m : Ell α) (nF nn slot : Nat)
    (b x : Buf α) : M (EllSolver α × Buf α) := do
  let mk := fun i => (⟨m.nrow, junk i⟩ : Buf α)
  let k ← diagLoop m nF nn slot (mk 0)
  let r ← ellMvp2D m x (mk 1)
  let r ← subLoop m.nrow b r
  let s ← cgLoop m k solver.maxIts solver.minTol
    { its := 0, x := x, r := r, z := mk 2, p := mk 3, q := mk 4,
      rho0 := junk 5 0, err := junk 5 1 }
  pure ({ solver with err := s.err, its := s.its }, s.x)

/-- `ell_solve_cgpd_2D`: /repo/src/ell.cpp:116-205.  `none` is NULL.  Result: return code,
solver, x. -/
def ellSolveCgpd2D (junk : Nat → Nat → α) (solver : EllSolver α) (m : Option (Ell α))
    (nF nx ny : Nat) (b x : Option (Buf α)) : M (Int × EllSolver α × Option (Buf α)) :=
  match m, b, x with
  | some m, some b, some x => do
    let r ← cgSolve junk solver m nF (nx * ny) 4 b x
    pure (0, r.1, some r.2)
  | _, _, x => pure (1, solver, x)

/-- `ell_solve_cgpd_struct`: /repo/src/ell.cpp:207-300.  For `dim` other than 2 and 3 the
preconditioner is left unassigned (`nn = 0` trips of the loop). -/
def ellSolveCgpdStruct (junk : Nat → Nat → α) (solver : EllSolver α) (m : Option (Ell α))
    (nF dim nn : Nat) (b x : Option (Buf α)) : M (Int × EllSolver α × Option (Buf α)) :=
  match m, b, x with
  | some m, some b, some x => do
    let r ← cgSolve junk solver m nF (if dim = 2 ∨ dim = 3 then nn else 0)
      (if dim = 2 then 4 else 13) b x
    pure (0, r.1, some r.2)
  | _, _, x => pure (1, solver, x)

/-- The inner `while (j < nnz)` of the relaxation sweep from slot `j` on, with `t = nnz - j`
slots left: /repo/src/ell.cpp:89-95. -/
def jacobiRow (m : Ell α) (i : Nat) (x : Buf α) : Nat → Nat → α → M α
  | 0, _, aux => pure aux
  | t + 1, j, aux => do
    let c ← m.cols.read (i * m.nnz + j)
    if c = -1 then pure aux
    else do
      let aux ← ifRun (c ≠ (i : Int)) (fun aux => do
          let a ← m.vals.read (i * m.nnz + j)
          let xc ← x.readI c
          pure (aux + a * xc)) aux
      jacobiRow m i x t (j + 1) aux

/-- One sweep `while (i < nrow) { ...; x[i] = k[i] * (-1 * aux + b[i]); i++; }`:
/repo/src/ell.cpp:86-98. -/
def jacobiSweep (m : Ell α) (k b x : Buf α) : M (Buf α) :=
  loop m.nrow (fun i x => do
    let aux ← jacobiRow m i x m.nnz 0 0
    let ki ← k.read i
    let bi ← b.read i
    x.write i (ki * ((-1) * aux + bi))) x

/-- The residual norm computed after a sweep: /repo/src/ell.cpp:100-106.  The result also
carries the buffer `e_i`. -/
def jacobiErr (m : Ell α) (b x e : Buf α) : M (α × Buf α) := do
  let e ← ellMvp2D m x e
  let r ← loop m.nrow (fun i (s : α × Buf α) => do
    let ei ← s.2.read i
    let bi ← b.read i
    let e ← s.2.write i (ei - bi)
    let ei ← e.read i
    pure (s.1 + ei * ei, e)) (0, e)
  pure (Scalar.sqrt r.1, r.2)

/-- The outer `while (its < max_its)`: /repo/src/ell.cpp:83-110 with `t` iterations left.
Result: `err`, `its`, `x`. -/
def jacobiLoop (m : Ell α) (k b : Buf α) (minTol : α) :
    Nat → Nat → α → Buf α → Buf α → M (α × Nat × Buf α)
  | 0, its, err, x, _ => pure (err, its, x)
  | t + 1, its, _, x, e => do
    let x ← jacobiSweep m k b x
    let r ← jacobiErr m b x e
    if Scalar.lt r.1 minTol then pure (r.1, its, x)
    else jacobiLoop m k b minTol t (its + 1) r.1 x r.2

/-- `ell_solve_jacobi_2D`: /repo/src/ell.cpp:58-114.  With `max_its <= 0` the stored `err` is
the unassigned local variable (`junk 2 0`). -/
def ellSolveJacobi2D (junk : Nat → Nat → α) (solver : EllSolver α) (m : Option (Ell α))
    (nF nx ny : Nat) (b x : Option (Buf α)) : M (Int × EllSolver α × Option (Buf α)) :=
  match m, b, x with
  | some m, some b, some x => do
    let k ← diagLoop m nF (nx * ny) 4 ⟨m.nrow, junk 0⟩
    let r ← jacobiLoop m k b solver.minTol solver.maxIts.toNat 0 (junk 2 0) x ⟨m.nrow, junk 1⟩
    pure (0, { solver with err := r.1, its := r.2.1 }, some r.2.2)
  | _, _, x => pure (1, solver, x)

/-- `cols_row` of `ell_add_struct2D`: /repo/src/ell.cpp:337-340. -/
def colsRow2D (k n : Nat) : Nat :=
  (([[4, 5, 8, 7], [3, 4, 7, 6], [0, 1, 4, 3], [1, 2, 5, 4]] : List (List Nat)).getD k []).getD n 0

/-- `sn` of `ell_add_struct2D`: /repo/src/ell.cpp:342-345. -/
def sn2D (nx ex ey k : Nat) : Nat :=
  ([ey * nx + ex, ey * nx + ex + 1, (ey + 1) * nx + ex + 1, (ey + 1) * nx + ex]).getD k 0

/-- `ell_add_struct2D`: /repo/src/ell.cpp:329-358. -/
def ellAddStruct2D (m : Ell α) (ex ey : Nat) (Ae : Buf α) (nF nx _ny : Nat) : M (Ell α) := do
  let npe := 4
  let nnz := m.nnz
  let nFnnz := nF * nnz
  let npenF := npe * nF
  let npenF2 := npe * nF * nF
  let v ← loop nF (fun i v => loop npe (fun n v => loop 4 (fun k v => loop nF (fun j v => do
    let a ← v.read (sn2D nx ex ey k * nFnnz + i * nnz + colsRow2D k n * nF + j)
    let e ← Ae.read (k * npenF2 + i * npenF + n * nF + j)
    v.write (sn2D nx ex ey k * nFnnz + i * nnz + colsRow2D k n * nF + j) (a + e)) v) v) v) m.vals
  pure { m with vals := v }

/-- `cols_row` of `ell_add_struct3D`: /repo/src/ell.cpp:369-376. -/
def colsRow3D (k n : Nat) : Nat :=
  (([[13, 14, 17, 16, 22, 23, 26, 25],
     [12, 13, 16, 15, 21, 22, 25, 24],
     [9, 10, 13, 12, 18, 19, 22, 21],
     [10, 11, 14, 13, 19, 20, 23, 22],
     [4, 5, 8, 7, 13, 14, 17, 16],
     [3, 4, 7, 6, 12, 13, 16, 15],
     [0, 1, 4, 3, 9, 10, 13, 12],
     [1, 2, 5, 4, 10, 11, 14, 13]] : List (List Nat)).getD k []).getD n 0

/-- `sn` of `ell_add_struct3D`: /repo/src/ell.cpp:378-387. -/
def sn3D (nx ny ex ey ez k : Nat) : Nat :=
  let n0 := ez * (nx * ny) + ey * nx + ex
  let n1 := ez * (nx * ny) + ey * nx + ex + 1
  let n2 := ez * (nx * ny) + (ey + 1) * nx + ex + 1
  let n3 := ez * (nx * ny) + (ey + 1) * nx + ex
  ([n0, n1, n2, n3, n0 + nx * ny, n1 + nx * ny, n2 + nx * ny, n3 + nx * ny]).getD k 0

/-- `ell_add_struct3D`: /repo/src/ell.cpp:360-399. -/
def ellAddStruct3D (m : Ell α) (ex ey ez : Nat) (Ae : Buf α) (nF nx ny _nz : Nat) :
    M (Ell α) := do
  let npe := 8
  let nnz := m.nnz
  let nFnnz := nF * nnz
  let npenF := npe * nF
  let npenF2 := npe * nF * nF
  let v ← loop nF (fun i v => loop npe (fun n v => loop 8 (fun k v => loop nF (fun j v => do
    let a ← v.read (sn3D nx ny ex ey ez k * nFnnz + i * nnz + colsRow3D k n * nF + j)
    let e ← Ae.read (k * npenF2 + i * npenF + n * nF + j)
    v.write (sn3D nx ny ex ey ez k * nFnnz + i * nnz + colsRow3D k n * nF + j) (a + e))
      v) v) v) m.vals
  pure { m with vals := v }

/-- Row `d` of node `n` becomes an identity row: the statement pair
`for (j < nnz) mvals[n * nFields * nnz + d * nnz + j] = 0;
 mvals[n * nFields * nnz + d * nnz + slot * nFields + d] = 1;`
repeated at /repo/src/ell.cpp:411-414 and following (slot 4), 549-552 and following (slot 13). -/
def idRow (nF nnz slot n d : Nat) (v : Buf α) : M (Buf α) := do
  let v ← loop nnz (fun j v => v.write (n * nF * nnz + d * nnz + j) 0) v
  v.write (n * nF * nnz + d * nnz + slot * nF + d) 1

/-- The statement `for (auto l : tmp) for (d2 < nFields)
mvals[n * nFields * nnz + d1 * nnz + l * nFields + d2] = 0;`: /repo/src/ell.cpp:451-453 and
following. -/
def zeroSlots (nF nnz n d1 : Nat) (tmp : List Nat) (v : Buf α) : M (Buf α) :=
  loopList tmp (fun l v =>
    loop nF (fun d2 v => v.write (n * nF * nnz + d1 * nnz + l * nF + d2) 0) v) v

/-- `ell_set_bc_2D`: /repo/src/ell.cpp:401-535. -/
def ellSetBc2D (m : Ell α) (nF nx ny : Nat) : M (Ell α) := do
  let nnz := m.nnz
  let v := m.vals
  -- y=0 (408-416)
  let v ← loop nF (fun d v => loop nx (fun n v => idRow nF nnz 4 n d v) v) v
  -- y=ly (417-425)
  let v ← loop nF (fun d v => loop nx (fun n v => idRow nF nnz 4 (n + (ny - 1) * nx) d v) v) v
  -- x=0 (426-434)
  let v ← loop nF (fun d v => loop (ny - 2) (fun n v => idRow nF nnz 4 ((n + 1) * nx) d v) v) v
  -- x=lx (435-443)
  let v ← loop nF (fun d v => loop (ny - 2) (fun n v =>
    idRow nF nnz 4 ((n + 2) * nx - 1) d v) v) v
  -- y = hy (447-456): n starts at nx + 2 and advances by 1
  let v ← loop nF (fun d1 v => loop (nx - 4) (fun i v =>
    zeroSlots nF nnz (nx + 2 + i) d1 [0, 1, 2] v) v) v
  -- y = ly - hy (458-467): the statement uses the literal 6 for each l = 6, 7, 8
  let v ← loop nF (fun d1 v => loop (nx - 4) (fun i v =>
    zeroSlots nF nnz ((ny - 2) * nx + 2 + i) d1 [6, 6, 6] v) v) v
  -- x = hx (469-480)
  let v ← loop nF (fun d1 v => loop (ny - 4) (fun i v =>
    zeroSlots nF nnz (2 * nx + 1 + i * nx) d1 [0, 3, 6] v) v) v
  -- x = lx - hx (482-493): n starts at 4 * nx - 1
  let v ← loop nF (fun d1 v => loop (ny - 4) (fun i v =>
    zeroSlots nF nnz (4 * nx - 1 + i * nx) d1 [2, 5, 8] v) v) v
  -- x = hx , y = hy (495-504)
  let v ← loop nF (fun d1 v => zeroSlots nF nnz (nx + 1) d1 [0, 1, 2, 3, 6] v) v
  -- x = lx - hx , y = hy (506-514)
  let v ← loop nF (fun d1 v => zeroSlots nF nnz (2 * nx - 2) d1 [0, 1, 2, 5, 8] v) v
  -- x = lx - hx , y = ly - hy (516-524): n = (ny - 1) * nx - 1
  let v ← loop nF (fun d1 v => zeroSlots nF nnz ((ny - 1) * nx - 1) d1 [2, 5, 6, 7, 8] v) v
  -- x = hx , y = ly - hy (526-534)
  let v ← loop nF (fun d1 v => zeroSlots nF nnz ((ny - 2) * nx + 1) d1 [0, 3, 6, 7, 8] v) v
  pure { m with vals := v }

/-- `ell_set_bc_3D`: /repo/src/ell.cpp:537-705. -/
def ellSetBc3D (m : Ell α) (nF nx ny nz : Nat) : M (Ell α) := do
  let nnz := m.nnz
  let v := m.vals
  -- z=0 (544-555)
  let v ← loop nF (fun d v => loop nx (fun i v => loop ny (fun j v =>
    idRow nF nnz 13 (nodIndex nx ny i j 0) d v) v) v) v
  -- z=lz (557-568)
  let v ← loop nF (fun d v => loop nx (fun i v => loop ny (fun j v =>
    idRow nF nnz 13 (nodIndex nx ny i j (nz - 1)) d v) v) v) v
  -- y=0 (570-581)
  let v ← loop nF (fun d v => loop nx (fun i v => loop nz (fun k v =>
    idRow nF nnz 13 (nodIndex nx ny i 0 k) d v) v) v) v
  -- y=ly (583-594)
  let v ← loop nF (fun d v => loop nx (fun i v => loop nz (fun k v =>
    idRow nF nnz 13 (nodIndex nx ny i (ny - 1) k) d v) v) v) v
  -- x=0 (596-607)
  let v ← loop nF (fun d v => loop ny (fun j v => loop nz (fun k v =>
    idRow nF nnz 13 (nodIndex nx ny 0 j k) d v) v) v) v
  -- x=lx (609-620)
  let v ← loop nF (fun d v => loop ny (fun j v => loop nz (fun k v =>
    idRow nF nnz 13 (nodIndex nx ny (nx - 1) j k) d v) v) v) v
  -- z= 0 + dz (622-634)
  let v ← ifRun (2 < nz) (fun v =>
      loop nF (fun d1 v => loopFrom 1 (nx - 1) (fun i v => loopFrom 1 (ny - 1) (fun j v =>
        zeroSlots nF nnz (nodIndex nx ny i j 1) d1 [0, 1, 2, 3, 4, 5, 6, 7, 8] v) v) v) v) v
  -- z= lz - dz (635-647)
  let v ← ifRun (2 < nz) (fun v =>
      loop nF (fun d1 v => loopFrom 1 (nx - 1) (fun i v => loopFrom 1 (ny - 1) (fun j v =>
        zeroSlots nF nnz (nodIndex nx ny i j (nz - 2)) d1
          [18, 19, 20, 21, 22, 23, 24, 25, 26] v) v) v) v) v
  -- y= 0 + dy (648-661)
  let v ← ifRun (2 < ny) (fun v =>
      loop nF (fun d1 v => loopFrom 1 (nx - 1) (fun i v => loopFrom 1 (nz - 1) (fun k v =>
        zeroSlots nF nnz (nodIndex nx ny i 1 k) d1 [0, 1, 2, 9, 10, 11, 18, 19, 20] v) v) v) v) v
  -- y= ly - dy (662-675), without a guard in the source
  let v ← loop nF (fun d1 v => loopFrom 1 (nx - 1) (fun i v => loopFrom 1 (nz - 1) (fun k v =>
        zeroSlots nF nnz (nodIndex nx ny i (ny - 2) k) d1
          [6, 7, 8, 15, 16, 17, 24, 25, 26] v) v) v) v
  -- x= 0 + dy (676-689)
  let v ← ifRun (2 < nx) (fun v =>
      loop nF (fun d1 v => loopFrom 1 (ny - 1) (fun j v => loopFrom 1 (nz - 1) (fun k v =>
        zeroSlots nF nnz (nodIndex nx ny 1 j k) d1 [0, 3, 6, 9, 12, 15, 18, 21, 24] v) v) v) v) v
  -- x= lx - dx (690-703)
  let v ← ifRun (2 < nx) (fun v =>
      loop nF (fun d1 v => loopFrom 1 (ny - 1) (fun j v => loopFrom 1 (nz - 1) (fun k v =>
        zeroSlots nF nnz (nodIndex nx ny (nx - 2) j k) d1
          [2, 5, 8, 11, 14, 17, 20, 23, 26] v) v) v) v) v
  pure { m with vals := v }

end generic

/-- Value of a right-hand side of the tables below: `none` is the literal `0`, `some e` is
`(e) * nFields + d2`. -/
def colVal (nF : Nat) (e : Option Int) (d2 : Nat) : Int :=
  match e with
  | none => 0
  | some e => e * nF + d2

/-- One loop nest `mcols = &cols[nn * nFields * nnz]; for (d1) for (d2) { mcols[0 * nFields +
nnz * d1 + d2] = ...; mcols[1 * nFields + nnz * d1 + d2] = ...; ... }`, e.g.
/repo/src/ell.cpp:880-911. -/
def fillNode (nF nnz n : Nat) (tab : List (Option Int)) (c : Buf Int) : M (Buf Int) :=
  loop nF (fun d1 c => loop nF (fun d2 c => loop tab.length (fun s c =>
    c.write (n * nF * nnz + (s * nF + nnz * d1 + d2)) (colVal nF (tab.getD s none) d2)) c) c) c

/-- The table chosen for node `i` by the if-chain of `ell_init_2D`: /repo/src/ell.cpp:724-860.
Column expressions are computed in `Int`. -/
def stencil2D (nx ny i : Nat) : List (Option Int) :=
  let I : Int := i
  let NX : Int := nx
  if i = 0 then -- 724-737
    [none, none, none, none, some I, some (I + 1), none, some (I + NX), some (I + NX + 1)]
  else if i = nx - 1 then -- 738-751
    [none, none, none, some (I - 1), some I, none, some (I + NX - 1), some (I + NX), none]
  else if i = nx * ny - 1 then -- 752-765
    [some (I - NX - 1), some (I - NX), none, some (I - 1), some I, none, none, none, none]
  else if i = (ny - 1) * nx then -- 766-779
    [none, some (I - NX), some (I - NX + 1), none, some I, some (I + 1), none, none, none]
  else if i < nx then -- 782-795
    [none, none, none, some (I - 1), some I, some (I + 1), some (I + NX - 1), some (I + NX),
     some (I + NX + 1)]
  else if i > (ny - 1) * nx then -- 798-811
    [some (I - NX - 1), some (I - NX), some (I - NX + 1), some (I - 1), some I, some (I + 1),
     none, none, none]
  else if i % nx = 0 then -- 814-827
    [none, some (I - NX), some (I - NX + 1), none, some I, some (I + 1), none, some (I + NX),
     some (I + NX + 1)]
  else if (i + 1) % nx = 0 then -- 830-843; line 840 assigns column (i) to slot 7
    [some (I - NX - 1), some (I - NX), none, some (I - 1), some I, none, some (I + NX - 1),
     some I, none]
  else -- 846-859
    [some (I - NX - 1), some (I - NX), some (I - NX + 1), some (I - 1), some I, some (I + 1),
     some (I + NX - 1), some (I + NX), some (I + NX + 1)]

/-- `ell_init_2D`: /repo/src/ell.cpp:707-863.  `jc`, `jv` are the contents of the freshly
malloc'ed blocks. -/
def ellInit2D {α : Type} (jc : Nat → Int) (jv : Nat → α) (nF nx ny : Nat) : M (Ell α) := do
  let nn := nx * ny
  let nnz := 9 * nF
  let nrow := nn * nF
  let c ← loop nn (fun i c => fillNode nF nnz i (stencil2D nx ny i) c) ⟨nnz * nrow, jc⟩
  pure { nrow := nrow, ncol := nrow, nnz := nnz, cols := c, vals := ⟨nnz * nrow, jv⟩ }

end Verif
