import Verif.Model.Solve
import Verif.Model.EllInit3D

/-!
# Homogenisation and Gauss-point state: /repo/src/homogenize.cpp, /repo/src/micro.cpp
-/

namespace Verif

variable {α : Type} [Scalar α]

/-- `for (v < nvoi) a[v] = f[v];` on an array that keeps its other entries. -/
def setFirst (n : Nat) (f a : Nat → α) : Nat → α := fun v => if v < n then f v else a v

/-- `for (v < nvoi) t[v * nvoi + i] = f(v);`: /repo/src/homogenize.cpp:44-45, 200-201. -/
def setCol (nvoi i : Nat) (f t : Nat → α) : Nat → α :=
  accum nvoi (fun v t => fun q => if q = v * nvoi + i then f v else t q) t

/-- Result of one strain perturbation. -/
structure PertOut (α : Type) where
  sig : Nat → α
  nr : NrOut α

/-- `set_displ(eps); newton_raphson(..); calc_ave_stress(sig);`:
/repo/src/homogenize.cpp:40-42, 169-171, 197-199. -/
def solveStrain (env : Env α) (c : Cfg α) (w : Work α) (eps : Nat → α) : M (PertOut α) := do
  let w ← setDispl c w eps
  let r ← newtonRaphson env c w
  let a ← calcAveStress c r.work
  pure { sig := a.ave, nr := { r with work := { r.work with varsNew := a.varsNew } } }

/-- State of the loop of `calc_ctan_lin`. -/
structure CtanState (α : Type) where
  ctan : Nat → α
  work : Work α

/-- `calc_ctan_lin`: /repo/src/homogenize.cpp:26-47. -/
def calcCtanLin (env : Env α) (c : Cfg α) (ctan : Nat → α) (w : Work α) : M (CtanState α) :=
  let dEps : α := 1.0e-8
  loop c.nvoi (fun i s => do
    let r ← solveStrain env c s.work (fun v => if v = i then 0 + dEps else 0)
    pure { ctan := setCol c.nvoi i (fun v => r.sig v / dEps) s.ctan, work := r.nr.work })
    { ctan := ctan, work := w }

/-- `get_inv_1`: /repo/src/homogenize.cpp:65-75. -/
def getInv1 (dim : Nat) (t : Nat → α) : M α :=
  if dim = 2 then .ok (t 0 + t 1)
  else if dim = 3 then .ok (t 0 + t 1 + t 2)
  else .error .abort

/-- `get_inv_2`, `dim == 3`: /repo/src/homogenize.cpp:77-88.  `none` stands for the returned NAN. -/
def getInv2 (dim : Nat) (t : Nat → α) : Option α :=
  if dim = 3 then some (t 0 * t 1 + t 0 * t 2 + t 1 * t 2 + t 3 * t 3 + t 4 * t 4 + t 5 * t 5)
  else none

/-- `sum_j ctan_lin[i * nvoi + j] * strain[j]`: /repo/src/homogenize.cpp:52-56, 148-152. -/
def linStress (c : Cfg α) (strain : Nat → α) (i : Nat) : α :=
  accum c.nvoi (fun j s => s + c.ctanLin (i * c.nvoi + j) * strain j) 0

/-- `is_linear`: /repo/src/homogenize.cpp:49-63.  Result: the returned value and `inv_max`. -/
def isLinear (c : Cfg α) (invMax : α) (strain : Nat → α) : M (Bool × α) := do
  let inv ← getInv1 c.dim (linStress c strain)
  pure (Scalar.lt (Scalar.abs inv) c.invTol,
    if Scalar.lt invMax (Scalar.abs inv) then Scalar.abs inv else invMax)

/-- `for (i < n) dst[i] = src[i];`: /repo/src/homogenize.cpp:140-141, 180-181, 215-216. -/
def copyInto (n : Nat) (src dst : Buf α) : M (Buf α) :=
  loop n (fun i d => do
    let v ← src.read i
    d.write i v) dst

/-- `for (i < n) dst[i] = 0.0;`: /repo/src/homogenize.cpp:137-138, 177-178. -/
def zeroInto (n : Nat) (dst : Buf α) : M (Buf α) :=
  loop n (fun i d => d.write i 0) dst

/-- The loading of `vars_old`: /repo/src/homogenize.cpp:136-141, /repo/src/output.cpp:33-38. -/
def loadVars (c : Cfg α) (n : Option (Buf α)) (old : Buf α) : M (Buf α) :=
  match n with
  | none => zeroInto c.numIntVars old
  | some b => copyInto c.numIntVars b old

/-- The linear branch: /repo/src/homogenize.cpp:147-161. -/
def linearGp (c : Cfg α) (gp : Gp α) : Gp α :=
  { gp with
    macroStress := setFirst c.nvoi (linStress c gp.macroStrain) gp.macroStress
    macroCtan := setFirst (c.nvoi * c.nvoi) c.ctanLin gp.macroCtan
    nrIts := fun i => if i < 1 + c.nvoi then 0 else gp.nrIts i
    nrErr := setFirst (1 + c.nvoi) (fun _ => 0) gp.nrErr }

/-- The allocation and copy for a non-linear evaluation: /repo/src/homogenize.cpp:173-182.  The
fresh blocks are completely assigned before they are read. -/
def storeVars (c : Cfg α) (nl : Bool) (varsNew : Buf α) (gp : Gp α) : M (Gp α) :=
  if nl = true then
    match gp.intVarsN with
    | none => do
      let n ← zeroInto c.numIntVars ⟨c.numIntVars, fun _ => 0⟩
      let k ← copyInto c.numIntVars varsNew ⟨c.numIntVars, fun _ => 0⟩
      pure { gp with intVarsN := some n, intVarsK := some k }
    | some _ =>
      match gp.intVarsK with
      | none => .error .null
      | some k => do
        let k ← copyInto c.numIntVars varsNew k
        pure { gp with intVarsK := some k }
  else pure gp

/-- A Gauss point together with the scratch memory. -/
structure GpWork (α : Type) where
  gp : Gp α
  work : Work α

/-- One column of the tangent: /repo/src/homogenize.cpp:193-204. -/
def ctanGp (env : Env α) (c : Cfg α) (sig0 : Nat → α) (i : Nat) (s : GpWork α) :
    M (GpWork α) := do
  let dEps : α := 1.0e-8
  let r ← solveStrain env c s.work
    (fun v => if v = i then s.gp.macroStrain v + dEps else s.gp.macroStrain v)
  pure
    { gp := { s.gp with
        macroCtan := setCol c.nvoi i (fun v => (r.sig v - sig0 v) / dEps) s.gp.macroCtan
        nrIts := fun q => if q = 1 + i then r.nr.its else s.gp.nrIts q
        nrErr := fun q => if q = 1 + i then r.nr.err else s.gp.nrErr q }
      work := r.nr.work }

/-- The branch that solves the cell problem: /repo/src/homogenize.cpp:163-206. -/
def solveGp (env : Env α) (c : Cfg α) (gp : Gp α) (w : Work α) : M (GpWork α) := do
  let r ← solveStrain env c w gp.macroStrain
  let gp := { gp with macroStress := setFirst c.nvoi r.sig gp.macroStress }
  let gp ← storeVars c r.nr.nl r.nr.work.varsNew gp
  let gp := { gp with
    nrIts := fun q => if q = 0 then r.nr.its else gp.nrIts q
    nrErr := fun q => if q = 0 then r.nr.err else gp.nrErr q }
  loop c.nvoi (fun i s => ctanGp env c gp.macroStress i s) { gp := gp, work := r.nr.work }

/-- The body of the loop of `homogenize`: /repo/src/homogenize.cpp:136-207. -/
def homogenizeGp (env : Env α) (c : Cfg α) (gp : Gp α) (w : Work α) : M (GpWork α) := do
  let old ← loadVars c gp.intVarsN w.varsOld
  let l ← isLinear c (-1.0e10) gp.macroStrain
  let w := { w with varsOld := old, invMax := l.2 }
  if l.1 = true ∧ gp.intVarsN.isNone = true then
    pure { gp := { linearGp c gp with invMax := w.invMax }, work := w }
  else do
    let s ← solveGp env c gp w
    pure { s with gp := { s.gp with invMax := s.work.invMax } }

/-- The Gauss-point list together with the scratch memory. -/
structure ListWork (α : Type) where
  gauss : List (Gp α)
  work : Work α

/-- The loop of `homogenize`: /repo/src/homogenize.cpp:134-208. -/
def homogenizeList (env : Env α) (c : Cfg α) : List (Gp α) → Work α → M (ListWork α)
  | [], w => pure { gauss := [], work := w }
  | gp :: l, w => do
    let s ← homogenizeGp env c gp w
    let r ← homogenizeList env c l s.work
    pure { gauss := s.gp :: r.gauss, work := r.work }

/-- The object: /repo/include/micro.hpp:66-95. -/
structure Obj (α : Type) where
  cfg : Cfg α
  work : Work α
  gauss : List (Gp α)
  header : Bool

/-- `homogenize`: /repo/src/homogenize.cpp:132-209. -/
def homogenize (env : Env α) (o : Obj α) : M (Obj α) := do
  let r ← homogenizeList env o.cfg o.gauss o.work
  pure { o with gauss := r.gauss, work := r.work }

/-- The search loop and the `push_back` of `set_macro_strain`: /repo/src/homogenize.cpp:92-109. -/
def setStrainList (nvoi : Nat) (id : Int) (eps : Nat → α) (junk : Gp α) :
    List (Gp α) → List (Gp α)
  | [] =>
    [{ junk with id := id, intVarsN := none, intVarsK := none,
                 macroStrain := setFirst nvoi eps junk.macroStrain, invMax := -1.0e10 }]
  | gp :: l =>
    if gp.id = id then { gp with macroStrain := setFirst nvoi eps gp.macroStrain } :: l
    else gp :: setStrainList nvoi id eps junk l

/-- `set_macro_strain`: /repo/src/homogenize.cpp:90-110. -/
def setMacroStrain (env : Env α) (o : Obj α) (id : Int) (eps : Nat → α) : Obj α :=
  { o with
    gauss := setStrainList o.cfg.nvoi id eps (env.gpJunk o.work.tick) o.gauss
    work := { o.work with tick := o.work.tick + 1 } }

/-- The search loop of the getters: `for (gp : gauss_list) if (gp.id == gp_id) { ..; break; }`. -/
def findGp (id : Int) : List (Gp α) → Option (Gp α)
  | [] => none
  | gp :: l => if gp.id = id then some gp else findGp id l

/-- `get_macro_stress`: /repo/src/homogenize.cpp:112-120.  Result: object and caller's buffer. -/
def getMacroStress (o : Obj α) (id : Int) (buf : Nat → α) : Obj α × (Nat → α) :=
  match findGp id o.gauss with
  | some gp => (o, setFirst o.cfg.nvoi gp.macroStress buf)
  | none => (o, buf)

/-- `get_macro_ctan`: /repo/src/homogenize.cpp:122-130. -/
def getMacroCtan (o : Obj α) (id : Int) (buf : Nat → α) : Obj α × (Nat → α) :=
  match findGp id o.gauss with
  | some gp => (o, setFirst (o.cfg.nvoi * o.cfg.nvoi) gp.macroCtan buf)
  | none => (o, buf)

/-- `get_nl_flag`: /repo/src/micro.cpp:167-175. -/
def getNlFlag (o : Obj α) (id : Int) : Obj α × Int :=
  match findGp id o.gauss with
  | some gp => (o, if gp.intVarsN.isSome = true then 1 else 0)
  | none => (o, 0)

/-- The body of the loop of `update_vars`: /repo/src/homogenize.cpp:214-216.  With no internal
variables at all (`num_int_vars == 0`) a NULL `int_vars_k` is not dereferenced. -/
def updateGp (c : Cfg α) (gp : Gp α) : M (Gp α) :=
  match gp.intVarsN with
  | none => pure gp
  | some n =>
    match gp.intVarsK with
    | none => if c.numIntVars = 0 then pure gp else .error .null
    | some k => do
      let n ← copyInto c.numIntVars k n
      pure { gp with intVarsN := some n }

/-- The loop of `update_vars`: /repo/src/homogenize.cpp:213. -/
def updateList (c : Cfg α) : List (Gp α) → M (List (Gp α))
  | [] => pure []
  | gp :: l => do
    let g ← updateGp c gp
    let r ← updateList c l
    pure (g :: r)

/-- `update_vars`: /repo/src/homogenize.cpp:211-217. -/
def updateVars (o : Obj α) : M (Obj α) := do
  let l ← updateList o.cfg o.gauss
  pure { o with gauss := l }

/-! ## Construction -/

/-- Arguments of the constructor: /repo/src/micro.cpp:28-29.  Sizes are natural numbers. -/
structure Args (α : Type) where
  dim : Nat
  size : Nat → Nat
  microType : Int
  microParams : Nat → α
  matTypes : Nat → Int
  params : Nat → α

/-- Memory the constructor does not assign before use or before returning. -/
structure Junk (α : Type) where
  /-- the member `micro_params[4]` when `inv_tol` is initialised from it
  (/repo/src/micro.cpp:37) -/
  invTol : α
  mats : Nat → Material α
  ctanLin : Nat → α
  invMax : α
  b : Nat → α
  du : Nat → α
  u : Nat → α
  elemStress : Nat → α
  elemStrain : Nat → α
  elemType : Nat → Int
  varsOld : Nat → α
  varsNew : Nat → α
  cols : Nat → Int
  vals : Nat → α

/-- The member initialisers: /repo/src/micro.cpp:30-53, and the material list:
/repo/src/micro.cpp:89-112.  `elem_type` has the contents `et`. -/
def mkCfg (a : Args α) (j : Junk α) (et : Buf Int) : Cfg α :=
  let nz := if a.dim = 2 then 1 else a.size 2
  let lz := if a.dim = 2 then 0 else a.microParams 2
  { dim := a.dim, nx := a.size 0, ny := a.size 1, nz := nz
    lx := a.microParams 0, ly := a.microParams 1, lz := lz
    dx := a.microParams 0 / ((a.size 0 - 1 : Nat) : α)
    dy := a.microParams 1 / ((a.size 1 - 1 : Nat) : α)
    dz := lz / ((nz - 1 : Nat) : α)
    width := a.microParams 3
    invTol := j.invTol
    microType := a.microType
    mats := fun i => if i < 2 then
        mkMaterial (fun k => a.params (i * 10 + k)) (a.matTypes i) (j.mats i)
      else j.mats i
    elemType := et
    ctanLin := j.ctanLin }

/-- The loops filling `elem_type`: /repo/src/micro.cpp:118-124, 126-134. -/
def fillElemType (c : Cfg α) (et : Buf Int) : M (Buf Int) :=
  if c.dim = 2 then
    loop (c.nx - 1) (fun ex et => loop (c.ny - 1) (fun ey et => do
      let t ← getElemType2D c ex ey
      et.write (gloElem3D c.nx c.ny ex ey 0) t) et) et
  else
    loop (c.nx - 1) (fun ex et => loop (c.ny - 1) (fun ey et => loop (c.nz - 1) (fun ez et => do
      let t ← getElemType3D c ex ey ez
      et.write (gloElem3D c.nx c.ny ex ey ez) t) et) et) et

/-- The constructor without its files: /repo/src/micro.cpp:28-138.  A failed assertion on `dim`
aborts; for other values of `micro_type` the unassigned `nParams` bounds a loop. -/
def construct (env : Env α) (a : Args α) (j : Junk α) : M (Obj α) :=
  if ¬ (a.dim = 2 ∨ a.dim = 3) then .error .abort
  else if ¬ (a.microType = 0 ∨ a.microType = 1) then .error .uninit
  else do
    let c0 := mkCfg a j ⟨0, j.elemType⟩
    let et ← fillElemType c0 ⟨c0.nelem, j.elemType⟩
    let c := mkCfg a j et
    let A ← if c.dim = 2 then ellInit2D j.cols j.vals c.dim c.nx c.ny
      else ellInit3D j.cols j.vals c.dim c.nx c.ny c.nz
    let w : Work α :=
      { tick := 0, A := A
        u := ⟨c.nn * c.dim, j.u⟩, du := ⟨c.nn * c.dim, j.du⟩, b := ⟨c.nn * c.dim, j.b⟩
        elemStress := ⟨c.nelem * c.nvoi, j.elemStress⟩
        elemStrain := ⟨c.nelem * c.nvoi, j.elemStrain⟩
        varsOld := ⟨c.numIntVars, j.varsOld⟩, varsNew := ⟨c.numIntVars, j.varsNew⟩
        invMax := j.invMax }
    let r ← calcCtanLin env c j.ctanLin w
    pure { cfg := { c with ctanLin := r.ctan }, work := r.work, gauss := [], header := false }

end Verif
