import Verif.Model.Wrapper

/-!
# Allocation and release of heap blocks

The functions of the other modules once more, now with the calls of `malloc`, `free` and `new`.  What
happens between those calls is taken from the other modules (`lift`).  The `C18_erase` theorems of
`Verif.Props.Heap` show that the two versions compute the same.

Simplifications: `malloc` succeeds (the results are tested by `assert` in the constructor and nowhere
else); it returns an address that was never returned before, so that every second release of a block is
noticed; memory owned by `std::list` and `std::ofstream` is not counted, their destructors release it.
-/

namespace Verif

/-- Outcomes other than a normal return. -/
inductive HFault
  | num (f : Fault)    -- a fault of the other modules
  | badFree            -- `free` of a block that is not allocated (undefined behaviour)
  deriving DecidableEq

/-- The heap: the next address and the blocks in use. -/
structure Heap where
  next : Nat
  live : List Nat

/-- Computations on the heap. -/
def H (β : Type) : Type := Heap → Except HFault (β × Heap)

namespace H

/-- A value. -/
def ret {β : Type} (b : β) : H β := fun h => .ok (b, h)

/-- One computation after the other. -/
def seq {β γ : Type} (x : H β) (f : β → H γ) : H γ := fun h =>
  match x h with
  | .ok (b, h') => f b h'
  | .error e => .error e

instance : Monad H where
  pure := ret
  bind := seq

end H

/-- A computation that does not touch the heap. -/
def lift {β : Type} (x : M β) : H β := fun h =>
  match x with
  | .ok b => .ok (b, h)
  | .error e => .error (.num e)

/-- `malloc(..)`. -/
def malloc : H Nat := fun h => .ok (h.next, ⟨h.next + 1, h.next :: h.live⟩)

/-- `free(p)`; `free(NULL)` does nothing. -/
def free : Option Nat → H Unit
  | none => fun h => .ok ((), h)
  | some p => fun h =>
    if p ∈ h.live then .ok ((), { h with live := h.live.erase p }) else .error .badFree

/-- `for (int i = 0; i < n; i++) s = f(i, s);` -/
def hLoop {σ : Type} : Nat → (Nat → σ → H σ) → σ → H σ
  | 0, _, s => pure s
  | n + 1, f, s => hLoop n f s >>= f n

section
variable {α : Type} [Scalar α]

/-! ## Solvers -/

/-- `ell_solve_cgpd_2D`: /repo/src/ell.cpp:116-205, blocks: 132-136, 198-202. -/
def hCgpd2D (junk : Nat → Nat → α) (solver : EllSolver α) (m : Option (Ell α))
    (nF nx ny : Nat) (b x : Option (Buf α)) : H (Int × EllSolver α × Option (Buf α)) :=
  if m.isNone = true ∨ b.isNone = true ∨ x.isNone = true then pure (1, solver, x)
  else do
    let k ← malloc
    let r ← malloc
    let z ← malloc
    let p ← malloc
    let q ← malloc
    let y ← lift (ellSolveCgpd2D junk solver m nF nx ny b x)
    free (some k)
    free (some r)
    free (some z)
    free (some p)
    free (some q)
    pure y

/-- `ell_solve_cgpd_struct`: /repo/src/ell.cpp:207-300, blocks: 223-227, 293-297. -/
def hCgpdStruct (junk : Nat → Nat → α) (solver : EllSolver α) (m : Option (Ell α))
    (nF dim nn : Nat) (b x : Option (Buf α)) : H (Int × EllSolver α × Option (Buf α)) :=
  if m.isNone = true ∨ b.isNone = true ∨ x.isNone = true then pure (1, solver, x)
  else do
    let k ← malloc
    let r ← malloc
    let z ← malloc
    let p ← malloc
    let q ← malloc
    let y ← lift (ellSolveCgpdStruct junk solver m nF dim nn b x)
    free (some k)
    free (some r)
    free (some z)
    free (some p)
    free (some q)
    pure y

/-- `ell_solve_jacobi_2D`: /repo/src/ell.cpp:58-114, blocks: 68-69.  There is no `free`. -/
def hJacobi2D (junk : Nat → Nat → α) (solver : EllSolver α) (m : Option (Ell α))
    (nF nx ny : Nat) (b x : Option (Buf α)) : H (Int × EllSolver α × Option (Buf α)) :=
  if m.isNone = true ∨ b.isNone = true ∨ x.isNone = true then pure (1, solver, x)
  else do
    let _k ← malloc
    let _e ← malloc
    lift (ellSolveJacobi2D junk solver m nF nx ny b x)

/-- `solve`: /repo/src/solve.cpp:32-44. -/
def hSolve (env : Env α) (c : Cfg α) (w : Work α) : H (Work α) :=
  let s : EllSolver α :=
    { maxIts := cgMaxIts, its := env.solverIts w.tick, minTol := cgMaxTol,
      err := env.solverErr w.tick }
  if c.dim = 2 then do
    let r ← hCgpd2D (env.cgJunk w.tick) s (some w.A) c.dim c.nx c.ny (some w.b) (some w.du)
    pure { w with du := r.2.2.getD w.du, tick := w.tick + 1 }
  else if c.dim = 3 then do
    let r ← hCgpdStruct (env.cgJunk w.tick) s (some w.A) c.dim c.dim c.nn (some w.b) (some w.du)
    pure { w with du := r.2.2.getD w.du, tick := w.tick + 1 }
  else pure w

/-! ## Newton-Raphson and homogenisation -/

/-- One correction: /repo/src/solve.cpp:55-61. -/
def hNrCorrect (env : Env α) (c : Cfg α) (w : Work α) : H (Work α) := do
  let w ← lift (assemblyMat c w)
  let du ← lift (loop (c.nn * c.dim) (fun i du => du.write i 0) w.du)
  let w ← hSolve env c { w with du := du }
  let u ← lift (loop (c.nn * c.dim) (fun i u => do
    let a ← u.read i
    let d ← w.du.read i
    u.write i (a + d)) w.u)
  pure { w with u := u }

/-- The do-while loop of `newton_raphson`: /repo/src/solve.cpp:50-65. -/
def hNrLoop (env : Env α) (c : Cfg α) : Nat → Work α → H (NrOut α)
  | 0, _ => lift (.error .fuel)
  | fuel + 1, w => do
    let r ← lift (assemblyRhs c w)
    if Scalar.lt r.norm nrMaxTol then
      pure { work := r.work, nl := r.nl, its := 0, err := r.norm }
    else do
      let w ← hNrCorrect env c r.work
      match env.peek w.tick with
      | none => lift (.error .oob)
      | some v =>
        let w := { w with tick := w.tick + 1 }
        if v < nrMaxIts ∧ Scalar.lt nrMaxTol r.norm = true then hNrLoop env c fuel w
        else pure { work := w, nl := r.nl, its := 0, err := r.norm }

/-- `set_displ(eps); newton_raphson(..); calc_ave_stress(sig);`:
/repo/src/homogenize.cpp:40-42, 169-171, 197-199. -/
def hSolveStrain (env : Env α) (c : Cfg α) (w : Work α) (eps : Nat → α) : H (PertOut α) := do
  let w ← lift (setDispl c w eps)
  let r ← hNrLoop env c env.fuel w
  let a ← lift (calcAveStress c r.work)
  pure { sig := a.ave, nr := { r with work := { r.work with varsNew := a.varsNew } } }

/-- `calc_ctan_lin`: /repo/src/homogenize.cpp:26-47. -/
def hCalcCtanLin (env : Env α) (c : Cfg α) (ctan : Nat → α) (w : Work α) : H (CtanState α) :=
  let dEps : α := 1.0e-8
  hLoop c.nvoi (fun i s => do
    let r ← hSolveStrain env c s.work (fun v => if v = i then 0 + dEps else 0)
    pure { ctan := setCol c.nvoi i (fun v => r.sig v / dEps) s.ctan, work := r.nr.work })
    { ctan := ctan, work := w }

/-- A Gauss point with its pointers `int_vars_n` and `int_vars_k` (`none` is NULL):
/repo/include/micro.hpp:42-52. -/
structure HGp (α : Type) where
  gp : Gp α
  n : Option Nat
  k : Option Nat

/-- The allocation and copy for a non-linear evaluation: /repo/src/homogenize.cpp:173-182. -/
def hStoreVars (c : Cfg α) (nl : Bool) (varsNew : Buf α) (g : HGp α) : H (HGp α) :=
  if nl = true ∧ g.n = none then do
    let pk ← malloc
    let pn ← malloc
    let gp ← lift (storeVars c nl varsNew g.gp)
    pure { gp := gp, n := some pn, k := some pk }
  else do
    let gp ← lift (storeVars c nl varsNew g.gp)
    pure { g with gp := gp }

/-- A Gauss point with its pointers, together with the scratch memory. -/
structure HGpWork (α : Type) where
  g : HGp α
  work : Work α

/-- One column of the tangent: /repo/src/homogenize.cpp:193-204. -/
def hCtanGp (env : Env α) (c : Cfg α) (sig0 : Nat → α) (i : Nat) (s : GpWork α) : H (GpWork α) := do
  let dEps : α := 1.0e-8
  let r ← hSolveStrain env c s.work
    (fun v => if v = i then s.gp.macroStrain v + dEps else s.gp.macroStrain v)
  pure
    { gp := { s.gp with
        macroCtan := setCol c.nvoi i (fun v => (r.sig v - sig0 v) / dEps) s.gp.macroCtan
        nrIts := fun q => if q = 1 + i then r.nr.its else s.gp.nrIts q
        nrErr := fun q => if q = 1 + i then r.nr.err else s.gp.nrErr q }
      work := r.nr.work }

/-- The branch that solves the cell problem: /repo/src/homogenize.cpp:163-206. -/
def hSolveGp (env : Env α) (c : Cfg α) (g : HGp α) (w : Work α) : H (HGpWork α) := do
  let r ← hSolveStrain env c w g.gp.macroStrain
  let g := { g with gp := { g.gp with macroStress := setFirst c.nvoi r.sig g.gp.macroStress } }
  let g ← hStoreVars c r.nr.nl r.nr.work.varsNew g
  let gp := { g.gp with
    nrIts := fun q => if q = 0 then r.nr.its else g.gp.nrIts q
    nrErr := fun q => if q = 0 then r.nr.err else g.gp.nrErr q }
  let s ← hLoop c.nvoi (fun i s => hCtanGp env c gp.macroStress i s) { gp := gp, work := r.nr.work }
  pure { g := { g with gp := s.gp }, work := s.work }

/-- The body of the loop of `homogenize`: /repo/src/homogenize.cpp:136-207. -/
def hHomogenizeGp (env : Env α) (c : Cfg α) (g : HGp α) (w : Work α) : H (HGpWork α) := do
  let old ← lift (loadVars c g.gp.intVarsN w.varsOld)
  let l ← lift (isLinear c (-1.0e10) g.gp.macroStrain)
  let w := { w with varsOld := old, invMax := l.2 }
  if l.1 = true ∧ g.n.isNone = true then
    pure { g := { g with gp := { linearGp c g.gp with invMax := w.invMax } }, work := w }
  else do
    let s ← hSolveGp env c g w
    pure { s with g := { s.g with gp := { s.g.gp with invMax := s.work.invMax } } }

/-- The Gauss-point list together with the scratch memory. -/
structure HListWork (α : Type) where
  gauss : List (HGp α)
  work : Work α

/-- The loop of `homogenize`: /repo/src/homogenize.cpp:134-208. -/
def hHomogenizeList (env : Env α) (c : Cfg α) : List (HGp α) → Work α → H (HListWork α)
  | [], w => pure { gauss := [], work := w }
  | g :: l, w => do
    let s ← hHomogenizeGp env c g w
    let r ← hHomogenizeList env c l s.work
    pure { gauss := s.g :: r.gauss, work := r.work }

/-! ## The object -/

/-- The pointers an object holds besides those of its Gauss points: /repo/include/micro.hpp:66-95,
/repo/include/ell.hpp:24-30. -/
structure Ptrs where
  b : Nat
  du : Nat
  u : Nat
  elemStress : Nat
  elemStrain : Nat
  elemType : Nat
  varsOld : Nat
  varsNew : Nat
  cols : Nat
  vals : Nat

/-- The object with its pointers. -/
structure HObj (α : Type) where
  cfg : Cfg α
  work : Work α
  gauss : List (HGp α)
  header : Bool
  ptrs : Ptrs

/-- The object without its pointers. -/
def HObj.obj (o : HObj α) : Obj α :=
  { cfg := o.cfg, work := o.work, gauss := o.gauss.map HGp.gp, header := o.header }

/-- The constructor: /repo/src/micro.cpp:28-138, blocks: 58-65; /repo/src/ell.cpp:716-717, 875-876. -/
def hConstruct (env : Env α) (a : Args α) (j : Junk α) : H (HObj α) :=
  if ¬ (a.dim = 2 ∨ a.dim = 3) then lift (.error .abort)
  else do
    let b ← malloc
    let du ← malloc
    let u ← malloc
    let elemStress ← malloc
    let elemStrain ← malloc
    let elemType ← malloc
    let varsOld ← malloc
    let varsNew ← malloc
    if ¬ (a.microType = 0 ∨ a.microType = 1) then lift (.error .uninit)
    else do
      let c0 := mkCfg a j ⟨0, j.elemType⟩
      let et ← lift (fillElemType c0 ⟨c0.nelem, j.elemType⟩)
      let c := mkCfg a j et
      let cols ← malloc
      let vals ← malloc
      let A ← lift (if c.dim = 2 then ellInit2D j.cols j.vals c.dim c.nx c.ny
        else ellInit3D j.cols j.vals c.dim c.nx c.ny c.nz)
      let w : Work α :=
        { tick := 0, A := A
          u := ⟨c.nn * c.dim, j.u⟩, du := ⟨c.nn * c.dim, j.du⟩, b := ⟨c.nn * c.dim, j.b⟩
          elemStress := ⟨c.nelem * c.nvoi, j.elemStress⟩
          elemStrain := ⟨c.nelem * c.nvoi, j.elemStrain⟩
          varsOld := ⟨c.numIntVars, j.varsOld⟩, varsNew := ⟨c.numIntVars, j.varsNew⟩
          invMax := j.invMax }
      let r ← hCalcCtanLin env c j.ctanLin w
      pure { cfg := { c with ctanLin := r.ctan }, work := r.work, gauss := [], header := false
             ptrs := { b := b, du := du, u := u, elemStress := elemStress, elemStrain := elemStrain,
                       elemType := elemType, varsOld := varsOld, varsNew := varsNew,
                       cols := cols, vals := vals } }

/-- The loop over `gauss_list` of the destructor: /repo/src/micro.cpp:161-164. -/
def hFreeGauss : List (HGp α) → H Unit
  | [] => pure ()
  | g :: l => do
    free g.n
    free g.k
    hFreeGauss l

/-- `ell_free`: /repo/src/ell.cpp:32-38; the destructor: /repo/src/micro.cpp:148-165. -/
def hDestroy (o : HObj α) : H Unit := do
  free (some o.ptrs.cols)
  free (some o.ptrs.vals)
  free (some o.ptrs.b)
  free (some o.ptrs.du)
  free (some o.ptrs.u)
  free (some o.ptrs.elemStress)
  free (some o.ptrs.elemStrain)
  free (some o.ptrs.elemType)
  free (some o.ptrs.varsOld)
  free (some o.ptrs.varsNew)
  hFreeGauss o.gauss

/-- `homogenize`: /repo/src/homogenize.cpp:132-209. -/
def hHomogenize (env : Env α) (o : HObj α) : H (HObj α) := do
  let r ← hHomogenizeList env o.cfg o.gauss o.work
  pure { o with gauss := r.gauss, work := r.work }

/-- The search loop and the `push_back` of `set_macro_strain`: /repo/src/homogenize.cpp:92-109. -/
def hSetStrainList (nvoi : Nat) (id : Int) (eps : Nat → α) (junk : Gp α) :
    List (HGp α) → List (HGp α)
  | [] =>
    [{ gp := { junk with id := id, intVarsN := none, intVarsK := none,
                         macroStrain := setFirst nvoi eps junk.macroStrain, invMax := -1.0e10 }
       n := none, k := none }]
  | g :: l =>
    if g.gp.id = id then
      { g with gp := { g.gp with macroStrain := setFirst nvoi eps g.gp.macroStrain } } :: l
    else g :: hSetStrainList nvoi id eps junk l

/-- The loop of `update_vars`: /repo/src/homogenize.cpp:213-216. -/
def hUpdateList (c : Cfg α) : List (HGp α) → H (List (HGp α))
  | [] => pure []
  | g :: l => do
    let gp ← lift (updateGp c g.gp)
    let r ← hUpdateList c l
    pure ({ g with gp := gp } :: r)

/-- An object with its pointers together with the files. -/
structure HState (α : Type) where
  obj : HObj α
  files : Files α

/-- The state without the pointers. -/
def HState.state (s : HState α) : ObjFiles α := { obj := s.obj.obj, files := s.files }

/-- `output`: /repo/src/output.cpp:29-50. -/
def hOutput (env : Env α) (s : HState α) (tstep id : Int) : H (HState α) :=
  match findGp id s.obj.obj.gauss with
  | none => pure s
  | some gp => do
    let c := s.obj.cfg
    let w := s.obj.work
    let old ← lift (loadVars c gp.intVarsN w.varsOld)
    let w ← lift (setDispl c { w with varsOld := old } gp.macroStrain)
    let r ← hNrLoop env c env.fuel w
    let w ← lift (calcFields c r.work)
    let t ← lift (writeVtu c w)
    pure { obj := { s.obj with work := w }
           files := { s.files with
             vtu := fun g k => if g = id ∧ k = tstep then some t else s.files.vtu g k } }

/-- State after a call and what it returned. -/
structure HStepped (α : Type) where
  state : HState α
  ret : Ret α

/-- One public call. -/
def hStep (env : Env α) (s : HState α) : Call α → H (HStepped α)
  | .setStrain id eps =>
    pure { state := { s with obj := { s.obj with
               gauss := hSetStrainList s.obj.cfg.nvoi id eps (env.gpJunk s.obj.work.tick) s.obj.gauss
               work := { s.obj.work with tick := s.obj.work.tick + 1 } } }
           ret := .unit }
  | .homogenize => do
    let o ← hHomogenize env s.obj
    pure { state := { s with obj := o }, ret := .unit }
  | .getStress id buf => pure { state := s, ret := .buf (getMacroStress s.obj.obj id buf).2 }
  | .getCtan id buf => pure { state := s, ret := .buf (getMacroCtan s.obj.obj id buf).2 }
  | .getNl id => pure { state := s, ret := .flag (getNlFlag s.obj.obj id).2 }
  | .updateVars => do
    let l ← hUpdateList s.obj.cfg s.obj.gauss
    pure { state := { s with obj := { s.obj with gauss := l } }, ret := .unit }
  | .output t id => do
    let r ← hOutput env s t id
    pure { state := r, ret := .unit }
  | .writeInfo => do
    let r ← lift (writeInfoFiles s.state)
    pure { state := { obj := { s.obj with header := r.obj.header }, files := r.files }, ret := .unit }

/-- A sequence of public calls. -/
def hRun (env : Env α) : List (Call α) → HState α → H (HState α)
  | [], s => pure s
  | k :: l, s => do
    let r ← hStep env s k
    hRun env l r.state

/-- The life of an automatic object: constructor, calls, destructor. -/
def hLife (env : Env α) (a : Args α) (j : Junk α) (f : Files α) (calls : List (Call α)) :
    H (HState α) := do
  let o ← hConstruct env a j
  let s ← hRun env calls { obj := o, files := ctorFiles o.cfg f }
  hDestroy s.obj
  pure s

/-! ## Fortran interface -/

/-- The static pointer with the block it points to, and the files. -/
structure HWorld (α : Type) where
  micro : Option (Nat × HObj α)
  files : Files α

/-- `micropp_construct_`: /repo/src/wrapper.cpp:30-34.  `new` allocates the object itself. -/
def hwConstruct (env : Env α) (a : Args α) (j : Junk α) (w : HWorld α) : H (HWorld α) := do
  let p ← malloc
  let o ← hConstruct env a j
  pure { micro := some (p, o), files := ctorFiles o.cfg w.files }

/-- `micro->f(..)`: /repo/src/wrapper.cpp:36-74. -/
def hwCall (env : Env α) (w : HWorld α) (k : Call α) : H (HWorld α) :=
  match w.micro with
  | none => lift (.error .null)
  | some (p, o) => do
    let r ← hStep env { obj := o, files := w.files } k
    pure { micro := some (p, r.state.obj), files := r.state.files }

/-- A call of the Fortran interface. -/
inductive WCall (α : Type)
  | construct (a : Args α) (j : Junk α)
  | call (k : Call α)

/-- A sequence of calls of the Fortran interface. -/
def hwRun (env : Env α) : List (WCall α) → HWorld α → H (HWorld α)
  | [], w => pure w
  | .construct a j :: l, w => hwConstruct env a j w >>= hwRun env l
  | .call k :: l, w => hwCall env w k >>= hwRun env l

end
end Verif
