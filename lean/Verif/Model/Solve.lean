import Verif.Model.Assembly

/-!
# Newton-Raphson: /repo/src/solve.cpp
-/

namespace Verif

/-- What the program takes from outside the language: contents of memory it did not assign.
Every function is indexed by the event number `Work.tick`. -/
structure Env (α : Type) where
  /-- Step budget of the Newton loop, which the code does not bound. -/
  fuel : Nat
  /-- Value found by the read `*its` after `*its++` moved the pointer out of the object
  (/repo/src/solve.cpp:63-65).  `none` is the strict reading: undefined behaviour. -/
  peek : Nat → Option Int
  /-- Work buffers and unassigned locals of the CG solvers. -/
  cgJunk : Nat → Nat → Nat → α
  /-- The unassigned members `its`, `err` of the local `ell_solver` (/repo/src/solve.cpp:34). -/
  solverIts : Nat → Int
  solverErr : Nat → α
  /-- Unassigned members of a new `gp_t` (/repo/src/homogenize.cpp:101). -/
  gpJunk : Nat → Gp α

variable {α : Type} [Scalar α]

/-- `CG_MAX_TOL`: /repo/src/solve.cpp:25. -/
def cgMaxTol : α := 1.0e-8

/-- `CG_MAX_ITS`: /repo/src/solve.cpp:26. -/
def cgMaxIts : Int := 2000

/-- `NR_MAX_TOL`: /repo/src/solve.cpp:27. -/
def nrMaxTol : α := 1.0e-5

/-- `NR_MAX_ITS`: /repo/src/solve.cpp:28. -/
def nrMaxIts : Int := 40

/-- `solve`: /repo/src/solve.cpp:32-44.  The return code is ignored. -/
def solve (env : Env α) (c : Cfg α) (w : Work α) : M (Work α) :=
  let s : EllSolver α :=
    { maxIts := cgMaxIts, its := env.solverIts w.tick, minTol := cgMaxTol,
      err := env.solverErr w.tick }
  if c.dim = 2 then do
    let r ← ellSolveCgpd2D (env.cgJunk w.tick) s (some w.A) c.dim c.nx c.ny (some w.b) (some w.du)
    pure { w with du := r.2.2.getD w.du, tick := w.tick + 1 }
  else if c.dim = 3 then do
    let r ← ellSolveCgpdStruct (env.cgJunk w.tick) s (some w.A) c.dim c.dim c.nn (some w.b)
      (some w.du)
    pure { w with du := r.2.2.getD w.du, tick := w.tick + 1 }
  else pure w

/-- One correction: /repo/src/solve.cpp:55-61. -/
def nrCorrect (env : Env α) (c : Cfg α) (w : Work α) : M (Work α) := do
  let w ← assemblyMat c w
  let du ← loop (c.nn * c.dim) (fun i du => du.write i 0) w.du
  let w ← solve env c { w with du := du }
  let u ← loop (c.nn * c.dim) (fun i u => do
    let a ← u.read i
    let d ← w.du.read i
    u.write i (a + d)) w.u
  pure { w with u := u }

/-- Results of `newton_raphson`: object state, `*nl_flag`, `*its`, `*err`. -/
structure NrOut (α : Type) where
  work : Work α
  nl : Bool
  its : Int
  err : α

/-- The do-while loop: /repo/src/solve.cpp:50-65, with `fuel` passes left.  `*its++` increments
the pointer, so the `int` of the caller keeps the value 0 assigned in line 48. -/
def nrLoop (env : Env α) (c : Cfg α) : Nat → Work α → M (NrOut α)
  | 0, _ => .error .fuel
  | fuel + 1, w => do
    let r ← assemblyRhs c w
    if Scalar.lt r.norm nrMaxTol then
      pure { work := r.work, nl := r.nl, its := 0, err := r.norm }
    else do
      let w ← nrCorrect env c r.work
      match env.peek w.tick with
      | none => .error .oob
      | some v =>
        let w := { w with tick := w.tick + 1 }
        if v < nrMaxIts ∧ Scalar.lt nrMaxTol r.norm = true then nrLoop env c fuel w
        else pure { work := w, nl := r.nl, its := 0, err := r.norm }

/-- `newton_raphson`: /repo/src/solve.cpp:46-66. -/
def newtonRaphson (env : Env α) (c : Cfg α) (w : Work α) : M (NrOut α) :=
  nrLoop env c env.fuel w

end Verif
