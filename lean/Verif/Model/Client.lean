import Verif.Model.Output

/-!
# Callers: arrays handed to the library, `ell_print`, and the programs in /repo/test

The arrays of a caller are blocks with a size, so that a read or write outside them is a fault.
`argv` is modelled by the list of the integers that `atoi` makes of its entries after the program
name; the sizes among them are taken as natural numbers.  The exit status and the tokens sent to
`cout` are the result; the usage message on `cerr` is not modelled.
-/

namespace Verif

/-- `p[i] = v` where the index is a C++ `int` that may be negative. -/
def Buf.writeI {α : Type} (b : Buf α) (c : Int) (v : α) : M (Buf α) :=
  if 0 ≤ c then b.write c.toNat v else .error .oob

variable {α : Type} [Scalar α]

/-! ## Printing a matrix -/

/-- One of the two blocks of `ell_print`: /repo/src/ell.cpp:309-316, 318-325.  Widths and
precisions are not modelled. -/
def ellPrintBlock {β : Type} (title : String) (show_ : β → Tok α) (nrow nnz : Nat) (p : Buf β) :
    M (List (Tok α)) := do
  let t ← emit nrow fun i => do
    let r ← emit nnz fun j => do
      let v ← p.read (i * nnz + j)
      pure [show_ v, .str " "]
    pure ([.str "row= ", .int i] ++ r ++ [.endl])
  pure ([.str title, .endl] ++ t)

/-- `ell_print`: /repo/src/ell.cpp:302-327.  `none` is NULL, for the matrix and for its two
pointers.  The result is the return value and what was printed. -/
def ellPrint (m : Option (Nat × Nat × Option (Buf Int) × Option (Buf α))) :
    M (Int × List (Tok α)) :=
  match m with
  | none => pure (1, [])
  | some (nrow, nnz, some cols, some vals) => do
    let c ← ellPrintBlock "Cols = " .int nrow nnz cols
    let v ← ellPrintBlock "Vals = " .num nrow nnz vals
    pure (0, c ++ v)
  | some (_, _, _, _) => pure (2, [])

/-! ## Calls with arrays of the caller -/

/-- The arrays a caller hands to the constructor. -/
structure CtorArrays (α : Type) where
  size : Buf Nat
  microParams : Buf α
  matTypes : Buf Int
  params : Buf α

/-- The reads of the constructor in the arrays of the caller: `size` (/repo/src/micro.cpp:38-40),
`_micro_params` (/repo/src/micro.cpp:32-35, 83-84), `mat_types` (/repo/src/micro.cpp:100) and
`params` (/repo/src/micro.cpp:90-93). -/
def ctorReads (dim : Nat) (a : CtorArrays α) : M Unit := do
  let _ ← a.microParams.read 0
  let _ ← a.microParams.read 1
  ifRun (dim ≠ 2) (fun _ => do
    let _ ← a.microParams.read 2
    pure ()) ()
  let _ ← a.microParams.read 3
  let _ ← a.size.read 0
  let _ ← a.size.read 1
  ifRun (dim ≠ 2) (fun _ => do
    let _ ← a.size.read 2
    pure ()) ()
  loop 5 (fun i _ => do
    let _ ← a.microParams.read i
    pure ()) ()
  loop 2 (fun i _ => do
    let _ ← a.params.read (i * 10 + 0)
    let _ ← a.params.read (i * 10 + 1)
    let _ ← a.params.read (i * 10 + 2)
    let _ ← a.params.read (i * 10 + 3)
    let _ ← a.matTypes.read i
    pure ()) ()

/-- The arguments of the constructor, once the reads are known to be in bounds. -/
def CtorArrays.args (dim : Nat) (micro : Int) (a : CtorArrays α) : Args α :=
  { dim := dim, size := a.size.val, microType := micro, microParams := a.microParams.val,
    matTypes := a.matTypes.val, params := a.params.val }

/-- A caller constructs an object: /repo/src/micro.cpp:28-146. -/
def cConstruct (env : Env α) (dim : Nat) (micro : Int) (a : CtorArrays α) (j : Junk α)
    (f : Files α) : M (ObjFiles α) := do
  ctorReads dim a
  constructF env (a.args dim micro) j f

/-- A caller sets a macroscopic strain; `nvoi` entries of its array are read:
/repo/src/homogenize.cpp:90-110. -/
def cSetStrain (env : Env α) (s : ObjFiles α) (id : Int) (eps : Buf α) : M (ObjFiles α) := do
  loop s.obj.cfg.nvoi (fun i _ => do
    let _ ← eps.read i
    pure ()) ()
  let r ← step env s (.setStrain id eps.val)
  pure r.state

/-- State and array after a getter. -/
structure Got (α : Type) where
  state : ObjFiles α
  arr : Buf α

/-- A caller gets a macroscopic stress; when the Gauss point exists `nvoi` entries of its array are
written: /repo/src/homogenize.cpp:112-120. -/
def cGetStress (env : Env α) (s : ObjFiles α) (id : Int) (sig : Buf α) : M (Got α) :=
  match findGp id s.obj.gauss with
  | none => pure { state := s, arr := sig }
  | some gp => do
    let sig ← loop s.obj.cfg.nvoi (fun i b => b.write i (gp.macroStress i)) sig
    let r ← step env s (.getStress id sig.val)
    pure { state := r.state, arr := sig }

/-- A caller makes a call that takes no array. -/
def cCall (env : Env α) (s : ObjFiles α) (k : Call α) : M (ObjFiles α) := do
  let r ← step env s k
  pure r.state

/-! ## The programs -/

/-- Memory of `main` that is read or kept unassigned: the entries of `size` and `mat_params` that no
statement assigns, and the array of the stress. -/
structure MainJunk (α : Type) where
  size : Nat → Nat
  params : Nat → α
  sig : Nat → α

/-- The locals of `main` that the time loop changes, and what was printed. -/
structure Drive (α : Type) where
  state : ObjFiles α
  eps : Buf α
  sig : Buf α
  out : List (Tok α)

/-- The load program: /repo/test/test3d_1.cpp:80-89, /repo/test/test3d_7.cpp:83-92,
/repo/test/test3d_8.cpp:84-93, /repo/test/test2d_1.cpp:83-92. -/
def loadStep (t : Nat) (dir : Int) (eps : Buf α) : M (Buf α) := do
  let x ← eps.readI dir
  let d : α := 0.01
  eps.writeI dir
    (if t < 30 then x + d else if t < 80 then x - d else if t < 130 then x + d
     else if t < 250 then x - d else x + d)

/-- `a[0] << " " << .. << a[n-1]`. -/
def printRow (n : Nat) (a : Buf α) : M (List (Tok α)) :=
  emit n fun i => do
    let v ← a.read i
    pure [.num v]

/-- One time step: /repo/test/test3d_1.cpp:77-108, /repo/test/test3d_7.cpp:80-111,
/repo/test/test2d_1.cpp:80-110. -/
def mainStep (env : Env α) (dir : Int) (label : String) (n : Nat) (t : Nat) (s : Drive α) :
    M (Drive α) := do
  let eps ← loadStep t dir s.eps
  let o ← cSetStrain env s.state 1 eps
  let o ← cCall env o .homogenize
  let g ← cGetStress env o 1 s.sig
  let o ← cCall env g.state .updateVars
  let o ← cCall env o .writeInfo
  let e ← eps.readI dir
  let p ← printRow n g.arr
  let o ← cCall env o (.output t 1)
  pure { state := o, eps := eps, sig := g.arr
         out := s.out ++ [.str "time step = ", .int t, .endl, .str "eps = ", .num e, .endl,
           .str label] ++ p ++ [.endl, .endl] }

/-- The time loop and what surrounds it. -/
def mainLoop (body : Nat → Drive α → M (Drive α)) (steps : Int) (j : MainJunk α) (s : ObjFiles α) :
    M (Int × Drive α) := do
  let r ← loop steps.toNat body { state := s, eps := ⟨6, fun _ => 0⟩, sig := ⟨6, j.sig⟩, out := [] }
  pure (0, r)

/-- `micro_params`: /repo/test/test3d_1.cpp:51-56, /repo/test/test3d_7.cpp:51-56,
/repo/test/test3d_8.cpp:54-58, /repo/test/test2d_1.cpp:51-56. -/
def mainParams (invTol : α) : Buf α :=
  ⟨5, fun i => if i = 3 then 0.1 else if i = 4 then invTol else 1.0⟩

/-- The arrays of /repo/test/test3d_1.cpp:45-69. -/
def arrays3d1 (nx ny nz : Nat) (j : MainJunk α) : CtorArrays α :=
  { size := ⟨3, fun i => if i = 0 then nx else if i = 1 then ny else nz⟩
    microParams := mainParams 0.0
    matTypes := ⟨2, fun i => if i = 0 then 1 else 0⟩
    params := ⟨20, fun i =>
      if i = 0 then 1.0e6 else if i = 1 then 0.25 else if i = 2 then 1.0e2 else if i = 3 then 2.0e5
      else if i = 10 then 1.0e6 else if i = 11 then 0.25 else j.params i⟩ }

/-- The arrays of /repo/test/test3d_7.cpp:45-71. -/
def arrays3d7 (nx ny nz : Nat) (j : MainJunk α) : CtorArrays α :=
  { size := ⟨3, fun i => if i = 0 then nx else if i = 1 then ny else nz⟩
    microParams := mainParams 0
    matTypes := ⟨2, fun i => if i = 0 then 1 else 0⟩
    params := ⟨20, fun i =>
      if i = 0 then 1.0e6 else if i = 1 then 0.3 else if i = 2 then 5.0e4 else if i = 3 then 5.0e4
      else if i = 10 then 1.0e6 else if i = 11 then 0.3 else if i = 12 then 1.0e4
      else if i = 13 then 0.0e-1 else j.params i⟩ }

/-- The arrays of /repo/test/test3d_8.cpp:50-73.  The initialiser of `mat_params` lists eight
values, which C++ places at the indices 0 to 7; the rest of the array is 0. -/
def arrays3d8 (nx ny nz : Nat) : CtorArrays α :=
  { size := ⟨3, fun i => if i = 0 then nx else if i = 1 then ny else nz⟩
    microParams := mainParams 1.0e-5
    matTypes := ⟨2, fun i => if i = 0 then 1 else 0⟩
    params := ⟨20, fun i =>
      if i = 0 then 1.0e6 else if i = 1 then 0.3 else if i = 2 then 5.0e4 else if i = 3 then 5.0e4
      else if i = 4 then 1.0e6 else if i = 5 then 0.3 else if i = 6 then 1.0e4
      else if i = 7 then 0.0e-1 else 0⟩ }

/-- The arrays of /repo/test/test2d_1.cpp:46-71. -/
def arrays2d1 (nx ny : Nat) (j : MainJunk α) : CtorArrays α :=
  { size := ⟨3, fun i => if i = 0 then nx else if i = 1 then ny else j.size i⟩
    microParams := mainParams 0
    matTypes := ⟨2, fun _ => 0⟩
    params := ⟨20, fun i =>
      if i = 0 then 1.0e6 else if i = 1 then 0.3 else if i = 2 then 5.0e4 else if i = 3 then 5.0e4
      else if i = 10 then 1.0e6 else if i = 11 then 0.3 else if i = 12 then 1.0e4
      else if i = 13 then 0.0e-1 else j.params i⟩ }

/-- The result of a program that did not reach the loop. -/
def usage : M (Int × Option (Drive α)) := pure (1, none)

/-- `main` of /repo/test/test3d_1.cpp:32-110. -/
def main3d1 (env : Env α) (j : Junk α) (mj : MainJunk α) (f : Files α) (argv : List Int) :
    M (Int × Option (Drive α)) :=
  match argv with
  | nx :: ny :: nz :: dir :: rest => do
    let s ← cConstruct env 3 1 (arrays3d1 nx.toNat ny.toNat nz.toNat mj) j f
    let r ← mainLoop (mainStep env dir "sig = " 6) (rest.headD 10) mj s
    pure (r.1, some r.2)
  | _ => usage

/-- `main` of /repo/test/test3d_7.cpp:32-113. -/
def main3d7 (env : Env α) (j : Junk α) (mj : MainJunk α) (f : Files α) (argv : List Int) :
    M (Int × Option (Drive α)) :=
  match argv with
  | nx :: ny :: nz :: rest => do
    let s ← cConstruct env 3 1 (arrays3d7 nx.toNat ny.toNat nz.toNat mj) j f
    let r ← mainLoop (mainStep env 2 "sig = " 6) (rest.headD 10) mj s
    pure (r.1, some r.2)
  | _ => usage

/-- `main` of /repo/test/test2d_1.cpp:32-112.  A failed assertion (line 44) aborts. -/
def main2d1 (env : Env α) (j : Junk α) (mj : MainJunk α) (f : Files α) (argv : List Int) :
    M (Int × Option (Drive α)) :=
  match argv with
  | nx :: ny :: rest =>
    if ¬ (nx > 1 ∧ ny > 1) then .error .abort
    else do
      let s ← cConstruct env 2 1 (arrays2d1 nx.toNat ny.toNat mj) j f
      let r ← mainLoop (mainStep env 2 "MacroStress = " 3) (rest.headD 10) mj s
      pure (r.1, some r.2)
  | _ => usage

/-- The loop over the Gauss points that sets the strain: /repo/test/test3d_8.cpp:96-104. -/
def setGps (env : Env α) (ngp : Nat) (s : Drive α) : M (Drive α) :=
  loop ngp (fun gp s => do
    let o ← cSetStrain env s.state gp s.eps
    let p ← printRow 6 s.eps
    pure { s with state := o
                  out := s.out ++ [.str "gp = ", .int gp, .str " eps = "] ++ p ++ [.endl] }) s

/-- The loop over the Gauss points that gets the stress: /repo/test/test3d_8.cpp:111-119. -/
def getGps (env : Env α) (ngp : Nat) (s : Drive α) : M (Drive α) :=
  loop ngp (fun gp s => do
    let g ← cGetStress env s.state gp s.sig
    let p ← printRow 6 g.arr
    pure { s with state := g.state, sig := g.arr
                  out := s.out ++ [.str "gp = ", .int gp, .str " sig = "] ++ p ++ [.endl] }) s

/-- One time step of /repo/test/test3d_8.cpp:82-124. -/
def mainStep8 (env : Env α) (t : Nat) (s : Drive α) : M (Drive α) := do
  let eps ← loadStep t 2 s.eps
  let s ← setGps env 2 { s with
    eps := eps
    out := s.out ++ [.str "Time step = ", .int t, .endl, .str "setting strains ...", .endl] }
  let o ← cCall env s.state .homogenize
  let s ← getGps env 2 { s with
    state := o
    out := s.out ++ [.str "Homogenizing ...", .endl, .str "Getting stresses ...", .endl] }
  let o ← cCall env s.state .updateVars
  let o ← cCall env o .writeInfo
  pure { s with state := o, out := s.out ++ [.endl] }

/-- `main` of /repo/test/test3d_8.cpp:35-126.  A failed assertion (line 48) aborts. -/
def main3d8 (env : Env α) (j : Junk α) (mj : MainJunk α) (f : Files α) (argv : List Int) :
    M (Int × Option (Drive α)) :=
  match argv with
  | nx :: ny :: nz :: rest =>
    if ¬ (nx > 1 ∧ ny > 1 ∧ nz > 1) then .error .abort
    else do
      let s ← cConstruct env 3 1 (arrays3d8 nx.toNat ny.toNat nz.toNat) j f
      let r ← mainLoop (mainStep8 env) (rest.headD 10) mj s
      pure (r.1, some r.2)
  | _ => usage

/-- The arrays of /repo/test/test3d_3.f90:29-51.  `micro_params` has four entries. -/
def arraysF (j : MainJunk α) : CtorArrays α :=
  { size := ⟨3, fun i => if i = 2 then 1 else 10⟩
    microParams := ⟨4, fun i => if i = 3 then 0.0 else 1.0⟩
    matTypes := ⟨2, fun _ => 0⟩
    params := ⟨20, fun i =>
      if i = 0 then 1.0e6 else if i = 1 then 0.3 else if i = 10 then 1.0e7 else if i = 11 then 0.3
      else j.params i⟩ }

/-- The start of /repo/test/test3d_3.f90:22-53: the call of `micropp_construct`. -/
def mainF (env : Env α) (j : Junk α) (mj : MainJunk α) (f : Files α) : M (ObjFiles α) :=
  cConstruct env 2 0 (arraysF mj) j f

end Verif
