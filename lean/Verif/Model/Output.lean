import Verif.Model.Homogenize

/-!
# Files: /repo/src/output.cpp and the file operations of /repo/src/micro.cpp

A file is a list of tokens.  Number formatting, `setw` and `scientific` are not modelled.
-/

namespace Verif

/-- A piece of output. -/
inductive Tok (α : Type)
  | str (s : String)
  | int (i : Int)
  | num (a : α)
  | endl

/-- The files the library writes.  `vtu gp t` is the file `micropp_<gp>_<t>.vtu`. -/
structure Files (α : Type) where
  materials : List (Tok α)
  convergence : List (Tok α)
  epsSigCtan : List (Tok α)
  intVarsN : List (Tok α)
  vtu : Int → Int → Option (List (Tok α))

variable {α : Type}

/-- `file << " "`. -/
def Tok.sp : Tok α := .str " "

/-- `file << " | "`. -/
def Tok.bar : List (Tok α) := [.sp, .str "|", .sp]

variable [Scalar α]

/-- `for (i < n) file << ...;` for a body that reads memory. -/
def emit (n : Nat) (f : Nat → M (List (Tok α))) : M (List (Tok α)) :=
  loop n (fun i ts => do
    let t ← f i
    pure (ts ++ t)) []

/-- `for (i < n) file << ...;` for a body that reads no memory. -/
def emitP (n : Nat) (f : Nat → List (Tok α)) : List (Tok α) :=
  (List.range n).flatMap f

/-- The points: /repo/src/output.cpp:66-86. -/
def vtuPoints (c : Cfg α) : List (Tok α) :=
  if c.dim = 2 then
    emitP c.ny fun j => emitP c.nx fun i =>
      [.num (((i : Nat) : α) * c.dx), .sp, .num (((j : Nat) : α) * c.dy), .sp, .str "0.0", .endl]
  else if c.dim = 3 then
    emitP c.nz fun k => emitP c.ny fun j => emitP c.nx fun i =>
      [.num (((i : Nat) : α) * c.dx), .sp, .num (((j : Nat) : α) * c.dy), .sp,
       .num (((k : Nat) : α) * c.dz), .endl]
  else []

/-- `n0 … n3` of `write_vtu`: /repo/src/output.cpp:93-96. -/
def vtuNode2D (nx ex ey k : Nat) : Nat :=
  ([ey * nx + ex, ey * nx + ex + 1, (ey + 1) * nx + ex + 1, (ey + 1) * nx + ex]).getD k 0

/-- `n0 … n7` of `write_vtu`: /repo/src/output.cpp:104-111. -/
def vtuNode3D (nx ny ex ey ez k : Nat) : Nat :=
  let n0 := ez * (nx * ny) + ey * nx + ex
  let n1 := ez * (nx * ny) + ey * nx + ex + 1
  let n2 := ez * (nx * ny) + (ey + 1) * nx + ex + 1
  let n3 := ez * (nx * ny) + (ey + 1) * nx + ex
  ([n0, n1, n2, n3, n0 + (nx * ny), n1 + (nx * ny), n2 + (nx * ny), n3 + (nx * ny)]).getD k 0

/-- The connectivity: /repo/src/output.cpp:90-116. -/
def vtuCells (c : Cfg α) : List (Tok α) :=
  if c.dim = 2 then
    emitP (c.ny - 1) fun ey => emitP (c.nx - 1) fun ex =>
      emitP 4 (fun k => [.int (vtuNode2D c.nx ex ey k : Nat), .sp]) ++ [.endl]
  else if c.dim = 3 then
    emitP (c.nz - 1) fun ez => emitP (c.ny - 1) fun ey => emitP (c.nx - 1) fun ex =>
      emitP 8 (fun k => [.int (vtuNode3D c.nx c.ny ex ey ez k : Nat), .sp]) ++ [.endl]
  else []

/-- The offsets: /repo/src/output.cpp:119-124.  `ce` starts at `npe` and grows by `npe`. -/
def vtuOffsets (c : Cfg α) : List (Tok α) :=
  (accum c.nelem (fun _ (s : Nat × List (Tok α)) => (s.1 + c.npe, s.2 ++ [.int (s.1 : Nat), .sp]))
    (c.npe, [])).2

/-- The cell types: /repo/src/output.cpp:128-134. -/
def vtuTypes (c : Cfg α) : List (Tok α) :=
  emitP c.nelem fun _ =>
    if c.dim = 2 then [.int 9, .sp] else if c.dim = 3 then [.int 12, .sp] else []

/-- A vector per node: /repo/src/output.cpp:140-146, 149-155. -/
def vtuNodal (c : Cfg α) (p : Buf α) : M (List (Tok α)) :=
  emit c.nn fun n =>
    if c.dim = 2 then do
      let a ← p.read (n * c.dim + 0)
      let b ← p.read (n * c.dim + 1)
      pure [.num a, .sp, .num b, .sp, .str "0.0", .endl]
    else if c.dim = 3 then do
      let a ← p.read (n * c.dim + 0)
      let b ← p.read (n * c.dim + 1)
      let d ← p.read (n * c.dim + 2)
      pure [.num a, .sp, .num b, .sp, .num d, .endl]
    else pure []

/-- `nvoi` values per element: /repo/src/output.cpp:162-166, 170-174. -/
def vtuElem (c : Cfg α) (p : Buf α) : M (List (Tok α)) :=
  emit c.nelem fun e => do
    let t ← emit c.nvoi fun v => do
      let a ← p.read (e * c.nvoi + v)
      pure [.num a, .sp]
    pure (t ++ [.endl])

/-- The element types: /repo/src/output.cpp:178-180. -/
def vtuElemType (c : Cfg α) : M (List (Tok α)) :=
  emit c.nelem fun e => do
    let t ← c.elemType.read e
    pure [.int t, .sp]

/-- The plastic strain norm at a Gauss point: /repo/src/output.cpp:190-196. -/
def plastNorm (v : Buf α) (e gp : Nat) : M α := do
  let a ← gather 6 v (fun i => intvarIx e gp i)
  pure (sigNorm a)

/-- The plasticity per element: /repo/src/output.cpp:184-201.  (`vars_old` is never NULL.) -/
def vtuPlasticity (c : Cfg α) (v : Buf α) : M (List (Tok α)) :=
  emit c.nelem fun e => do
    let p ← loop (if c.dim = 3 then 8 else 0) (fun gp (p : α) => do
      let x ← plastNorm v e gp
      pure (p + x)) 0
    pure [.num (p / ((8 : Nat) : α)), .sp]

/-- The hardening per element: /repo/src/output.cpp:205-215. -/
def vtuHardening (c : Cfg α) (v : Buf α) : M (List (Tok α)) :=
  emit c.nelem fun e => do
    let p ← loop (if c.dim = 3 then 8 else 0) (fun gp (p : α) => do
      let x ← v.read (intvarIx e gp 6)
      pure (p + x)) 0
    pure [.num (p / ((8 : Nat) : α)), .sp]

/-- `write_vtu`: /repo/src/output.cpp:52-222. -/
def writeVtu (c : Cfg α) (w : Work α) : M (List (Tok α)) := do
  let displ ← vtuNodal c w.u
  let b ← vtuNodal c w.b
  let strain ← vtuElem c w.elemStrain
  let stress ← vtuElem c w.elemStress
  let et ← vtuElemType c
  let pl ← vtuPlasticity c w.varsOld
  let ha ← vtuHardening c w.varsOld
  pure (
    [.str "<?xml version=\"1.0\"?>", .endl,
     .str "<VTKFile type=\"UnstructuredGrid\" version=\"0.1\" byte_order=\"LittleEndian\">", .endl,
     .str "<UnstructuredGrid>", .endl,
     .str "<Piece NumberOfPoints=\"", .int c.nn, .str "\" NumberOfCells=\"", .int c.nelem,
     .str "\">", .endl, .str "<Points>", .endl,
     .str "<DataArray type=\"Float32\" Name=\"Position\" NumberOfComponents=\"3\" format=\"ascii\">",
     .endl]
    ++ vtuPoints c
    ++ [.str "</DataArray>", .endl, .str "</Points>", .endl, .str "<Cells>", .endl,
        .str "<DataArray type=\"Int32\" Name=\"connectivity\" NumberOfComponents=\"1\" format=\"ascii\">",
        .endl]
    ++ vtuCells c
    ++ [.str "</DataArray>", .endl,
        .str "<DataArray type=\"Int32\" Name=\"offsets\" NumberOfComponents=\"1\" format=\"ascii\">",
        .endl]
    ++ vtuOffsets c
    ++ [.endl, .str "</DataArray>", .endl,
        .str "<DataArray type=\"UInt8\"  Name=\"types\" NumberOfComponents=\"1\" format=\"ascii\">",
        .endl]
    ++ vtuTypes c
    ++ [.endl, .str "</DataArray>", .endl, .str "</Cells>", .endl,
        .str "<PointData Vectors=\"displ,b\" >>", .endl,
        .str "<DataArray type=\"Float64\" Name=\"displ\" NumberOfComponents=\"3\" format=\"ascii\" >",
        .endl]
    ++ displ
    ++ [.str "</DataArray>", .endl,
        .str "<DataArray type=\"Float64\" Name=\"b\" NumberOfComponents=\"3\" format=\"ascii\" >",
        .endl]
    ++ b
    ++ [.str "</DataArray>", .endl, .str "</PointData>", .endl, .str "<CellData>", .endl,
        .str "<DataArray type=\"Float64\" Name=\"strain\" NumberOfComponents=\"", .int c.nvoi,
        .str "\" format=\"ascii\">", .endl]
    ++ strain
    ++ [.str "</DataArray>",
        .str "<DataArray type=\"Float64\" Name=\"stress\" NumberOfComponents=\"", .int c.nvoi,
        .str "\" format=\"ascii\">", .endl]
    ++ stress
    ++ [.str "</DataArray>",
        .str "<DataArray type=\"Int32\" Name=\"elem_type\" NumberOfComponents=\"1\" format=\"ascii\">",
        .endl]
    ++ et
    ++ [.endl, .str "</DataArray>", .endl,
        .str "<DataArray type=\"Float64\" Name=\"plasticity\" NumberOfComponents=\"1\" format=\"ascii\">",
        .endl]
    ++ pl
    ++ [.endl, .str "</DataArray>", .endl,
        .str "<DataArray type=\"Float64\" Name=\"hardening\" NumberOfComponents=\"1\" format=\"ascii\">",
        .endl]
    ++ ha
    ++ [.endl, .str "</DataArray>", .endl, .str "</CellData>", .endl, .str "</Piece>", .endl,
        .str "</UnstructuredGrid>", .endl, .str "</VTKFile>", .endl])

/-- An object together with the files. -/
structure ObjFiles (α : Type) where
  obj : Obj α
  files : Files α

/-- `output`: /repo/src/output.cpp:29-50. -/
def output (env : Env α) (s : ObjFiles α) (tstep id : Int) : M (ObjFiles α) :=
  match findGp id s.obj.gauss with
  | none => pure s
  | some gp => do
    let c := s.obj.cfg
    let w := s.obj.work
    let old ← loadVars c gp.intVarsN w.varsOld
    let w ← setDispl c { w with varsOld := old } gp.macroStrain
    let r ← newtonRaphson env c w
    let w ← calcFields c r.work
    let t ← writeVtu c w
    pure { obj := { s.obj with work := w }
           files := { s.files with
             vtu := fun g k => if g = id ∧ k = tstep then some t else s.files.vtu g k } }

/-- `file << "# gp_id : "; for (gp) file << gp.id << " ";`: /repo/src/output.cpp:231-233,
239-241. -/
def idLine (l : List (Gp α)) : List (Tok α) := 
  .str "# gp_id : " :: l.flatMap fun gp => [.int gp.id, .sp]

/-- The header of `micropp_convergence.dat`: /repo/src/output.cpp:231-235. -/
def headerConv (l : List (Gp α)) : List (Tok α) :=
  idLine l ++ [.endl, .str "# nl_flag [1] # inv_max [2] # inv_tol [3]", .endl,
    .str "# nr_its  [4] # nr_tol  [5]", .endl]

/-- The header of `micropp_eps_sig_ctan.dat`: /repo/src/output.cpp:239-243. -/
def headerEps (l : List (Gp α)) : List (Tok α) :=
  idLine l ++
    [.str "# epsxx [1] # epsyy [2] # epszz[3] # epsxy[4] # epsxz[5] # epsyz[6]",
     .str "# sigxx [7] # sigyy [2] # sigzz[3] # sigxy[4] # sigxz[5] # sigyz[6]", .endl, .endl]

/-- One Gauss point in `micropp_convergence.dat`: /repo/src/output.cpp:249-256. -/
def recConv (c : Cfg α) (gp : Gp α) : List (Tok α) :=
  [.int (if gp.intVarsN.isNone = true then 0 else 1), .sp, .num gp.invMax, .sp]
    ++ emitP (1 + c.nvoi) (fun i => [.int (gp.nrIts i), .sp, .num (gp.nrErr i), .sp]) ++ Tok.bar

/-- One Gauss point in `micropp_eps_sig_ctan.dat`: /repo/src/output.cpp:263-269. -/
def recEps (gp : Gp α) : List (Tok α) :=
  emitP 6 (fun i => [.num (gp.macroStrain i), .sp]) ++ emitP 6 (fun i => [.num (gp.macroStress i), .sp])
    ++ emitP 36 (fun i => [.num (gp.macroCtan i), .sp]) ++ Tok.bar

/-- One Gauss point in `micropp_int_vars_n.dat`: /repo/src/output.cpp:276-281. -/
def recVars (c : Cfg α) (gp : Gp α) : M (List (Tok α)) := do
  let t ← emit c.numIntVars fun i =>
    match gp.intVarsN with
    | some n => do
      let v ← n.read i
      pure [.num v, .sp]
    | none => pure [.num 0, .sp]
  pure (t ++ Tok.bar)

/-- The loop over the Gauss points for `micropp_int_vars_n.dat`: /repo/src/output.cpp:275-282. -/
def recVarsList (c : Cfg α) : List (Gp α) → M (List (Tok α))
  | [] => pure []
  | gp :: l => do
    let t ← recVars c gp
    let r ← recVarsList c l
    pure (t ++ r)

/-- `write_info_files`: /repo/src/output.cpp:224-285. -/
def writeInfoFiles (s : ObjFiles α) : M (ObjFiles α) := do
  let o := s.obj
  let l := o.gauss
  let f := s.files
  let f := if o.header = false then
      { f with convergence := f.convergence ++ headerConv l
               epsSigCtan := f.epsSigCtan ++ headerEps l }
    else f
  let v ← recVarsList o.cfg l
  pure { obj := { o with header := true }
         files := { f with
           convergence := f.convergence ++ (l.flatMap (recConv o.cfg) ++ [.endl])
           epsSigCtan := f.epsSigCtan ++ (l.flatMap recEps ++ [.endl])
           intVarsN := f.intVarsN ++ (v ++ [.endl]) } }

/-- The files written by the constructor: /repo/src/micro.cpp:86-116, 140-145. -/
def ctorFiles (c : Cfg α) (f : Files α) : Files α :=
  { f with
    materials := emitP 2 (fun i =>
      [.num (c.mats i).E, .sp, .num (c.mats i).nu, .sp, .num (c.mats i).Sy, .sp, .num (c.mats i).Ka, .endl])
    convergence := [], epsSigCtan := [], intVarsN := [] }

/-- The constructor: /repo/src/micro.cpp:28-146. -/
def constructF (env : Env α) (a : Args α) (j : Junk α) (f : Files α) : M (ObjFiles α) := do
  let o ← construct env a j
  pure { obj := o, files := ctorFiles o.cfg f }

/-! ## Call sequences -/

/-- A call of a public method.  `buf` is the caller's buffer. -/
inductive Call (α : Type)
  | setStrain (id : Int) (eps : Nat → α)
  | homogenize
  | getStress (id : Int) (buf : Nat → α)
  | getCtan (id : Int) (buf : Nat → α)
  | getNl (id : Int)
  | updateVars
  | output (tstep id : Int)
  | writeInfo

/-- What a call hands back to the caller. -/
inductive Ret (α : Type)
  | unit
  | buf (b : Nat → α)
  | flag (i : Int)

/-- State after a call and what it returned. -/
structure Stepped (α : Type) where
  state : ObjFiles α
  ret : Ret α

/-- One public call. -/
def step (env : Env α) (s : ObjFiles α) : Call α → M (Stepped α)
  | .setStrain id eps =>
    pure { state := { s with obj := setMacroStrain env s.obj id eps }, ret := .unit }
  | .homogenize => do
    let o ← homogenize env s.obj
    pure { state := { s with obj := o }, ret := .unit }
  | .getStress id buf =>
    let r := getMacroStress s.obj id buf
    pure { state := { s with obj := r.1 }, ret := .buf r.2 }
  | .getCtan id buf =>
    let r := getMacroCtan s.obj id buf
    pure { state := { s with obj := r.1 }, ret := .buf r.2 }
  | .getNl id =>
    let r := getNlFlag s.obj id
    pure { state := { s with obj := r.1 }, ret := .flag r.2 }
  | .updateVars => do
    let o ← updateVars s.obj
    pure { state := { s with obj := o }, ret := .unit }
  | .output t id => do
    let r ← output env s t id
    pure { state := r, ret := .unit }
  | .writeInfo => do
    let r ← writeInfoFiles s
    pure { state := r, ret := .unit }

/-- A sequence of public calls. -/
def run (env : Env α) : List (Call α) → ObjFiles α → M (ObjFiles α)
  | [], s => pure s
  | k :: l, s => do
    let r ← step env s k
    run env l r.state

end Verif
