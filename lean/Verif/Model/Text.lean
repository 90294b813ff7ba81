import Verif.Model.TextNames

/-!
# A small semantics of C++ statements

The functions of /repo/src/assembly.cpp:28-1182, of /repo/src/ell.cpp:40-1876 (without
`ell_print`) and `solve` (/repo/src/solve.cpp:32-44) use a small part of the language:
`int`, `bool` and `double` variables, local arrays, `malloc`, `for` loops, `if`, one form of
`do`-`while`, assignments and calls.  This file gives these constructs a meaning;
`Model/TextTable.lean` holds the function bodies, extracted from the source.  The data members are
those of the model (`Cfg`, `Work`).

* A local variable has no value before it is assigned, each entry of a local array likewise.
  Reading a variable or an entry without a value is the fault `uninit`, an index outside an array
  the fault `oob`.
* `int` has no bound here (C74 and C76 treat `int` arithmetic).
* The block returned by `malloc` is a local array with no assigned entries; after `free` it is gone.
  `malloc` never fails.
* Arrays, pointers to one variable and `material_t` are passed by copying in and out, and so are the
  members `A`, `b`, `du` that are handed to the functions of ell.cpp (which cannot name members).  The two
  agree because no call in the table passes the same variable twice (checked in
  `Props/Text.lean`) and parameters never alias members.
* The bound of a `for` loop is evaluated once; the generator rejects a body that assigns the
  counter or a variable of the bound.
-/

namespace Verif.Text

/-- Data members of type `int`: /repo/include/micro.hpp:69-73. -/
inductive GI
  | dim | nx | ny | nz | nn | npe | nvoi | nelem | micro_type | num_int_vars
  deriving DecidableEq

/-- Data members of type `double`: /repo/include/micro.hpp:71. -/
inductive GD
  | lx | ly | lz | dx | dy | dz | width
  deriving DecidableEq

/-- Data members of type `double *`: /repo/include/micro.hpp:85-93. -/
inductive GA
  | u | du | b | elem_stress | elem_strain | vars_old | vars_new
  deriving DecidableEq

/-- Fields of type `double` of `material_t`: /repo/include/micro.hpp:54-61. -/
inductive Fld
  | E | nu | k | mu | lam | Ka | Sy
  deriving DecidableEq

/-- Expressions of type `int` or `bool`, as in /repo/src/assembly.cpp:28-1182. -/
inductive IExp
  | lit (n : Int)
  | var (x : V)
  | mem (g : GI)
  | rd (x : V) (i : IExp)             -- local array
  | elemType (i : IExp)               -- `elem_type[i]`
  | matPlasticity (i : IExp)          -- `material_list[i].plasticity`
  | add (a b : IExp)
  | sub (a b : IExp)
  | mul (a b : IExp)
  | mod (a b : IExp)
  | tab (t : List (List Int)) (i j : IExp)   -- entry of a constant matrix, /repo/src/ell.cpp:337

/-- Expressions of type `double`, as in /repo/src/assembly.cpp:28-1182. -/
inductive DExp
  | lit (m : Nat) (s : Bool) (e : Nat)
  | ofInt (a : IExp)                  -- the conversion of an `int` operand
  | var (x : V)
  | mem (g : GD)
  | rd1 (x : V) (i : IExp)            -- local array
  | rd2 (x : V) (i j : IExp)          -- local matrix
  | memRd (g : GA) (i : IExp)
  | mat (i : IExp) (f : Fld)          -- `material_list[i].f`
  | ctanLin (i : IExp)                -- `ctan_lin[i]`, /repo/src/homogenize.cpp:55
  | invMax | invTol                   -- `inv_max`, `inv_tol`, /repo/src/homogenize.cpp:59-62
  | add (a b : DExp)
  | sub (a b : DExp)
  | mul (a b : DExp)
  | div (a b : DExp)
  | neg (a : DExp)
  | sqrt (a : DExp)
  | abs (a : DExp)

/-- Tests, as in /repo/src/assembly.cpp:28-1182. -/
inductive BExp
  | eqI (a b : IExp)
  | ltI (a b : IExp)
  | ltD (a b : DExp)
  | and (a b : BExp)                  -- `a && b`, /repo/src/homogenize.cpp:145

/-- Arguments of calls, as in /repo/src/assembly.cpp:28-1182. -/
inductive Arg
  | i (a : IExp)
  | d (a : DExp)
  | ref (x : V)
  | mat                               -- the local `material`
  | ell                               -- the pointer `m`, /repo/src/ell.cpp:148
  | solver                            -- `&solver`, /repo/src/solve.cpp:39
  | A                                 -- `&A`, /repo/src/assembly.cpp:337
  | mem (g : GA)                      -- `b`, `du`, /repo/src/solve.cpp:39

/-- Statements, as in /repo/src/assembly.cpp:28-1182. -/
inductive Stmt
  | skip
  | seq (s t : Stmt)
  | declI (x : V) | declD (x : V) | declV (x : V) (n : Nat) | declM (x : V) (n m : Nat)
  | declIV (x : V) (n : Nat) | declMat
  | initV (x : V) (l : List DExp) | initM (x : V) (m : Nat) (l : List (List DExp))
  | setI (x : V) (e : IExp) | setD (x : V) (e : DExp)
  | st1 (x : V) (i : IExp) (e : DExp) | st2 (x : V) (i j : IExp) (e : DExp)
  | stI (x : V) (i : IExp) (e : IExp) | memSt (g : GA) (i : IExp) (e : DExp)
  | ite (b : BExp) (s t : Stmt)
  | for (x : V) (lo hi : IExp) (s : Stmt)
  | call (f : Fn) (args : List Arg)
  | malloc (x : V) (n : IExp) | mallocI (x : V) (n : IExp) | free (x : V)
  | initIV (x : V) (l : List IExp) | declSolver
  /-- `do { s; if (b) break; t } while (w);` with at most `n + 1` passes, /repo/src/ell.cpp:153-193 -/
  | doW (n : IExp) (s : Stmt) (b : BExp) (t : Stmt) (w : BExp)

@[inherit_doc] infixr:60 " ;; " => Stmt.seq

/-- A local array (/repo/src/assembly.cpp:182 and others): length, entries (`none`: not assigned). -/
structure Vec (α : Type) where
  n : Nat
  val : Nat → Option α

/-- A local matrix (/repo/src/assembly.cpp:449 and others). -/
structure Mtx (α : Type) where
  n : Nat
  m : Nat
  val : Nat → Nat → Option α

/-- The local variables of a function of /repo/src/assembly.cpp:28-1182. -/
structure Loc (α : Type) where
  i : V → Option Int
  d : V → Option α
  v : V → Option (Vec α)
  m : V → Option (Mtx α)
  iv : V → Option (Vec Int)

/-- The members that change, and the local variables: /repo/src/assembly.cpp:28-1182. -/
structure St (α : Type) where
  w : Work α
  l : Loc α

/-- `f` with the value at `x` replaced. -/
def upd {β : Type} (f : V → Option β) (x : V) (b : Option β) : V → Option β :=
  fun y => if y = x then b else f y

/-- A value that must be there: reads of locals in /repo/src/assembly.cpp:28-1182. -/
def need {β : Type} : Option β → M β
  | some b => .ok b
  | none => .error .uninit

/-- Entry of a local array: /repo/src/assembly.cpp:966 and others. -/
def Vec.rd {β : Type} (a : Vec β) (k : Int) : M β :=
  if 0 ≤ k ∧ k < a.n then need (a.val k.toNat) else .error .oob

/-- Assignment to an entry of a local array: /repo/src/assembly.cpp:966 and others. -/
def Vec.wr {β : Type} (a : Vec β) (k : Int) (b : β) : M (Vec β) :=
  if 0 ≤ k ∧ k < a.n then .ok ⟨a.n, fun q => if q = k.toNat then some b else a.val q⟩
  else .error .oob

/-- Entry of a local matrix: /repo/src/assembly.cpp:632 and others. -/
def Mtx.rd {β : Type} (a : Mtx β) (k l : Int) : M β :=
  if 0 ≤ k ∧ k < a.n ∧ 0 ≤ l ∧ l < a.m then need (a.val k.toNat l.toNat) else .error .oob

/-- Assignment to an entry of a local matrix: /repo/src/assembly.cpp:632 and others. -/
def Mtx.wr {β : Type} (a : Mtx β) (k l : Int) (b : β) : M (Mtx β) :=
  if 0 ≤ k ∧ k < a.n ∧ 0 ≤ l ∧ l < a.m then
    .ok ⟨a.n, a.m, fun q r => if q = k.toNat ∧ r = l.toNat then some b else a.val q r⟩
  else .error .oob

variable {α : Type} [Scalar α]

/-- The `int` members: /repo/include/micro.hpp:69-73. -/
def GI.get (c : Cfg α) : GI → Int
  | .dim => c.dim
  | .nx => c.nx
  | .ny => c.ny
  | .nz => c.nz
  | .nn => c.nn
  | .npe => c.npe
  | .nvoi => c.nvoi
  | .nelem => c.nelem
  | .micro_type => c.microType
  | .num_int_vars => c.numIntVars

/-- The `double` members: /repo/include/micro.hpp:71. -/
def GD.get (c : Cfg α) : GD → α
  | .lx => c.lx
  | .ly => c.ly
  | .lz => c.lz
  | .dx => c.dx
  | .dy => c.dy
  | .dz => c.dz
  | .width => c.width

/-- The `double *` members: /repo/include/micro.hpp:85-93. -/
def GA.get (w : Work α) : GA → Buf α
  | .u => w.u
  | .du => w.du
  | .b => w.b
  | .elem_stress => w.elemStress
  | .elem_strain => w.elemStrain
  | .vars_old => w.varsOld
  | .vars_new => w.varsNew

/-- A new content of the block behind a `double *` member: /repo/include/micro.hpp:85-93. -/
def GA.set (w : Work α) (p : Buf α) : GA → Work α
  | .u => { w with u := p }
  | .du => { w with du := p }
  | .b => { w with b := p }
  | .elem_stress => { w with elemStress := p }
  | .elem_strain => { w with elemStrain := p }
  | .vars_old => { w with varsOld := p }
  | .vars_new => { w with varsNew := p }

/-- The fields of `material_t`: /repo/include/micro.hpp:54-61. -/
def Fld.get (m : Material α) : Fld → α
  | .E => m.E
  | .nu => m.nu
  | .k => m.k
  | .mu => m.mu
  | .lam => m.lambda
  | .Ka => m.Ka
  | .Sy => m.Sy

/-- `material_list[i]`, an array of `MAX_MATS` = 10 entries: /repo/include/micro.hpp:32, 79. -/
def matAt (c : Cfg α) (k : Int) : M (Material α) :=
  if 0 ≤ k ∧ k < 10 then .ok (c.mats k.toNat) else .error .oob

/-- Value of an `int` expression of /repo/src/assembly.cpp:28-1182. -/
def IExp.eval (c : Cfg α) (l : Loc α) : IExp → M Int
  | .lit n => .ok n
  | .var x => need (l.i x)
  | .mem g => .ok (g.get c)
  | .rd x i => do
    let k ← i.eval c l
    let a ← need (l.iv x)
    a.rd k
  | .elemType i => do
    let k ← i.eval c l
    c.elemType.readI k
  | .matPlasticity i => do
    let k ← i.eval c l
    let m ← matAt c k
    pure (if m.plasticity = true then 1 else 0)
  | .add a b => do
    let x ← a.eval c l
    let y ← b.eval c l
    pure (x + y)
  | .sub a b => do
    let x ← a.eval c l
    let y ← b.eval c l
    pure (x - y)
  | .mul a b => do
    let x ← a.eval c l
    let y ← b.eval c l
    pure (x * y)
  | .mod a b => do
    let x ← a.eval c l
    let y ← b.eval c l
    if y = 0 then .error .abort else pure (x.tmod y)
  | .tab t i j => do
    let k ← i.eval c l
    let q ← j.eval c l
    if 0 ≤ k ∧ 0 ≤ q then
      match t[k.toNat]?.bind (·[q.toNat]?) with
      | some y => pure y
      | none => .error .oob
    else .error .oob

/-- The conversion from `int` to `double` in mixed expressions, as in /repo/src/assembly.cpp:967. -/
def ofInt : Int → α
  | .ofNat k => (k : α)
  | .negSucc k => -((k + 1 : Nat) : α)

/-- Value of a `double` expression of /repo/src/assembly.cpp:28-1182. -/
def DExp.eval (c : Cfg α) (s : St α) : DExp → M α
  | .lit m b e => .ok (OfScientific.ofScientific m b e)
  | .ofInt a => do
    let x ← a.eval c s.l
    pure (Text.ofInt x)
  | .var x => need (s.l.d x)
  | .mem g => .ok (g.get c)
  | .rd1 x i => do
    let k ← i.eval c s.l
    let a ← need (s.l.v x)
    a.rd k
  | .rd2 x i j => do
    let k ← i.eval c s.l
    let q ← j.eval c s.l
    let a ← need (s.l.m x)
    a.rd k q
  | .memRd g i => do
    let k ← i.eval c s.l
    (g.get s.w).readI k
  | .mat i f => do
    let k ← i.eval c s.l
    let m ← matAt c k
    pure (f.get m)
  | .ctanLin i => do
    let k ← i.eval c s.l
    if 0 ≤ k ∧ k < 36 then pure (c.ctanLin k.toNat) else .error .oob
  | .invMax => .ok s.w.invMax
  | .invTol => .ok c.invTol
  | .add a b => do
    let x ← a.eval c s
    let y ← b.eval c s
    pure (x + y)
  | .sub a b => do
    let x ← a.eval c s
    let y ← b.eval c s
    pure (x - y)
  | .mul a b => do
    let x ← a.eval c s
    let y ← b.eval c s
    pure (x * y)
  | .div a b => do
    let x ← a.eval c s
    let y ← b.eval c s
    pure (x / y)
  | .neg a => do
    let x ← a.eval c s
    pure (-x)
  | .sqrt a => do
    let x ← a.eval c s
    pure (Scalar.sqrt x)
  | .abs a => do
    let x ← a.eval c s
    pure (Scalar.abs x)

/-- Value of a test of /repo/src/assembly.cpp:28-1182. -/
def BExp.eval (c : Cfg α) (s : St α) : BExp → M Bool
  | .eqI a b => do
    let x ← a.eval c s.l
    let y ← b.eval c s.l
    pure (decide (x = y))
  | .ltI a b => do
    let x ← a.eval c s.l
    let y ← b.eval c s.l
    pure (decide (x < y))
  | .ltD a b => do
    let x ← a.eval c s
    let y ← b.eval c s
    pure (Scalar.lt x y)
  | .and a b => do
    let x ← a.eval c s
    if x = true then b.eval c s else pure false

/-- Values of an initialiser list, as in /repo/src/assembly.cpp:1014. -/
def evalList (c : Cfg α) (s : St α) : List DExp → M (List α)
  | [] => .ok []
  | e :: es => do
    let x ← e.eval c s
    let xs ← evalList c s es
    pure (x :: xs)

/-- Values of a nested initialiser list, as in /repo/src/assembly.cpp:593-602. -/
def evalRows (c : Cfg α) (s : St α) : List (List DExp) → M (List (List α))
  | [] => .ok []
  | r :: rs => do
    let x ← evalList c s r
    let xs ← evalRows c s rs
    pure (x :: xs)

/-- Values of an initialiser list of `int`, as in /repo/src/ell.cpp:342. -/
def evalInts (c : Cfg α) (l : Loc α) : List IExp → M (List Int)
  | [] => .ok []
  | e :: es => do
    let x ← e.eval c l
    let xs ← evalInts c l es
    pure (x :: xs)

/-- No local variable has a value: entry of a function of /repo/src/assembly.cpp:28-1182. -/
def Loc.none : Loc α :=
  ⟨fun _ => .none, fun _ => .none, fun _ => .none, fun _ => .none, fun _ => .none⟩

/-- The `double` fields of the local `material`: /repo/include/micro.hpp:54-61. -/
def matD : List V :=
  [.material_E, .material_nu, .material_k, .material_mu, .material_lam, .material_Ka, .material_Sy]

/-- The `bool` fields of the local `material`: /repo/include/micro.hpp:62-63. -/
def matI : List V := [.material_plasticity, .material_damage]

/-- Copy the fields of `material` from `a` to `b`: /repo/src/assembly.cpp:370, 989 (arguments). -/
def copyMat (a b : Loc α) : Loc α :=
  { b with i := fun y => if y ∈ matI then a.i y else b.i y
           d := fun y => if y ∈ matD then a.d y else b.d y }

/-- The `int` fields of the parameter `m`: /repo/include/ell.hpp:25-27. -/
def ellI : List V := [.m_nrow, .m_ncol, .m_nnz]

/-- Copy what `m` points to from `a` to `b`: calls in /repo/src/ell.cpp:148, 179. -/
def copyEll (a b : Loc α) : Loc α :=
  { b with i := fun y => if y ∈ ellI then a.i y else b.i y
           v := fun y => if y = .m_vals then a.v y else b.v y
           iv := fun y => if y = .m_cols then a.iv y else b.iv y }

/-- Copy the fields of `solver` from `a` to `b`: calls in /repo/src/solve.cpp:39-41. -/
def copySolver (a b : Loc α) : Loc α :=
  { b with i := fun y => if y = .solver_max_its ∨ y = .solver_its then a.i y else b.i y
           d := fun y => if y = .solver_min_tol ∨ y = .solver_err then a.d y else b.d y }

/-- A block of memory as an array: calls in /repo/src/solve.cpp:39-41. -/
def Vec.ofBuf {β : Type} (p : Buf β) : Vec β := ⟨p.size, fun q => some (p.val q)⟩

/-- An array as a block of memory; what is not assigned keeps its content.  Calls in
/repo/src/solve.cpp:39-41. -/
def Buf.ofVec {β : Type} (p : Buf β) : Option (Vec β) → Buf β
  | some a => ⟨a.n, fun q => (a.val q).getD (p.val q)⟩
  | none => p

/-- The member `A` as what `m` points to: calls in /repo/src/assembly.cpp:337-361. -/
def ellIn (m : Ell α) (l : Loc α) : Loc α :=
  { l with i := upd (upd (upd l.i .m_nrow (some (m.nrow : Int))) .m_ncol (some (m.ncol : Int)))
             .m_nnz (some (m.nnz : Int))
           v := upd l.v .m_vals (some (Vec.ofBuf m.vals))
           iv := upd l.iv .m_cols (some (Vec.ofBuf m.cols)) }

/-- The member `A` after a call in /repo/src/assembly.cpp:337-361. -/
def ellOut (m : Ell α) (l : Loc α) : Ell α :=
  { nrow := ((l.i .m_nrow).getD m.nrow).toNat
    ncol := ((l.i .m_ncol).getD m.ncol).toNat
    nnz := ((l.i .m_nnz).getD m.nnz).toNat
    vals := Buf.ofVec m.vals (l.v .m_vals)
    cols := Buf.ofVec m.cols (l.iv .m_cols) }

/-- Passing one argument: `l` are the locals of the callee so far.  Calls in
/repo/src/assembly.cpp:28-1182. -/
def passIn (c : Cfg α) (s : St α) (l : Loc α) : Kind × V → Arg → M (Loc α)
  | (.i, p), .i a => do
    let x ← a.eval c s.l
    pure { l with i := upd l.i p (some x) }
  | (.d, p), .d a => do
    let x ← a.eval c s
    pure { l with d := upd l.d p (some x) }
  | (.ri, p), .ref x => .ok { l with i := upd l.i p (s.l.i x) }
  | (.rd, p), .ref x => .ok { l with d := upd l.d p (s.l.d x) }
  | (.v, p), .ref x => .ok { l with v := upd l.v p (s.l.v x) }
  | (.m, p), .ref x => .ok { l with m := upd l.m p (s.l.m x) }
  | (.mat, _), .mat => .ok (copyMat s.l l)
  | (.ell, _), .ell => .ok (copyEll s.l l)
  | (.solver, _), .solver => .ok (copySolver s.l l)
  | (.ell, _), .A => .ok (ellIn s.w.A l)
  | (.v, p), .mem g => .ok { l with v := upd l.v p (some (Vec.ofBuf (g.get s.w))) }
  | _, _ => .error .abort

/-- Passing all arguments of a call in /repo/src/assembly.cpp:28-1182. -/
def passAll (c : Cfg α) (s : St α) (l : Loc α) : List (Kind × V) → List Arg → M (Loc α)
  | p :: ps, a :: as => do
    let l ← passIn c s l p a
    passAll c s l ps as
  | [], [] => .ok l
  | _, _ => .error .abort

/-- What one argument passed by reference holds after a call: `l` are the locals of the caller,
`r` those of the callee.  Calls in /repo/src/assembly.cpp:28-1182. -/
def passOut (r l : Loc α) : Kind × V → Arg → Loc α
  | (.ri, p), .ref x => { l with i := upd l.i x (r.i p) }
  | (.rd, p), .ref x => { l with d := upd l.d x (r.d p) }
  | (.v, p), .ref x => { l with v := upd l.v x (r.v p) }
  | (.m, p), .ref x => { l with m := upd l.m x (r.m p) }
  | (.mat, _), .mat => copyMat r l
  | (.ell, _), .ell => copyEll r l
  | (.solver, _), .solver => copySolver r l
  | _, _ => l

/-- All arguments after a call in /repo/src/assembly.cpp:28-1182. -/
def passBack (r l : Loc α) : List (Kind × V) → List Arg → Loc α
  | p :: ps, a :: as => passBack r (passOut r l p a) ps as
  | _, _ => l

/-- What a member passed to a function of ell.cpp holds after a call in
/repo/src/assembly.cpp:337-361, /repo/src/solve.cpp:39-41. -/
def memOut (r : Loc α) (w : Work α) : Kind × V → Arg → Work α
  | (.ell, _), .A => { w with A := ellOut w.A r }
  | (.v, p), .mem g => g.set w (Buf.ofVec (g.get w) (r.v p))
  | _, _ => w

/-- All members after a call in /repo/src/assembly.cpp:337-361, /repo/src/solve.cpp:39-41. -/
def memBack (r : Loc α) (w : Work α) : List (Kind × V) → List Arg → Work α
  | p :: ps, a :: as => memBack r (memOut r w p a) ps as
  | _, _ => w

/-- `do { f; if (b) break; g } while (w);` with at most `n + 1` passes: /repo/src/ell.cpp:153-193. -/
def doIter (f g : St α → M (St α)) (b w : St α → M Bool) : Nat → St α → M (St α)
  | n, s => do
    let s ← f s
    let t ← b s
    if t = true then pure s
    else do
      let s ← g s
      let t ← w s
      if t = true then
        match n with
        | 0 => .error .fuel
        | n + 1 => doIter f g b w n s
      else pure s

/-- Execution of the statements of /repo/src/assembly.cpp:28-1182; `call f s` runs the function
`f` from the locals `s.l`. -/
def Stmt.exec (c : Cfg α) (call : Fn → St α → M (St α)) : Stmt → St α → M (St α)
  | .skip, s => .ok s
  | .seq a b, s => do
    let s ← a.exec c call s
    b.exec c call s
  | .declI x, s => .ok { s with l.i := upd s.l.i x .none }
  | .declD x, s => .ok { s with l.d := upd s.l.d x .none }
  | .declV x n, s => .ok { s with l.v := upd s.l.v x (some ⟨n, fun _ => .none⟩) }
  | .declM x n m, s => .ok { s with l.m := upd s.l.m x (some ⟨n, m, fun _ _ => .none⟩) }
  | .declIV x n, s => .ok { s with l.iv := upd s.l.iv x (some ⟨n, fun _ => .none⟩) }
  | .declMat, s => .ok { s with l := copyMat Loc.none s.l }
  | .initV x l, s => do
    let a ← evalList c s l
    pure { s with l.v := upd s.l.v x (some ⟨a.length, fun k => a[k]?⟩) }
  | .initM x m l, s => do
    let a ← evalRows c s l
    pure { s with l.m := upd s.l.m x (some ⟨a.length, m, fun k j => a[k]?.bind (·[j]?)⟩) }
  | .setI x e, s => do
    let y ← e.eval c s.l
    pure { s with l.i := upd s.l.i x (some y) }
  | .setD x e, s => do
    let y ← e.eval c s
    pure { s with l.d := upd s.l.d x (some y) }
  | .st1 x i e, s => do
    let k ← i.eval c s.l
    let y ← e.eval c s
    let a ← need (s.l.v x)
    let a ← a.wr k y
    pure { s with l.v := upd s.l.v x (some a) }
  | .st2 x i j e, s => do
    let k ← i.eval c s.l
    let q ← j.eval c s.l
    let y ← e.eval c s
    let a ← need (s.l.m x)
    let a ← a.wr k q y
    pure { s with l.m := upd s.l.m x (some a) }
  | .stI x i e, s => do
    let k ← i.eval c s.l
    let y ← e.eval c s.l
    let a ← need (s.l.iv x)
    let a ← a.wr k y
    pure { s with l.iv := upd s.l.iv x (some a) }
  | .memSt g i e, s => do
    let k ← i.eval c s.l
    let y ← e.eval c s
    if 0 ≤ k then
      let p ← (g.get s.w).write k.toNat y
      pure { s with w := g.set s.w p }
    else .error .oob
  | .ite b s1 s2, s => do
    let t ← b.eval c s
    if t = true then s1.exec c call s else s2.exec c call s
  | .for x lo hi b, s => do
    let a ← lo.eval c s.l
    let z ← hi.eval c s.l
    loop (z - a).toNat (fun k s => b.exec c call { s with l.i := upd s.l.i x (some (a + k)) }) s
  | .call f args, s => do
    let l ← passAll c s Loc.none (params f) args
    let r ← call f ⟨s.w, l⟩
    pure ⟨memBack r.l r.w (params f) args, passBack r.l s.l (params f) args⟩
  | .malloc x e, s => do
    let n ← e.eval c s.l
    pure { s with l.v := upd s.l.v x (some ⟨n.toNat, fun _ => .none⟩) }
  | .mallocI x e, s => do
    let n ← e.eval c s.l
    pure { s with l.iv := upd s.l.iv x (some ⟨n.toNat, fun _ => .none⟩) }
  | .free x, s => do
    let _ ← need (s.l.v x)
    pure { s with l.v := upd s.l.v x .none }
  | .initIV x l, s => do
    let a ← evalInts c s.l l
    pure { s with l.iv := upd s.l.iv x (some ⟨a.length, fun k => a[k]?⟩) }
  | .declSolver, s => .ok { s with l := copySolver Loc.none s.l }
  | .doW e p b q w, s => do
    let n ← e.eval c s.l
    doIter (fun s => p.exec c call s) (fun s => q.exec c call s) (fun s => b.eval c s)
      (fun s => w.eval c s) n.toNat s

end Verif.Text
