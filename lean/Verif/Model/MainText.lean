import Verif.Model.Client

/-!
# The programs of /repo/test as text

Expressions and statements in which the programs are written, and what they do.  The programs
themselves are in `Verif.Model.MainTable`, which `tools/gen_main.py` extracts.

`argv` is the list of the numbers that `atoi` returns for the arguments.  A block with automatic
storage holds junk until it is assigned; a scalar without a value is undefined behaviour when read.
The bound of a loop is a number or a variable that the body does not assign (the script checks it), so
it is evaluated once.  `setw`, `scientific` and the blanks between two numbers are left out.
-/

namespace Verif.MainText

/-- The integers: /repo/test/test3d_8.cpp:43-52, 77, 82, 96, 101 and others. -/
inductive IV
  | nx | ny | nz | dim | dims | dir | time_steps | micro_type | ngp | t | gp | i
  deriving DecidableEq

/-- The real numbers: /repo/test/test3d_1.cpp:75 and others. -/
inductive DV
  | d_eps
  deriving DecidableEq

/-- The integer arrays: /repo/test/test3d_1.cpp:45, 58, /repo/test/test3d_3.f90:27 and others. -/
inductive IA
  | size | mat_types | sizes | types
  deriving DecidableEq

/-- The real arrays: /repo/test/test3d_1.cpp:51, 62, 73-74, /repo/test/test3d_3.f90:28-32 and others. -/
inductive DA
  | micro_params | mat_params | eps | sig | ctan | MacroStress | MacroCtan
  | params | strain | stress
  deriving DecidableEq

/-- Integer expressions.  `arg k` is `atoi(argv[k])`, `opt k a b` is `argc > k ? a : b`:
/repo/test/test3d_1.cpp:40-44 and others. -/
inductive IE
  | lit (n : Int)
  | v (x : IV)
  | arg (k : Nat)
  | opt (k : Nat) (a b : IE)
  | add (a b : IE)
  | mul (a b : IE)

/-- Real expressions.  `lit m e` is the literal `m * 10^e`, `int n` an integer literal where a real
number is wanted: /repo/test/test3d_7.cpp:52-71, 84, 102-106 and others. -/
inductive DE
  | lit (m : Nat) (e : Int)
  | int (n : Nat)
  | v (x : DV)
  | ix (a : DA) (k : IE)

/-- Operands of `<<`: /repo/test/test3d_1.cpp:79, 99-106 and others. -/
inductive TE
  | str (s : String)
  | int (e : IE)
  | num (e : DE)
  | endl

/-- Statements: /repo/test/test3d_8.cpp:43-125 and others. -/
inductive Stm
  | skip
  | seq (a b : Stm)
  | iset (x : IV) (e : IE)
  | dset (x : DV) (e : DE)
  | idecl (a : IA) (n : IE)
  | ddecl (a : DA) (n : IE)
  | iinit (a : IA) (n : IE) (l : List IE)
  | dinit (a : DA) (n : IE) (l : List DE)
  | iput (a : IA) (k e : IE)
  | dput (a : DA) (k : IE) (e : DE)
  | dadd (a : DA) (k : IE) (e : DE)
  | dsub (a : DA) (k : IE) (e : DE)
  | iflt (a b : IE) (p q : Stm)
  | forlt (x : IV) (n : IE) (p : Stm)
  | assert (l : List (IE × IE))
  | ctor (dim : IE) (size : IA) (micro : IE) (mp : DA) (mt : IA) (mat : DA)
  | setStrain (gp : IE) (a : DA)
  | homogenize
  | getStress (gp : IE) (a : DA)
  | updateVars
  | writeInfo
  | output (t gp : IE)
  | print (l : List TE)

@[inherit_doc] infixr:50 " ;; " => Stm.seq

/-- A `main`: what precedes the test of the arguments, the test `argc < least` with the value returned,
the rest, and the value returned at the end: /repo/test/test3d_1.cpp:32-110 and others. -/
structure Prog where
  pre : Stm
  least : Nat
  bad : Int
  body : Stm
  ret : Int

variable {α : Type} [Scalar α]

/-- The memory of a program. -/
structure St (α : Type) where
  i : IV → Option Int
  d : DV → Option α
  ia : IA → Option (Buf Int)
  da : DA → Option (Buf α)
  obj : Option (ObjFiles α)
  out : List (Tok α)

/-- What the arrays hold before they are assigned. -/
structure Jk (α : Type) where
  i : IA → Nat → Int
  d : DA → Nat → α

/-- A library: its constructor and its member functions, called with arrays of the caller. -/
structure Lib (α : Type) where
  ctor : Nat → Int → CtorArrays α → Junk α → Files α → M (ObjFiles α)
  setStrain : ObjFiles α → Int → Buf α → M (ObjFiles α)
  getStress : ObjFiles α → Int → Buf α → M (Got α)
  call : ObjFiles α → Call α → M (ObjFiles α)

/-- The library of the model, on the machine `env`. -/
def Lib.model (env : Env α) : Lib α :=
  { ctor := cConstruct env, setStrain := cSetStrain env, getStress := cGetStress env, call := cCall env }

/-- What surrounds a run: the library, the junk of the constructor and of the arrays, the files and
the arguments. -/
structure Ctx (α : Type) where
  lib : Lib α
  j : Junk α
  jk : Jk α
  f : Files α
  argv : List Int

/-- A function changed at one place. -/
def set {ι β : Type} [DecidableEq ι] (g : ι → β) (x : ι) (b : β) : ι → β :=
  fun y => if y = x then b else g y

/-- The value of something that must have one. -/
def need {β : Type} : Option β → M β
  | some b => .ok b
  | none => .error .uninit

/-- `argc`: the arguments and the name of the program. -/
def argc (c : Ctx α) : Nat := c.argv.length + 1

/-- Integer expressions: /repo/test/test3d_1.cpp:40-48, 63-69 and others. -/
def ival (c : Ctx α) (s : St α) : IE → M Int
  | .lit n => pure n
  | .v x => need (s.i x)
  | .arg k => match k with
    | 0 => .error .oob
    | k + 1 => match c.argv[k]? with
      | some n => pure n
      | none => .error .null
  | .opt k a b => if argc c > k then ival c s a else ival c s b
  | .add a b => do
    let m ← ival c s a
    let n ← ival c s b
    pure (m + n)
  | .mul a b => do
    let m ← ival c s a
    let n ← ival c s b
    pure (m * n)

/-- A decimal literal. -/
def dec (m : Nat) : Int → α
  | .ofNat e => OfScientific.ofScientific m false e
  | .negSucc e => OfScientific.ofScientific m true (e + 1)

/-- Real expressions: /repo/test/test3d_1.cpp:52-56, 81, 99 and others. -/
def dval (c : Ctx α) (s : St α) : DE → M α
  | .lit m e => pure (dec m e)
  | .int n => pure ((n : Nat) : α)
  | .v x => need (s.d x)
  | .ix a k => do
    let n ← ival c s k
    let b ← need (s.da a)
    b.readI n

/-- The values of a list of expressions. -/
def evals {ε β : Type} (f : ε → M β) : List ε → M (List β)
  | [] => pure []
  | e :: l => do
    let v ← f e
    let r ← evals f l
    pure (v :: r)

/-- An operand of `<<`. -/
def tok (c : Ctx α) (s : St α) : TE → M (Tok α)
  | .str x => pure (.str x)
  | .int e => do
    let n ← ival c s e
    pure (.int n)
  | .num e => do
    let v ← dval c s e
    pure (.num v)
  | .endl => pure .endl

/-- All the tests of an assertion, from the left, up to the first that fails. -/
def allGt (c : Ctx α) (s : St α) : List (IE × IE) → M Bool
  | [] => pure true
  | (a, b) :: l => do
    let m ← ival c s a
    let n ← ival c s b
    if m > n then allGt c s l else pure false

/-- A member function is called. -/
def onObj (s : St α) (f : ObjFiles α → M (ObjFiles α)) : M (St α) := do
  let o ← need s.obj
  let o ← f o
  pure { s with obj := some o }

/-- Statements: /repo/test/test3d_8.cpp:43-125 and others. -/
def exec (c : Ctx α) : Stm → St α → M (St α)
  | .skip, s => pure s
  | .seq a b, s => do
    let s ← exec c a s
    exec c b s
  | .iset x e, s => do
    let n ← ival c s e
    pure { s with i := set s.i x (some n) }
  | .dset x e, s => do
    let v ← dval c s e
    pure { s with d := set s.d x (some v) }
  | .idecl a n, s => do
    let n ← ival c s n
    pure { s with ia := set s.ia a (some ⟨n.toNat, c.jk.i a⟩) }
  | .ddecl a n, s => do
    let n ← ival c s n
    pure { s with da := set s.da a (some ⟨n.toNat, c.jk.d a⟩) }
  | .iinit a n l, s => do
    let n ← ival c s n
    let l ← evals (ival c s) l
    pure { s with ia := set s.ia a (some ⟨n.toNat, fun k => l.getD k 0⟩) }
  | .dinit a n l, s => do
    let n ← ival c s n
    let l ← evals (dval c s) l
    pure { s with da := set s.da a (some ⟨n.toNat, fun k => l.getD k 0⟩) }
  | .iput a k e, s => do
    let v ← ival c s e
    let k ← ival c s k
    let b ← need (s.ia a)
    let b ← b.writeI k v
    pure { s with ia := set s.ia a (some b) }
  | .dput a k e, s => do
    let v ← dval c s e
    let k ← ival c s k
    let b ← need (s.da a)
    let b ← b.writeI k v
    pure { s with da := set s.da a (some b) }
  | .dadd a k e, s => do
    let v ← dval c s e
    let k ← ival c s k
    let b ← need (s.da a)
    let w ← b.readI k
    let b ← b.writeI k (w + v)
    pure { s with da := set s.da a (some b) }
  | .dsub a k e, s => do
    let v ← dval c s e
    let k ← ival c s k
    let b ← need (s.da a)
    let w ← b.readI k
    let b ← b.writeI k (w - v)
    pure { s with da := set s.da a (some b) }
  | .iflt a b p q, s => do
    let m ← ival c s a
    let n ← ival c s b
    if m < n then exec c p s else exec c q s
  | .forlt x n p, s => do
    let n ← ival c s n
    loop n.toNat (fun k s => exec c p { s with i := set s.i x (some (k : Int)) }) s
  | .assert l, s => do
    let b ← allGt c s l
    if b then pure s else .error .abort
  | .ctor dim size micro mp mt mat, s => do
    let dim ← ival c s dim
    let size ← need (s.ia size)
    let micro ← ival c s micro
    let mp ← need (s.da mp)
    let mt ← need (s.ia mt)
    let mat ← need (s.da mat)
    let o ← c.lib.ctor dim.toNat micro
      ⟨⟨size.size, fun k => (size.val k).toNat⟩, mp, mt, mat⟩ c.j c.f
    pure { s with obj := some o }
  | .setStrain g a, s => do
    let g ← ival c s g
    let a ← need (s.da a)
    onObj s fun o => c.lib.setStrain o g a
  | .homogenize, s => onObj s fun o => c.lib.call o .homogenize
  | .getStress g a, s => do
    let g ← ival c s g
    let b ← need (s.da a)
    let o ← need s.obj
    let r ← c.lib.getStress o g b
    pure { s with obj := some r.state, da := set s.da a (some r.arr) }
  | .updateVars, s => onObj s fun o => c.lib.call o .updateVars
  | .writeInfo, s => onObj s fun o => c.lib.call o .writeInfo
  | .output t g, s => do
    let t ← ival c s t
    let g ← ival c s g
    onObj s fun o => c.lib.call o (.output t g)
  | .print l, s => do
    let l ← evals (tok c s) l
    pure { s with out := s.out ++ l }

/-- The memory at the start. -/
def start : St α :=
  { i := fun _ => none, d := fun _ => none, ia := fun _ => none, da := fun _ => none
    obj := none, out := [] }

/-- A program: the value it returns and, unless it ended with its usage, the memory at the end. -/
def runProg (c : Ctx α) (p : Prog) : M (Int × Option (St α)) := do
  let s ← exec c p.pre start
  if argc c < p.least then pure (p.bad, none)
  else
    let s ← exec c p.body s
    pure (p.ret, some s)

/-- What the model follows of the memory; `x` names the array of the stress. -/
def St.drive (x : DA) (s : St α) : Option (Drive α) := do
  let o ← s.obj
  let e ← s.da .eps
  let g ← s.da x
  some { state := o, eps := e, sig := g, out := s.out }

/-- The junk that the model knows of. -/
def Jk.main (x : DA) (k : Jk α) : MainJunk α :=
  { size := fun i => (k.i .size i).toNat, params := k.d .mat_params, sig := k.d x }

end Verif.MainText
