import Verif.Model.ObjTable
import Verif.Model.Output

/-!
# Statements of output.cpp: a third layer, with files

`output`, `write_vtu`, `write_info_files` (/repo/src/output.cpp:29-285) and the constructor
(/repo/src/micro.cpp:86-116, 140-145) write files.  The bodies are in `Model/FileTable.lean`.

* A file is a list of tokens, as in `Model/Output.lean`.  What is written to the stream belongs to the
  open file; the file has the new content when the stream is closed.  Opening for writing starts with
  no content, opening for appending with the content the file has.
* Opening a stream that is open, and writing to one that is closed, are the fault `abort` (the text
  has neither).  Files can always be opened and written.
* The loops over the list of Gauss points here are over constant references: nothing is written back.
-/

namespace Verif.Text

/-- Names of files: /repo/src/output.cpp:55, 230, 238, 274, /repo/src/micro.cpp:87. -/
inductive FName
  | conv | eps | vars | mats
  | vtu (g t : IExp)                  -- `micropp_<g>_<t>.vtu`

/-- A file. -/
inductive FId
  | conv | eps | vars | mats
  | vtu (g t : Int)

/-- Operands of `file <<`, as in /repo/src/output.cpp:60-64. -/
inductive FTok
  | str (s : String)
  | int (e : IExp)
  | num (e : DExp)
  | endl

/-- Statements of /repo/src/output.cpp:29-285. -/
inductive FStmt
  | obj (p : OStmt)
  | seq (s t : FStmt)
  | ite (b : BExp) (s t : FStmt)
  | for (x : V) (lo hi : IExp) (s : FStmt)
  | put (l : List FTok)               -- `file << ..`
  | open (f : FName) (app : Bool)     -- `file.open(f)`, `file.open(f, std::ios_base::app)`
  | close                             -- `file.close()`
  | each (s : FStmt)                  -- `for (auto const & gp : gauss_list) s`
  | find (b : BExp) (s : FStmt)       -- `for (auto const & gp : gauss_list) if (b) { s; break; }`
  | call (f : FFn) (args : List IExp) -- all parameters are of type `int`

@[inherit_doc] infixr:58 " ;;;; " => FStmt.seq

variable {α : Type} [Scalar α]

/-- The members that change and the locals, the files, and the open file with what is in it:
/repo/src/output.cpp:58-221. -/
structure FSt (α : Type) where
  st : St α
  files : Files α
  cur : Option (FId × List (Tok α))

/-- Content of a file; one that does not exist has none.  /repo/src/output.cpp:230. -/
def FId.get (f : Files α) : FId → List (Tok α)
  | .conv => f.convergence
  | .eps => f.epsSigCtan
  | .vars => f.intVarsN
  | .mats => f.materials
  | .vtu g t => (f.vtu g t).getD []

/-- New content of a file: /repo/src/output.cpp:221, 236. -/
def FId.set (f : Files α) (l : List (Tok α)) : FId → Files α
  | .conv => { f with convergence := l }
  | .eps => { f with epsSigCtan := l }
  | .vars => { f with intVarsN := l }
  | .mats => { f with materials := l }
  | .vtu g t => { f with vtu := fun a b => if a = g ∧ b = t then some l else f.vtu a b }

/-- The file with a name: /repo/src/output.cpp:55-59. -/
def FName.eval (c : Cfg α) (l : Loc α) : FName → M FId
  | .conv => .ok .conv
  | .eps => .ok .eps
  | .vars => .ok .vars
  | .mats => .ok .mats
  | .vtu g t => do
    let a ← g.eval c l
    let b ← t.eval c l
    pure (.vtu a b)

/-- An operand of `<<`: /repo/src/output.cpp:60-64. -/
def FTok.eval (c : Cfg α) (s : St α) : FTok → M (Tok α)
  | .str x => .ok (.str x)
  | .int e => do
    let k ← e.eval c s.l
    pure (.int k)
  | .num e => do
    let y ← e.eval c s
    pure (.num y)
  | .endl => .ok .endl

/-- The operands of a chain of `<<`, from left to right: /repo/src/output.cpp:60-64. -/
def evalToks (c : Cfg α) (s : St α) : List FTok → M (List (Tok α))
  | [] => .ok []
  | t :: l => do
    let x ← t.eval c s
    let r ← evalToks c s l
    pure (x :: r)

/-- `file.close()`, also at the end of the life of `file`: /repo/src/output.cpp:221-222. -/
def FSt.close (s : FSt α) : FSt α :=
  match s.cur with
  | none => s
  | some (f, l) => { s with files := f.set s.files l, cur := none }

/-- `for (auto const & gp : gauss_list) f`: /repo/src/output.cpp:232-233, 248-257. -/
def eachConst (f : FSt α → M (FSt α)) : List (Gp α) → FSt α → M (FSt α)
  | [], s => pure s
  | gp :: l, s => do
    let s ← f { s with st.l := gpIn gp s.st.l }
    eachConst f l s

/-- `for (auto const & gp : gauss_list) if (b) { f; break; }`: /repo/src/output.cpp:31-49. -/
def findConst (b : St α → M Bool) (f : FSt α → M (FSt α)) : List (Gp α) → FSt α → M (FSt α)
  | [], s => pure s
  | gp :: l, s => do
    let t ← b ⟨s.st.w, gpIn gp s.st.l⟩
    if t = true then f { s with st.l := gpIn gp s.st.l } else findConst b f l s

/-- The arguments of a call, by value: /repo/src/output.cpp:47. -/
def passInts (c : Cfg α) (l : Loc α) : List V → List IExp → Loc α → M (Loc α)
  | x :: xs, e :: es, r => do
    let k ← e.eval c l
    passInts c l xs es { r with i := upd r.i x (some k) }
  | _, _, r => .ok r

/-- Execution of the statements of /repo/src/output.cpp:29-285; `exec` runs a statement of the layer
below, `call f s` the function `f`, `gs` is the list of Gauss points. -/
def FStmt.exec (c : Cfg α) (gs : List (Gp α)) (exec : OStmt → St α → M (St α))
    (call : FFn → FSt α → M (FSt α)) : FStmt → FSt α → M (FSt α)
  | .obj p, s => do
    let t ← exec p s.st
    pure { s with st := t }
  | .seq a b, s => do
    let s ← a.exec c gs exec call s
    b.exec c gs exec call s
  | .ite b p q, s => do
    let t ← b.eval c s.st
    if t = true then p.exec c gs exec call s else q.exec c gs exec call s
  | .for x lo hi b, s => do
    let a ← lo.eval c s.st.l
    let z ← hi.eval c s.st.l
    loop (z - a).toNat (fun k s =>
      b.exec c gs exec call { s with st.l.i := upd s.st.l.i x (some (a + k)) }) s
  | .put l, s =>
    match s.cur with
    | none => .error .abort
    | some (f, ts) => do
      let r ← evalToks c s.st l
      pure { s with cur := some (f, ts ++ r) }
  | .open n app, s =>
    match s.cur with
    | some _ => .error .abort
    | none => do
      let f ← n.eval c s.st.l
      pure { s with cur := some (f, if app = true then f.get s.files else []) }
  | .close, s => .ok s.close
  | .each p, s => eachConst (fun s => p.exec c gs exec call s) gs s
  | .find b p, s => findConst (fun s => b.eval c s) (fun s => p.exec c gs exec call s) gs s
  | .call f args, s => do
    let l ← passInts c s.st.l (fparams f) args Loc.none
    let r ← call f { s with st.l := l, cur := none }
    pure { r with st.l := s.st.l, cur := s.cur }

end Verif.Text
