import Verif.Model.TextTable
import Verif.Model.Homogenize

/-!
# Statements of homogenize.cpp: a second layer over the small semantics

`newton_raphson` (/repo/src/solve.cpp:46-66), the functions of /repo/src/homogenize.cpp:26-217 and
`get_nl_flag`, `get_elem_type2D`, `get_elem_type3D` and the loops of the constructor that use them
(/repo/src/micro.cpp:116-137, 167-224) need constructs that `Model/Text.lean` does not have: an
unbounded `do`-`while`, a read through a pointer that has left its object, failing assertions, the
member `inv_max`, and the list of Gauss points.  The bodies are in `Model/ObjTable.lean`.

* What the source leaves open comes from `Env`, as in the model: the number of passes of the
  `do`-`while` for which the run is followed (`fuel`), the value behind the moved pointer (`peek`)
  and the unassigned fields of a new `gp_t` (`gpJunk`).  The field `tick` of `Work` counts the
  events that ask for such a value; it is not part of the program.
* The fields of the Gauss point at hand are the variables `g_..`.  A pointer field has two parts:
  a number, 0 for NULL and 1 otherwise, and the block it points to.
* A block that is handed back to the list must be assigned completely; otherwise the fault is
  `uninit`.
* The block of a member (`alloc`) has some content from the start, the one `Junk` gives.
-/

namespace Verif.Text

/-- Statements of /repo/src/homogenize.cpp:26-217, /repo/src/solve.cpp:46-66. -/
inductive OStmt
  | base (s : Stmt)
  | seq (s t : OStmt)
  | ite (b : BExp) (s t : OStmt)
  | for (x : V) (lo hi : IExp) (s : OStmt)
  | call (f : OFn) (args : List Arg)
  | setInvMax (e : DExp)              -- `inv_max = e`
  | abort                             -- a failing `assert`
  /-- `do { s; if (b) break; t } while (w);`, /repo/src/solve.cpp:50-65 -/
  | doW (s : OStmt) (b : BExp) (t : OStmt) (w : BExp)
  | peek (x : V)                      -- `x = *p` where `p` has left its object, /repo/src/solve.cpp:65
  | solve                             -- `solve()`, /repo/src/solve.cpp:59
  | alloc (g : GA) (n : IExp)         -- `g = malloc(n * sizeof(double))`, /repo/src/micro.cpp:58-65

@[inherit_doc] infixr:59 " ;;; " => OStmt.seq

/-- Statements over the list of Gauss points: /repo/src/homogenize.cpp:90-217. -/
inductive Top
  | stmt (s : OStmt)
  | each (s : OStmt)                  -- `for (auto & gp : gauss_list) s`
  | find (b : BExp) (s : OStmt)       -- `for (auto & gp : gauss_list) if (b) { s; break; }`
  /-- the same, and `t` on a new element, appended, if no element passes the test:
  /repo/src/homogenize.cpp:92-109 -/
  | findOrPush (b : BExp) (s t : OStmt)

variable {α : Type} [Scalar α]

/-- `do { f; if (b) break; g } while (w);`, followed for at most `n` passes:
/repo/src/solve.cpp:50-65. -/
def doLoop (f g : St α → M (St α)) (b w : St α → M Bool) : Nat → St α → M (St α)
  | 0, _ => .error .fuel
  | n + 1, s => do
    let s ← f s
    let t ← b s
    if t = true then pure s
    else do
      let s ← g s
      let t ← w s
      if t = true then doLoop f g b w n s else pure s

/-- One event: a value was asked from `Env`. -/
def St.event (s : St α) : St α := { s with w.tick := s.w.tick + 1 }

/-- Execution of the statements of /repo/src/homogenize.cpp:26-217, /repo/src/solve.cpp:46-66;
`call f s` runs the function `f` from the locals `s.l`. -/
def OStmt.exec (env : Env α) (c : Cfg α) (call : OFn → St α → M (St α)) :
    OStmt → St α → M (St α)
  | .base p, s => p.exec c (run c 6) s
  | .seq a b, s => do
    let s ← a.exec env c call s
    b.exec env c call s
  | .ite b p q, s => do
    let t ← b.eval c s
    if t = true then p.exec env c call s else q.exec env c call s
  | .for x lo hi b, s => do
    let a ← lo.eval c s.l
    let z ← hi.eval c s.l
    loop (z - a).toNat (fun k s => b.exec env c call { s with l.i := upd s.l.i x (some (a + k)) }) s
  | .call f args, s => do
    let l ← passAll c s Loc.none (oparams f) args
    let r ← call f ⟨s.w, l⟩
    pure ⟨r.w, passBack r.l s.l (oparams f) args⟩
  | .setInvMax e, s => do
    let y ← e.eval c s
    pure { s with w.invMax := y }
  | .abort, _ => .error .abort
  | .doW p b q w, s =>
    doLoop (fun s => p.exec env c call s) (fun s => q.exec env c call s) (fun s => b.eval c s)
      (fun s => w.eval c s) env.fuel s
  | .peek x, s =>
    match env.peek s.w.tick with
    | none => .error .oob
    | some v => .ok { s with l.i := upd s.l.i x (some v) }.event
  | .solve, s => do
    let s ← (Stmt.call .solve []).exec c (run c 6) s
    pure s.event
  | .alloc g e, s => do
    let n ← e.eval c s.l
    pure { s with w := g.set s.w ⟨n.toNat, (g.get s.w).val⟩ }

/-- The content of an `Option` as the number of a pointer field. -/
def ptr {β : Type} : Option β → Int
  | none => 0
  | some _ => 1

/-- The fields of a `gp_t` as variables: /repo/include/micro.hpp:42-52. -/
def gpIn (gp : Gp α) (l : Loc α) : Loc α :=
  { l with
    i := upd (upd (upd l.i .g_id (some gp.id)) .g_int_vars_n (some (ptr gp.intVarsN)))
      .g_int_vars_k (some (ptr gp.intVarsK))
    d := upd l.d .g_inv_max (some gp.invMax)
    iv := upd l.iv .g_nr_its (some ⟨7, fun q => some (gp.nrIts q)⟩)
    v := upd (upd (upd (upd (upd (upd l.v
      .g_int_vars_n (gp.intVarsN.map Vec.ofBuf))
      .g_int_vars_k (gp.intVarsK.map Vec.ofBuf))
      .g_macro_strain (some ⟨6, fun q => some (gp.macroStrain q)⟩))
      .g_macro_stress (some ⟨6, fun q => some (gp.macroStress q)⟩))
      .g_macro_ctan (some ⟨36, fun q => some (gp.macroCtan q)⟩))
      .g_nr_err (some ⟨7, fun q => some (gp.nrErr q)⟩) }

/-- A new `gp_t` without assigned fields: /repo/src/homogenize.cpp:101. -/
def gpNew (l : Loc α) : Loc α :=
  { l with
    i := upd (upd (upd l.i .g_id none) .g_int_vars_n none) .g_int_vars_k none
    d := upd l.d .g_inv_max none
    iv := upd l.iv .g_nr_its (some ⟨7, fun _ => none⟩)
    v := upd (upd (upd (upd (upd (upd l.v
      .g_int_vars_n none)
      .g_int_vars_k none)
      .g_macro_strain (some ⟨6, fun _ => none⟩))
      .g_macro_stress (some ⟨6, fun _ => none⟩))
      .g_macro_ctan (some ⟨36, fun _ => none⟩))
      .g_nr_err (some ⟨7, fun _ => none⟩) }

/-- The entries of an array field; what is not assigned keeps its content.
/repo/include/micro.hpp:42-52. -/
def arrOut {β : Type} (f : Nat → β) : Option (Vec β) → Nat → β
  | some a => fun q => (a.val q).getD (f q)
  | none => f

/-- All of the entries below `n` are assigned. -/
def allSet {β : Type} (a : Vec β) : Nat → Bool
  | 0 => true
  | n + 1 => allSet a n && (a.val n).isSome

/-- A pointer field and its block: /repo/include/micro.hpp:46-47. -/
def ptrOut (old : Option (Buf α)) : Option Int → Option (Vec α) → M (Option (Buf α))
  | none, _ => .ok old
  | some 0, _ => .ok none
  | some _, some a =>
    if allSet a a.n = true then .ok (some ⟨a.n, fun q => (a.val q).getD 0⟩) else .error .uninit
  | some _, none => .error .uninit

/-- The `gp_t` given by the variables: /repo/include/micro.hpp:42-52. -/
def gpOut (gp : Gp α) (l : Loc α) : M (Gp α) := do
  let n ← ptrOut gp.intVarsN (l.i .g_int_vars_n) (l.v .g_int_vars_n)
  let k ← ptrOut gp.intVarsK (l.i .g_int_vars_k) (l.v .g_int_vars_k)
  pure
    { id := (l.i .g_id).getD gp.id
      nrIts := arrOut gp.nrIts (l.iv .g_nr_its)
      intVarsN := n
      intVarsK := k
      macroStrain := arrOut gp.macroStrain (l.v .g_macro_strain)
      macroStress := arrOut gp.macroStress (l.v .g_macro_stress)
      macroCtan := arrOut gp.macroCtan (l.v .g_macro_ctan)
      nrErr := arrOut gp.nrErr (l.v .g_nr_err)
      invMax := (l.d .g_inv_max).getD gp.invMax }

/-- A list of Gauss points and the state after a loop over it: /repo/src/homogenize.cpp:134-208. -/
structure ListSt (α : Type) where
  found : Bool
  gauss : List (Gp α)
  st : St α

/-- `for (auto & gp : gauss_list) f`: /repo/src/homogenize.cpp:134-208, 213-216. -/
def eachList (f : St α → M (St α)) : List (Gp α) → St α → M (ListSt α)
  | [], s => pure ⟨false, [], s⟩
  | gp :: l, s => do
    let t ← f ⟨s.w, gpIn gp s.l⟩
    let g ← gpOut gp t.l
    let r ← eachList f l t
    pure { r with gauss := g :: r.gauss }

/-- `for (auto & gp : gauss_list) if (b) { f; break; }`: /repo/src/homogenize.cpp:93-99,
114-119. -/
def findList (b : St α → M Bool) (f : St α → M (St α)) : List (Gp α) → St α → M (ListSt α)
  | [], s => pure ⟨false, [], s⟩
  | gp :: l, s => do
    let t ← b ⟨s.w, gpIn gp s.l⟩
    if t = true then do
      let t ← f ⟨s.w, gpIn gp s.l⟩
      let g ← gpOut gp t.l
      pure ⟨true, g :: l, t⟩
    else do
      let r ← findList b f l s
      pure { r with gauss := gp :: r.gauss }

/-- The object and the local variables of a function of /repo/src/homogenize.cpp:90-217. -/
structure ObjSt (α : Type) where
  obj : Obj α
  l : Loc α

/-- The object after a loop over the list: /repo/src/homogenize.cpp:134-208. -/
def ObjSt.put (o : ObjSt α) (r : ListSt α) : ObjSt α :=
  ⟨{ o.obj with gauss := r.gauss, work := r.st.w }, r.st.l⟩

/-- Execution of the statements over the list of Gauss points: /repo/src/homogenize.cpp:90-217.
`exec` runs a statement of the first layer. -/
def Top.exec (env : Env α) (exec : Cfg α → OStmt → St α → M (St α)) :
    Top → ObjSt α → M (ObjSt α)
  | .stmt p, o => do
    let t ← exec o.obj.cfg p ⟨o.obj.work, o.l⟩
    pure (o.put ⟨false, o.obj.gauss, t⟩)
  | .each p, o => do
    let r ← eachList (exec o.obj.cfg p) o.obj.gauss ⟨o.obj.work, o.l⟩
    pure (o.put r)
  | .find b p, o => do
    let r ← findList (fun s => b.eval o.obj.cfg s) (exec o.obj.cfg p) o.obj.gauss
      ⟨o.obj.work, o.l⟩
    pure (o.put r)
  | .findOrPush b p q, o => do
    let r ← findList (fun s => b.eval o.obj.cfg s) (exec o.obj.cfg p) o.obj.gauss
      ⟨o.obj.work, o.l⟩
    if r.found = true then pure (o.put { r with st := r.st.event })
    else do
      let t ← exec o.obj.cfg q ⟨r.st.w, gpNew r.st.l⟩
      let g ← gpOut (env.gpJunk t.w.tick) t.l
      pure (o.put ⟨true, r.gauss ++ [g], t.event⟩)

end Verif.Text
