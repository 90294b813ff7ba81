import Verif.Model.Output

/-!
# Programs with several objects

The class `micropp_t` (/repo/include/micro.hpp:66-165) has no static members, and the sources have no global
variables besides the pointer of the Fortran interface (/repo/src/wrapper.cpp:27); but all objects write
files of the same names.  A program creates objects, calls their methods and deletes them, in any order.
-/

namespace Verif

variable {α : Type} [Scalar α]

/-- The objects in the order of their creation (`none`: deleted) and the files. -/
structure Prog (α : Type) where
  objs : List (Option (Obj α))
  files : Files α

/-- What a program does: `new micropp_t(..)` (/repo/src/micro.cpp:28-146), a public call on object `k`,
`delete` (/repo/src/micro.cpp:148-165, which writes no file). -/
inductive Event (α : Type)
  | new (a : Args α) (j : Junk α)
  | call (k : Nat) (c : Call α)
  | delete (k : Nat)

/-- The state after an event, and the answer if it was a call. -/
structure PStepped (α : Type) where
  prog : Prog α
  answers : List (Nat × Ret α)

/-- One event.  `env k` is what object `k` finds in memory it did not assign.  The use of an object that
does not exist, or not any more, is `Fault.null`. -/
def pStep (env : Nat → Env α) (p : Prog α) : Event α → M (PStepped α)
  | .new a j => do
    let r ← constructF (env p.objs.length) a j p.files
    pure { prog := { objs := p.objs ++ [some r.obj], files := r.files }, answers := [] }
  | .call k c =>
    match p.objs[k]? with
    | some (some o) => do
      let r ← step (env k) { obj := o, files := p.files } c
      pure { prog := { objs := p.objs.set k (some r.state.obj), files := r.state.files }, answers := [(k, r.ret)] }
    | _ => .error .null
  | .delete k =>
    match p.objs[k]? with
    | some (some _) => pure { prog := { p with objs := p.objs.set k none }, answers := [] }
    | _ => .error .null

/-- A program: the final state and all answers in order. -/
def pRun (env : Nat → Env α) : List (Event α) → Prog α → M (PStepped α)
  | [], p => pure { prog := p, answers := [] }
  | e :: l, p => do
    let r ← pStep env p e
    let q ← pRun env l r.prog
    pure { prog := q.prog, answers := r.answers ++ q.answers }

end Verif
