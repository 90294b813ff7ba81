import Verif.Model.Heap
import Verif.Model.HeapTable

/-!
# What the pointer skeletons of `Verif.Model.HeapTable` do

`Go d s σ o`: a path through `s`, taken with `dim` equal to `d`, leads from the state `σ` to the outcome `o`.
Conditions other than the comparisons of a tracked pointer with NULL and of `dim` with 2 and 3 may go either
way, a loop may be passed any number of times, and a loop over `gauss_list` visits its entries in order.

`bad` stands for undefined behaviour and for blocks that nothing points to any more.
-/

set_option linter.constructorNameAsVariable false

namespace Verif.Blocks

/-- The value of a pointer: indeterminate (never set, or its block was released), NULL, or a block. -/
inductive PV
  | unset | null | at (n : Nat)
  deriving DecidableEq

/-- The blocks a pointer value holds. -/
def PV.blocks : PV → List Nat
  | .at n => [n]
  | _ => []

/-- The tracked pointers, the pointers of the entries of `gauss_list` (/repo/include/micro.hpp:42-52, 85) and the
heap. -/
structure St where
  ptr : Ptr → PV
  gs : List (PV × PV)
  heap : Heap

/-- How a path ends: at the end of the statement, at `return`, at `break`, at a failed `assert`, or badly. -/
inductive Out
  | go (σ : St) | ret (σ : St) | brk (σ : St) | stop | bad

/-- Does the path leave the loop or the function? -/
def Out.leaves : Out → Bool
  | .ret _ | .stop | .bad => true
  | _ => false

/-- Another value for a pointer. -/
def St.set (σ : St) (p : Ptr) (v : PV) : St := { σ with ptr := fun q => if q = p then v else σ.ptr q }

/-- `p = malloc(..)`: /repo/src/micro.cpp:58-65, /repo/src/ell.cpp:68-69, 132-136, 223-227, 716-717, 875-876,
/repo/src/homogenize.cpp:175-176.  The block `p` pointed to before would be lost. -/
def allocTo (p : Ptr) (σ : St) : Out :=
  match σ.ptr p with
  | .at _ => .bad
  | _ => .go { σ.set p (.at σ.heap.next) with heap := ⟨σ.heap.next + 1, σ.heap.next :: σ.heap.live⟩ }

/-- `free(p)`: /repo/src/micro.cpp:150-164, /repo/src/ell.cpp:34-37, 198-202, 293-297. -/
def freeOf (p : Ptr) (σ : St) : Out :=
  match σ.ptr p with
  | .unset => .bad
  | .null => .go σ
  | .at n => if n ∈ σ.heap.live
      then .go { σ.set p .unset with heap := { σ.heap with live := σ.heap.live.erase n } }
      else .bad

/-- `p = NULL`: /repo/src/homogenize.cpp:103-104. -/
def nullTo (p : Ptr) (σ : St) : Out :=
  match σ.ptr p with
  | .at _ => .bad
  | _ => .go (σ.set p .null)

/-- Reading or writing through `p`, or passing it on: /repo/include/micro.hpp:69-95. -/
def useOf (p : Ptr) (σ : St) : Out :=
  match σ.ptr p with
  | .at n => if n ∈ σ.heap.live then .go σ else .bad
  | _ => .bad

/-- `gauss_list.push_back(gp_n)`: /repo/src/homogenize.cpp:108.  Only an entry without blocks is understood. -/
def pushNew (σ : St) : Out :=
  if σ.ptr .new_n = .null ∧ σ.ptr .new_k = .null then .go { σ with gs := σ.gs ++ [(.null, .null)] } else .bad

/-- Passes of a loop whose body is `G`. -/
inductive Iter (G : St → Out → Prop) : St → Out → Prop
  | done {σ} : Iter G σ (.go σ)
  | more {σ σ' o} : G σ (.go σ') → Iter G σ' o → Iter G σ o
  | brk {σ σ'} : G σ (.brk σ') → Iter G σ (.go σ')
  | leave {σ o} : o.leaves → G σ o → Iter G σ o

/-- The entry `g` is the current one. -/
def St.enter (σ : St) (g : PV × PV) : St := (σ.set .g_n g.1).set .g_k g.2

/-- The current entry is done. -/
def St.next (σ : St) : St :=
  { (σ.set .g_n .unset).set .g_k .unset with gs := σ.gs ++ [(σ.ptr .g_n, σ.ptr .g_k)] }

/-- The entries `l` follow. -/
def St.follow (σ : St) (l : List (PV × PV)) : St := { σ with gs := σ.gs ++ l }

/-- A loop over the entries `l` of the list; those before are in the state. -/
inductive Walk (G : St → Out → Prop) : List (PV × PV) → St → Out → Prop
  | nil {σ} : Walk G [] σ (.go σ)
  | more {g l σ σ' o} : G (σ.enter g) (.go σ') → Walk G l σ'.next o → Walk G (g :: l) σ o
  | brk {g l σ σ'} : G (σ.enter g) (.brk σ') → Walk G (g :: l) σ (.go (σ'.next.follow l))
  | ret {g l σ σ'} : G (σ.enter g) (.ret σ') → Walk G (g :: l) σ (.ret (σ'.next.follow l))
  | stop {g l σ} : G (σ.enter g) .stop → Walk G (g :: l) σ .stop
  | bad {g l σ} : G (σ.enter g) .bad → Walk G (g :: l) σ .bad

/-- A call begins: the locals of the callee are not set. -/
def St.call (σ : St) : St := { σ with ptr := fun p => if p.isMember then σ.ptr p else .unset }

/-- A call ends: the locals of the caller are back.  Blocks that only locals point to would be lost. -/
def St.back (σ σ' : St) : Out :=
  if ∃ p ∈ allPtrs, p.isMember = false ∧ (σ'.ptr p).blocks ≠ [] then .bad
  else .go { σ' with ptr := fun p => if p.isMember then σ'.ptr p else σ.ptr p }

/-- The paths through a statement: /repo/src/micro.cpp:55-165, /repo/src/ell.cpp:32-300,
/repo/src/homogenize.cpp:90-217. -/
def Go (d : Dim) : Skel → St → Out → Prop
  | .skip, σ, o => o = .go σ
  | .ret, σ, o => o = .ret σ
  | .brk, σ, o => o = .brk σ
  | .known, σ, o => o = if d = .other then .stop else .go σ
  | .push, σ, o => o = pushNew σ
  | .alloc p, σ, o => o = allocTo p σ
  | .free p, σ, o => o = freeOf p σ
  | .null p, σ, o => o = nullTo p σ
  | .use p, σ, o => o = useOf p σ
  | .seq s t, σ, o => (∃ σ', Go d s σ (.go σ') ∧ Go d t σ' o) ∨ Go d s σ o ∧ ∀ σ', o ≠ .go σ'
  | .alt s t, σ, o => Go d s σ o ∨ Go d t σ o
  | .loop s, σ, o => Iter (Go d s) σ o
  | .ifNull p s t, σ, o =>
    match σ.ptr p with
    | .unset => o = .bad
    | .null => Go d s σ o
    | .at _ => Go d t σ o
  | .ifDim e s t, σ, o => if d = e then Go d s σ o else Go d t σ o
  | .each s, σ, o =>
    if σ.ptr .g_n = .unset ∧ σ.ptr .g_k = .unset then Walk (Go d s) σ.gs { σ with gs := [] } o else o = .bad
  | .frame s, σ, o =>
    (∃ σ', (Go d s σ.call (.go σ') ∨ Go d s σ.call (.ret σ')) ∧ o = σ.back σ') ∨
      (∃ σ', Go d s σ.call (.brk σ') ∧ o = .bad) ∨ (o = .stop ∨ o = .bad) ∧ Go d s σ.call o

/-- Before the constructor: no pointer is set and there are no Gauss points (/repo/src/micro.cpp:28-54). -/
def St.fresh (h : Heap) : St := ⟨fun _ => .unset, [], h⟩

/-- Calls one after the other. -/
def calls : List Skel → Skel
  | [] => .skip
  | k :: ks => .frame k +> calls ks

/-- The constructor, then the calls `ks`. -/
def begun (ks : List Skel) : Skel := .frame k_ctor +> calls ks

/-- The constructor, the calls `ks` and the destructor. -/
def whole (ks : List Skel) : Skel := .frame k_ctor +> calls ks +> .frame k_dtor

end Verif.Blocks
