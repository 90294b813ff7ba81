import Verif.Model.Scalar

/-!
# Memory, faults and loops
-/

namespace Verif

/-- Outcomes of a C++ call other than a normal return. -/
inductive Fault
  | oob        -- read or write outside a heap block or array (undefined behaviour)
  | null       -- NULL dereference (undefined behaviour)
  | uninit     -- an unassigned automatic variable decides what happens (undefined behaviour)
  | abort      -- a failed `assert`
  | fuel       -- the model's step budget for a loop without a bound is exhausted
  deriving DecidableEq, Repr

/-- Computations that may fault. -/
abbrev M := Except Fault

/-- A heap block of `size` elements.  Contents beyond `size` are never visible: `read` and
`write` are checked. -/
structure Buf (α : Type) where
  size : Nat
  val : Nat → α

namespace Buf
variable {α : Type}

/-- `p[i]` as an rvalue. -/
def read (b : Buf α) (i : Nat) : M α :=
  if i < b.size then .ok (b.val i) else .error .oob

/-- `p[i] = v`. -/
def write (b : Buf α) (i : Nat) (v : α) : M (Buf α) :=
  if i < b.size then .ok ⟨b.size, fun k => if k = i then v else b.val k⟩ else .error .oob

/-- `p[c]` where the index is a C++ `int` that may be negative. -/
def readI (b : Buf α) (c : Int) : M α :=
  if 0 ≤ c then b.read c.toNat else .error .oob

end Buf

/-- `for (int i = 0; i < n; i++) s = f(i, s);` -/
def loop {σ : Type} : Nat → (Nat → σ → M σ) → σ → M σ
  | 0, _, s => .ok s
  | n + 1, f, s => (loop n f s).bind (f n)

/-- `for (int i = a; i < b; i++) s = f(i, s);` with `0 ≤ a`. -/
def loopFrom {σ : Type} (a b : Nat) (f : Nat → σ → M σ) (s : σ) : M σ :=
  loop (b - a) (fun t => f (a + t)) s

/-- `for (auto l : list) s = f(l, s);` -/
def loopList {σ ι : Type} : List ι → (ι → σ → M σ) → σ → M σ
  | [], _, s => .ok s
  | l :: ls, f, s => (f l s).bind (loopList ls f)

/-- `if (p) { s = f(s); }` -/
def ifRun {σ : Type} (p : Prop) [Decidable p] (f : σ → M σ) (s : σ) : M σ :=
  if p then f s else .ok s

/-- A pure counting loop on a local accumulator: `for (i < n) a = f(i, a);` -/
def accum {σ : Type} : Nat → (Nat → σ → σ) → σ → σ
  | 0, _, s => s
  | n + 1, f, s => f n (accum n f s)

end Verif
