import Mathlib.Init

/-!
# 32-bit evaluation of C++ integer expressions
-/

namespace Verif

/-- The integer variables of /repo/src/ell.cpp under canonical names (`tools/gen_int32.py` lists the
renaming per function). -/
inductive V
  | nx | ny | nz | nF
  | nnz    -- `m->nnz`
  | nrow   -- `m->nrow`
  | nn     -- number of nodes
  | node   -- a node number
  | row    -- a row number
  | slot   -- a position in a row
  | l      -- a position in a row in units of `nFields`
  | d | d1 | d2   -- fields
  | i | j | k     -- node coordinates
  | ex | ey | ez  -- element coordinates
  | bx     -- counter `n < nx`
  | by     -- counter `n < ny - 2`
  | fnnz   -- `nFieldsnnz`
  | npe
  | pf     -- `npenFields`
  | pf2    -- `npenFields2`
  | ak     -- local node of the row in `Ae`
  | an     -- local node of the column in `Ae`
  deriving DecidableEq

/-- Expressions over variables `ν`, with the association of the C++ text. -/
inductive CExpr (ν : Type)
  | lit (n : Int)
  | var (v : ν)
  | add (a b : CExpr ν)
  | sub (a b : CExpr ν)
  | mul (a b : CExpr ν)
  deriving DecidableEq

/-- Expressions of /repo/src/ell.cpp. -/
abbrev CExp := CExpr V

/-- The integer is representable in 32 bits. -/
def InInt (z : Int) : Prop := -2 ^ 31 ≤ z ∧ z < 2 ^ 31

instance (z : Int) : Decidable (InInt z) := inferInstanceAs (Decidable (_ ∧ _))

/-- The result of an operation on `int`; `none` is overflow (undefined behaviour). -/
def chk (z : Int) : Option Int := if InInt z then some z else none

namespace CExpr

variable {ν : Type}

/-- Evaluation with `int` operations. -/
def run32 (σ : ν → Int) : CExpr ν → Option Int
  | lit n => chk n
  | var v => chk (σ v)
  | add a b => do
    let x ← run32 σ a
    let y ← run32 σ b
    chk (x + y)
  | sub a b => do
    let x ← run32 σ a
    let y ← run32 σ b
    chk (x - y)
  | mul a b => do
    let x ← run32 σ a
    let y ← run32 σ b
    chk (x * y)

/-- Evaluation in the integers. -/
def eval (σ : ν → Int) : CExpr ν → Int
  | lit n => n
  | var v => σ v
  | add a b => eval σ a + eval σ b
  | sub a b => eval σ a - eval σ b
  | mul a b => eval σ a * eval σ b

end CExpr

open CExpr in
/-- The number of entries of the buffers of `ell_init_3D`, /repo/src/ell.cpp:867-869, 875:
`nn = nx * ny * nz`, `nnz = 27 * nFields`, `nrow = nn * nFields`, `nnz * nrow`. -/
def sizeExp3 : CExp :=
  .mul (.mul (.lit 27) (.var .nF)) (.mul (.mul (.mul (.var .nx) (.var .ny)) (.var .nz)) (.var .nF))

open CExpr in
/-- The number of entries of the buffers of `ell_init_2D`, /repo/src/ell.cpp:709-711, 716. -/
def sizeExp2 : CExp :=
  .mul (.mul (.lit 9) (.var .nF)) (.mul (.mul (.var .nx) (.var .ny)) (.var .nF))

/-- An expression of /repo/src/ell.cpp with the lines where it occurs. -/
structure Occ where
  lines : List Nat
  e : CExp

end Verif
