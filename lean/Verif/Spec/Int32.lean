import Verif.Model.Int32

/-!
# Ranges of the integer variables of /repo/src/ell.cpp
-/

namespace Verif

/-- The values the variables of /repo/src/ell.cpp take: a grid with `W` positions per row
(9 in the plane, 27 in space), and every counter within the bounds of its loop (`by`: or one more). -/
structure Dom (W : Int) (σ : V → Int) : Prop where
  dim : (W = 9 ∧ σ .nz = 1 ∧ σ .npe = 4) ∨
    (W = 27 ∧ 2 ≤ σ .nz ∧ σ .npe = 8 ∧ 0 ≤ σ .ez ∧ σ .ez < σ .nz - 1)
  nx : 2 ≤ σ .nx
  ny : 2 ≤ σ .ny
  nF : 1 ≤ σ .nF
  nn : σ .nn = σ .nx * σ .ny * σ .nz
  nnz : σ .nnz = W * σ .nF
  nrow : σ .nrow = σ .nn * σ .nF
  node : 0 ≤ σ .node ∧ σ .node < σ .nn
  row : 0 ≤ σ .row ∧ σ .row < σ .nrow
  slot : 0 ≤ σ .slot ∧ σ .slot < σ .nnz
  l : 0 ≤ σ .l ∧ σ .l < W
  d : 0 ≤ σ .d ∧ σ .d < σ .nF
  d1 : 0 ≤ σ .d1 ∧ σ .d1 < σ .nF
  d2 : 0 ≤ σ .d2 ∧ σ .d2 < σ .nF
  i : 0 ≤ σ .i ∧ σ .i < σ .nx
  j : 0 ≤ σ .j ∧ σ .j < σ .ny
  k : 0 ≤ σ .k ∧ σ .k < σ .nz
  ex : 0 ≤ σ .ex ∧ σ .ex < σ .nx - 1
  ey : 0 ≤ σ .ey ∧ σ .ey < σ .ny - 1
  bx : 0 ≤ σ .bx ∧ σ .bx < σ .nx
  by' : 0 ≤ σ .by ∧ σ .by ≤ σ .ny - 2
  fnnz : σ .fnnz = σ .nF * σ .nnz
  pf : σ .pf = σ .npe * σ .nF
  pf2 : σ .pf2 = σ .npe * σ .nF * σ .nF
  ak : 0 ≤ σ .ak ∧ σ .ak < σ .npe
  an : 0 ≤ σ .an ∧ σ .an < σ .npe

end Verif
