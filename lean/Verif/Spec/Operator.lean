import Verif.Model.Ell
import Mathlib.Algebra.BigOperators.Group.Finset.Basic

/-!
# Specification of the linear operator of a stored matrix
-/

namespace Verif.Spec
open Finset

/-- Row `r` of the product of the stored matrix with `x`. -/
def op (m : Ell ℝ) (x : Nat → ℝ) (r : Nat) : ℝ :=
  ∑ t ∈ range m.nnz, m.vals.val (r * m.nnz + t) * x (m.cols.val (r * m.nnz + t)).toNat

/-- Row `(N, d)` of the scatter of an element matrix `Ae` (`npe` nodes with `nF` fields each,
row-major) onto the nodes `en 0, en 1, …`, applied to `x`. -/
def scatter (nF npe : Nat) (en : Nat → Nat) (Ae : Nat → ℝ) (x : Nat → ℝ) (N d : Nat) : ℝ :=
  ∑ a ∈ range npe, if en a = N then
    ∑ b ∈ range npe, ∑ j ∈ range nF,
      Ae ((a * nF + d) * (npe * nF) + (b * nF + j)) * x (en b * nF + j) else 0

/-- `x` with the components of the dofs in `B` set to zero. -/
def mask (B : Nat → Prop) [DecidablePred B] (x : Nat → ℝ) (r : Nat) : ℝ := if B r then 0 else x r

/-- The unit vector `i`. -/
def unit (i j : Nat) : ℝ := if j = i then 1 else 0

/-- The entry `(d, d)` of slot `slot` in the rows of the first `nn` nodes holds the diagonal of
the operator. -/
def DiagSlot (m : Ell ℝ) (nF nn slot : Nat) : Prop :=
  ∀ n d, n < nn → d < nF →
    m.vals.val ((n * nF + d) * m.nnz + (slot * nF + d)) = op m (unit (n * nF + d)) (n * nF + d)

end Verif.Spec
