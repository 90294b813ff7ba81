import Verif.Model.Ell
import Verif.Spec.Grid

/-!
# Specification of the sparsity pattern of structured matrices

Row `(n, d)` (node `n`, field `d`) is row number `n * nF + d`; the entry of slot `s`, column field
`d2` is entry `s * nF + d2` of that row.
-/

namespace Verif.Spec

/-- `m` is a 3D structured matrix: sizes, and every slot names the right neighbour. -/
structure Pattern3 {α : Type} (m : Ell α) (nF nx ny nz : Nat) : Prop where
  nrow : m.nrow = nx * ny * nz * nF
  ncol : m.ncol = nx * ny * nz * nF
  nnz : m.nnz = 27 * nF
  cols_size : m.cols.size = m.nnz * m.nrow
  vals_size : m.vals.size = m.nnz * m.nrow
  cols : ∀ i j k d s d2, i < nx → j < ny → k < nz → d < nF → s < 27 → d2 < nF →
    m.cols.val ((node3 nx ny i j k * nF + d) * m.nnz + (s * nF + d2))
      = slotCol nF (nbr3 nx ny nz i j k s) d2

/-- The intended 2D pattern. -/
structure Pattern2 {α : Type} (m : Ell α) (nF nx ny : Nat) : Prop where
  nrow : m.nrow = nx * ny * nF
  ncol : m.ncol = nx * ny * nF
  nnz : m.nnz = 9 * nF
  cols_size : m.cols.size = m.nnz * m.nrow
  vals_size : m.vals.size = m.nnz * m.nrow
  cols : ∀ i j d s d2, i < nx → j < ny → d < nF → s < 9 → d2 < nF →
    m.cols.val ((node2 nx i j * nF + d) * m.nnz + (s * nF + d2))
      = slotCol nF (nbr2 nx ny i j s) d2

/-- The 2D pattern as produced: slot 7 of the right boundary (corners excepted) is only known to
hold a column of the node itself. -/
structure Pattern2Weak {α : Type} (m : Ell α) (nF nx ny : Nat) : Prop where
  nrow : m.nrow = nx * ny * nF
  ncol : m.ncol = nx * ny * nF
  nnz : m.nnz = 9 * nF
  cols_size : m.cols.size = m.nnz * m.nrow
  vals_size : m.vals.size = m.nnz * m.nrow
  cols : ∀ i j d s d2, i < nx → j < ny → d < nF → s < 9 → d2 < nF →
    ¬ (i + 1 = nx ∧ 0 < j ∧ j + 1 < ny ∧ s = 7) →
    m.cols.val ((node2 nx i j * nF + d) * m.nnz + (s * nF + d2))
      = slotCol nF (nbr2 nx ny i j s) d2
  cols_right : ∀ j d d2, 0 < j → j + 1 < ny → d < nF → d2 < nF →
    m.cols.val ((node2 nx (nx - 1) j * nF + d) * m.nnz + (7 * nF + d2))
      = ((node2 nx (nx - 1) j * nF + d2 : Nat) : Int)

end Verif.Spec
