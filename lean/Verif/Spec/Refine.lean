import Verif.Spec.Symmetry

/-!
# Refinement of a grid: specification

Written without the model.
-/

namespace Verif.Spec.Fe

/-- `F'` divides every element of `F` into `m 0 × m 1 × m 2` equal elements. -/
structure Refines (F F' : Fe) (m : Nat → Nat) : Prop where
  dim : F'.dim = F.dim
  cnt : ∀ k, k < 3 → F'.cnt k = m k * F.cnt k
  h : ∀ k, k < F.dim → F.h k = m k * F'.h k

/-- The element of the coarse grid that contains an element of the fine grid. -/
def parent (m : Nat → Nat) (e : Nat × Nat × Nat) : Nat × Nat × Nat := (e.1 / m 0, e.2.1 / m 1, e.2.2 / m 2)

end Verif.Spec.Fe
