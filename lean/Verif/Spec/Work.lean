import Verif.Spec.J2

/-!
# Work along a path: specification

Written without the model.
-/

namespace Verif.Spec

/-- Work supplied, per unit volume, when the strain runs from `e` through the strains of the list; each
entry is a strain with the stress found at it, and an increment is weighted with the stress at its end. -/
def workAlong : (Nat → ℝ) → List ((Nat → ℝ) × (Nat → ℝ)) → ℝ
  | _, [] => 0
  | e, (e', s) :: l => power s (fun i => e' i - e i) + workAlong e' l

end Verif.Spec
