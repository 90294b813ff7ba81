import Verif.Spec.J2

/-!
# Linear elasticity in two dimensions: specification
-/

namespace Verif.Spec

/-- The in-plane strains 11, 22, 12 as a spatial strain without out-of-plane components. -/
def inPlane (e : Nat → ℝ) (i : Nat) : ℝ :=
  if i = 0 then e 0 else if i = 1 then e 1 else if i = 3 then e 2 else 0

/-- Isotropic elasticity in plane strain: components 11, 22, 12 of the spatial stress. -/
def planeStrain (lambda mu : ℝ) (e : Nat → ℝ) (i : Nat) : ℝ :=
  hooke lambda mu (inPlane e) (if i = 2 then 3 else i)

/-- Isotropic elasticity in the given dimension (plane strain in two dimensions). -/
def isoLaw (dim : Nat) (lambda mu : ℝ) (e : Nat → ℝ) (i : Nat) : ℝ :=
  if dim = 2 then planeStrain lambda mu e i else hooke lambda mu e i

end Verif.Spec
