import Verif.Spec.Grid
import Verif.Spec.J2
import Mathlib.Algebra.BigOperators.Group.Finset.Basic
import Mathlib.Algebra.BigOperators.Intervals

/-!
# Finite elements on a structured grid: specification

Multilinear elements with one Gauss point per corner.  Written without the model.  Displacements
are vectors indexed by dofs `node * dim + direction`.
-/

namespace Verif.Spec
open Finset

/-- Coordinate of the Gauss points on the reference interval `[-1,1]`, with the digits of the
source (an approximation of `1/√3`). -/
noncomputable def gaussPoint : ℝ := 0.577350269189626

/-- Position (0 or 1) of corner `a` in direction `k`. -/
def corner (k a : Nat) : Nat := if k = 0 then cornerX a else if k = 1 then cornerY a else cornerZ a

/-- Reference coordinate (-1 or 1) of corner `a` in direction `k`.  Gauss point `gp` lies towards
corner `gp`. -/
def sgn (k a : Nat) : ℝ := 2 * (corner k a : ℝ) - 1

/-- Derivative in direction `j`, at Gauss point `gp`, of the shape function of corner `a`,
`∏ₖ (1 + sₖ ξₖ)/2`, on an element with edges `h 0, h 1, …`. -/
noncomputable def dShape (dim : Nat) (h : Nat → ℝ) (gp a j : Nat) : ℝ :=
  sgn j a / h j * ∏ k ∈ (range dim).erase j, (1 + sgn k a * (gaussPoint * sgn k gp)) / 2

/-- Strain components of a displacement gradient `G i j = ∂uᵢ/∂xⱼ`: normal strains, then
engineering shears 12, 13, 23 (2D: 12). -/
def voigt (dim : Nat) (G : Nat → Nat → ℝ) (v : Nat) : ℝ :=
  if v < dim then G v v
  else if v = dim then G 0 1 + G 1 0
  else if v = 4 then G 0 2 + G 2 0
  else G 1 2 + G 2 1

/-- A grid of elements `(ex, ey, ez)`; a 2D grid has one layer. -/
structure Fe where
  dim : Nat
  /-- corners, and Gauss points, per element -/
  npe : Nat
  nvoi : Nat
  nx : Nat
  ny : Nat
  /-- layers of elements -/
  layers : Nat
  /-- edges of an element -/
  h : Nat → ℝ

/-- 2D grid of `nx × ny` nodes. -/
def fe2 (nx ny : Nat) (dx dy : ℝ) : Fe := ⟨2, 4, 3, nx, ny, 1, fun k => if k = 0 then dx else dy⟩

/-- 3D grid of `nx × ny × nz` nodes. -/
def fe3 (nx ny nz : Nat) (dx dy dz : ℝ) : Fe :=
  ⟨3, 8, 6, nx, ny, nz - 1, fun k => if k = 0 then dx else if k = 1 then dy else dz⟩

namespace Fe
variable (F : Fe)

/-- The elements. -/
def elems : Finset (Nat × Nat × Nat) := range (F.nx - 1) ×ˢ range (F.ny - 1) ×ˢ range F.layers

/-- Node at corner `a` of an element. -/
def node (e : Nat × Nat × Nat) (a : Nat) : Nat :=
  enode3 F.nx F.ny e.1 e.2.1 e.2.2 a

/-- Dof `i` of an element. -/
def dof (e : Nat × Nat × Nat) (i : Nat) : Nat := F.node e (i / F.dim) * F.dim + i % F.dim

/-- Displacement gradient at a Gauss point. -/
noncomputable def grad (u : Nat → ℝ) (e : Nat × Nat × Nat) (gp i j : Nat) : ℝ :=
  ∑ a ∈ range F.npe, dShape F.dim F.h gp a j * u (F.node e a * F.dim + i)

/-- Strain at a Gauss point. -/
noncomputable def strain (u : Nat → ℝ) (e : Nat × Nat × Nat) (gp v : Nat) : ℝ :=
  voigt F.dim (F.grad u e gp) v

/-- Volume (area) of an element. -/
noncomputable def cell : ℝ := ∏ k ∈ range F.dim, F.h k

/-- Quadrature of a Gauss-point field over the grid: equal weights. -/
noncomputable def integral (f : Nat × Nat × Nat → Nat → ℝ) : ℝ :=
  ∑ e ∈ F.elems, ∑ gp ∈ range F.npe, f e gp * (F.cell / F.npe)

/-- Product of a stress and a strain. -/
def pair (s e : Nat → ℝ) : ℝ := ∑ v ∈ range F.nvoi, s v * e v

/-- Nodal force on dof `r` of a stress field: the virtual work of the stress on the unit
displacement of that dof. -/
noncomputable def force (s : Nat × Nat × Nat → Nat → Nat → ℝ) (r : Nat) : ℝ :=
  F.integral fun e gp => F.pair (s e gp) (F.strain (fun q => if q = r then 1 else 0) e gp)

/-- Coordinate `k` of a node. -/
noncomputable def coord (n k : Nat) : ℝ :=
  (if k = 0 then n % F.nx else if k = 1 then n / F.nx % F.ny else n / F.nx / F.ny : Nat) * F.h k

/-- The field with constant gradient `G` and displacement `t` at the origin. -/
noncomputable def affine (G : Nat → Nat → ℝ) (t : Nat → ℝ) (r : Nat) : ℝ :=
  t (r % F.dim) + ∑ j ∈ range F.dim, G (r % F.dim) j * F.coord (r / F.dim) j

/-- The symmetric gradient with given strain components. -/
noncomputable def symGrad (eps : Nat → ℝ) (i j : Nat) : ℝ :=
  if i = j then eps i else eps (if i + j = 1 then F.dim else i + j + 2) / 2

/-- The number of nodes. -/
def nn : Nat := F.nx * F.ny * (if F.dim = 2 then 1 else F.layers + 1)

/-- Dof `r` belongs to a node on the boundary of the cell. -/
def Bd (r : Nat) : Prop :=
  if F.dim = 2 then BdryDof2 2 F.nx F.ny r else BdryDof3 F.dim F.nx F.ny (F.layers + 1) r

instance : DecidablePred F.Bd := fun r => by unfold Bd; infer_instance

/-- Total volume. -/
noncomputable def vol : ℝ := ((F.nx - 1) * (F.ny - 1) * F.layers : Nat) * F.cell

/-- `u` is the affine field of strain `eps` on the boundary. -/
def OnBd (eps u : Nat → ℝ) : Prop :=
  ∀ r, r < F.nn * F.dim → F.Bd r → u r = F.affine (F.symGrad eps) (fun _ => 0) r

/-- The stress field has no force on the interior dofs. -/
def Equil (s : Nat × Nat × Nat → Nat → Nat → ℝ) : Prop :=
  ∀ r, r < F.nn * F.dim → ¬ F.Bd r → F.force s r = 0

/-- Stress field of a displacement. -/
noncomputable def stress (L : Nat × Nat × Nat → (Nat → ℝ) → Nat → ℝ) (u : Nat → ℝ)
    (e : Nat × Nat × Nat) (gp v : Nat) : ℝ := L e (F.strain u e gp) v

/-- Average stress. -/
noncomputable def aveStress (s : Nat × Nat × Nat → Nat → Nat → ℝ) (v : Nat) : ℝ :=
  F.integral (fun e gp => s e gp v) / F.vol

/-- Strain at a Gauss point of an element whose corner displacements are `x`, `x (a * dim + i)` in
direction `i` at corner `a`. -/
noncomputable def elemStrain (x : Nat → ℝ) (gp v : Nat) : ℝ :=
  voigt F.dim (fun i j => ∑ a ∈ range F.npe, dShape F.dim F.h gp a j * x (a * F.dim + i)) v

end Fe

end Verif.Spec
