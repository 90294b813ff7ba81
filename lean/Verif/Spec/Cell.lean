import Verif.Model.Assembly
import Verif.Spec.Fem
import Verif.Spec.Elastic

/-!
# The cell problem of an object: how the model is read by the specification

An object of the model describes a grid of the specification, two materials and a law per element.
Nothing here uses the functions of the model except in `GpField`, which names the Gauss-point
strains and stresses the code computes.
-/

namespace Verif
open Spec

/-- The grid of an object. -/
noncomputable def Cfg.fe (c : Cfg ℝ) : Fe :=
  if c.dim = 2 then fe2 c.nx c.ny c.dx c.dy else fe3 c.nx c.ny c.nz c.dx c.dy c.dz

/-- The interior dofs. -/
noncomputable def Cfg.inner (c : Cfg ℝ) : Finset Nat :=
  {r ∈ Finset.range (c.nn * c.dim) | ¬ c.fe.Bd r}

/-- The slot of the diagonal in a row of the matrix. -/
def Cfg.diag (c : Cfg ℝ) : Nat := if c.dim = 2 then 4 else 13

/-- The extent of the cell that `calc_ave_stress` and `calc_ave_strain` leave out when they divide by
`lx * ly`: 1 in two dimensions. -/
noncomputable def Cfg.thick (c : Cfg ℝ) : ℝ := if c.dim = 2 then 1 else c.lz

/-- The elements divide the edges of the cell. -/
structure Cfg.Divided (c : Cfg ℝ) : Prop where
  dx : c.dx * ((c.nx - 1 : Nat) : ℝ) = c.lx
  dy : c.dy * ((c.ny - 1 : Nat) : ℝ) = c.ly
  dz : c.dim = 3 → c.dz * ((c.nz - 1 : Nat) : ℝ) = c.lz

/-- The cell has positive edges, and the elements divide it. -/
structure Cfg.Geom (c : Cfg ℝ) : Prop extends c.Divided where
  lx : 0 < c.lx
  ly : 0 < c.ly
  lz : c.dim = 3 → 0 < c.lz

/-- The Lamé constants are those of `E` and `nu`, which are not singular. -/
structure Material.Lame (m : Material ℝ) : Prop where
  ne1 : 1 + m.nu ≠ 0
  ne2 : 1 - 2 * m.nu ≠ 0
  mu : m.mu = m.E / (2 * (1 + m.nu))
  lambda : m.lambda = m.nu * m.E / ((1 + m.nu) * (1 - 2 * m.nu))

/-- Elastic constants in the admissible range, related as in the constructor. -/
structure Material.Admissible (m : Material ℝ) : Prop where
  E : 0 < m.E
  lo : -1 < m.nu
  hi : m.nu < 1 / 2
  mu : m.mu = m.E / (2 * (1 + m.nu))
  lambda : m.lambda = m.nu * m.E / ((1 + m.nu) * (1 - 2 * m.nu))

/-- The material of an element: the first for elements of type 0, the second for the others. -/
def Cfg.matAt (c : Cfg ℝ) (e : Nat × Nat × Nat) : Material ℝ :=
  c.mats (if c.elemType.val (gloElem3D c.nx c.ny e.1 e.2.1 e.2.2) = 0 then 0 else 1)

/-- No material is plastic (in 3D; the 2D functions ignore plasticity). -/
def Cfg.Linear (c : Cfg ℝ) : Prop := c.dim = 3 → ∀ i, i < 2 → (c.mats i).plasticity = false

/-- Both materials of the object are admissible and linear. -/
structure Cfg.Elastic (c : Cfg ℝ) : Prop where
  mats : ∀ i, i < 2 → (c.mats i).Admissible
  noPlast : c.Linear

/-- The elastic law of an element. -/
noncomputable def Cfg.law (c : Cfg ℝ) (e : Nat × Nat × Nat) (x : Nat → ℝ) (v : Nat) : ℝ :=
  if c.dim = 2 then planeStrain (c.matAt e).lambda (c.matAt e).mu x v
  else hooke (c.matAt e).lambda (c.matAt e).mu x v

/-- `eps` and `sig` are the strains and stresses that the code computes at the Gauss points. -/
structure GpField (c : Cfg ℝ) (w : Work ℝ) (eps sig : Nat × Nat × Nat → Nat → Nat → ℝ) : Prop where
  strain2 : c.dim = 2 → ∀ e ∈ c.fe.elems, ∀ gp, gp < 4 →
    getStrain2D c w.u e.1 e.2.1 gp = .ok (eps e gp)
  strain3 : c.dim = 3 → ∀ e ∈ c.fe.elems, ∀ gp, gp < 8 →
    getStrain3D c w.u e.1 e.2.1 e.2.2 gp = .ok (eps e gp)
  stress2 : c.dim = 2 → ∀ e ∈ c.fe.elems, ∀ gp, gp < 4 →
    getStress2D c e.1 e.2.1 (eps e gp) = .ok (sig e gp)
  stress3 : c.dim = 3 → ∀ e ∈ c.fe.elems, ∀ gp, gp < 8 → ∃ r,
    getStress3D c w.varsOld w.varsNew e.1 e.2.1 e.2.2 gp (eps e gp) = .ok r ∧ r.stress = sig e gp

/-- `Ke` is the matrix the code computes for an element. -/
structure ElemMatrix (c : Cfg ℝ) (w : Work ℝ) (e : Nat × Nat × Nat) (Ke : Nat → Nat → ℝ) : Prop where
  two : c.dim = 2 → ∃ A, getElemMat2D c e.1 e.2.1 = .ok A ∧
    ∀ i j, i < 8 → j < 8 → A.val (i * 8 + j) = Ke i j
  three : c.dim = 3 → ∃ r, getElemMat3D c w.u w.varsOld w.varsNew e.1 e.2.1 e.2.2 = .ok r ∧
    ∀ i j, i < 24 → j < 24 → r.Ae (i * 24 + j) = Ke i j

/-- `be` is the residual vector the code computes for an element. -/
structure ElemResidual (c : Cfg ℝ) (w : Work ℝ) (e : Nat × Nat × Nat) (be : Nat → ℝ) : Prop where
  two : c.dim = 2 → getElemRhs2D c w.u e.1 e.2.1 = .ok be
  three : c.dim = 3 → ∀ nl, ∃ r,
    getElemRhs3D c w.u w.varsOld w.varsNew e.1 e.2.1 e.2.2 nl = .ok r ∧ r.be = be

/-- Trial stress deviator at a Gauss point: Hooke's law for the strain of `w.u` less the plastic strain
stored in `w.varsOld` (/repo/include/micro.hpp:38 gives the layout: components 0-5 the plastic strain,
6 the hardening variable). -/
noncomputable def Cfg.trial (c : Cfg ℝ) (w : Work ℝ) (e : Nat × Nat × Nat) (gp : Nat) : Nat → ℝ :=
  dev (hooke (c.matAt e).lambda (c.matAt e).mu fun v => c.fe.strain w.u.val e gp v
    - w.varsOld.val (intvarIx (gloElem3D c.nx c.ny e.1 e.2.1 e.2.2) gp v))

/-- The Gauss point yields: its material is plastic and the trial stress is outside the yield
surface. -/
def Cfg.Yields (c : Cfg ℝ) (w : Work ℝ) (e : Nat × Nat × Nat) (gp : Nat) : Prop :=
  (c.matAt e).plasticity = true ∧
    yieldRadius (c.matAt e).Sy (c.matAt e).Ka
      (w.varsOld.val (intvarIx (gloElem3D c.nx c.ny e.1 e.2.1 e.2.2) gp 6))
      < stressNorm (c.trial w e gp)

end Verif
