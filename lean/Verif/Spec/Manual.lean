import Mathlib.Analysis.Real.Sqrt
import Mathlib.Algebra.BigOperators.Fin

/-!
# The plasticity algorithm of the manual

/repo/doc/manual.tex:43-142, written with 3 x 3 tensors and without the model: trial stress, yield condition,
step length, direction, update, and the numerical tangent.
-/

namespace Verif.Spec.Manual

/-- A second-order tensor. -/
abbrev Tensor := Fin 3 → Fin 3 → ℝ

/-- `tr`. -/
def trace (t : Tensor) : ℝ := ∑ i, t i i

/-- `|| ||`. -/
noncomputable def norm (t : Tensor) : ℝ := Real.sqrt (∑ i, ∑ j, t i j ^ 2)

/-- The unit tensor. -/
def unit : Tensor := fun i j => if i = j then 1 else 0

/-- `e = ε - tr(ε)/3` (manual.tex:89). -/
noncomputable def deviator (t : Tensor) : Tensor := fun i j => t i j - trace t / 3 * unit i j

/-- The constants `k`, `μ`, `σ_Y`, `K_a`. -/
structure Consts where
  k : ℝ
  mu : ℝ
  sy : ℝ
  ka : ℝ

/-- What the algorithm returns. -/
structure Result where
  stress : Tensor
  epsP : Tensor
  alpha : ℝ

/-- Trial stress (manual.tex:90). -/
noncomputable def trial (c : Consts) (eps epsP : Tensor) : Tensor :=
  fun i j => 2 * c.mu * (deviator eps i j - deviator epsP i j)

/-- Radius of the yield surface. -/
noncomputable def radius (c : Consts) (alpha : ℝ) : ℝ := Real.sqrt (2 / 3) * (c.sy + c.ka * alpha)

/-- Yield function (manual.tex:97-99). -/
noncomputable def yield (c : Consts) (eps epsP : Tensor) (alpha : ℝ) : ℝ :=
  norm (trial c eps epsP) - radius c alpha

/-- `Δγ` (manual.tex:115-117). -/
noncomputable def gamma (c : Consts) (eps epsP : Tensor) (alpha : ℝ) : ℝ :=
  yield c eps epsP alpha / (2 * c.mu * (1 + c.ka))

/-- Direction of flow (manual.tex:111-113). -/
noncomputable def normal (c : Consts) (eps epsP : Tensor) : Tensor :=
  fun i j => trial c eps epsP i j / norm (trial c eps epsP)

/-- The algorithm (manual.tex:85-128). -/
noncomputable def step (c : Consts) (eps epsP : Tensor) (alpha : ℝ) : Result :=
  open Classical in
  if yield c eps epsP alpha < 0 then
    { stress := fun i j => c.k * trace eps * unit i j + trial c eps epsP i j
      epsP := epsP
      alpha := alpha }
  else
    { stress := fun i j => c.k * trace eps * unit i j + trial c eps epsP i j
        - 2 * c.mu * gamma c eps epsP alpha * normal c eps epsP i j
      epsP := fun i j => epsP i j - gamma c eps epsP alpha * normal c eps epsP i j
      alpha := alpha + Real.sqrt (2 / 3) * gamma c eps epsP alpha }

/-- The numerical tangent: row `i` is the difference quotient for a perturbation of component `i`
(manual.tex:130-142). -/
noncomputable def tangent (g : (Nat → ℝ) → Nat → ℝ) (d : ℝ) (eps : Nat → ℝ) (i j : Nat) : ℝ :=
  (g (fun l => if l = i then eps l + d else eps l) j - g eps j) / d

/-- The place of component `ij` in the vectors of the manual: 11, 22, 33, 12, 13, 23 (manual.tex:43-45). -/
def slot (i j : Fin 3) : Nat :=
  if i = j then i.val else i.val + j.val + 2

/-- The tensor of a vector of stresses. -/
def stressTensor (v : Nat → ℝ) : Tensor := fun i j => v (slot i j)

/-- The tensor of a vector of strains whose last three components are twice those of the tensor. -/
noncomputable def strainTensor (v : Nat → ℝ) : Tensor :=
  fun i j => if i = j then v (slot i j) else v (slot i j) / 2

end Verif.Spec.Manual
