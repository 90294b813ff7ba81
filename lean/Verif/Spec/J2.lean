import Mathlib.Analysis.Real.Sqrt

/-!
# J2 plasticity: specification

Symmetric tensors in the order 11, 22, 33, 12, 13, 23.  Stresses hold tensor components; strains
hold engineering shears (twice the tensor component).  Written without the model.
-/

namespace Verif.Spec

/-- Trace. -/
def tr (t : Nat → ℝ) : ℝ := t 0 + t 1 + t 2

/-- Deviator. -/
noncomputable def dev (t : Nat → ℝ) (i : Nat) : ℝ := if i < 3 then t i - tr t / 3 else t i

/-- Frobenius norm of a stress. -/
noncomputable def stressNorm (s : Nat → ℝ) : ℝ :=
  Real.sqrt (s 0 ^ 2 + s 1 ^ 2 + s 2 ^ 2 + 2 * (s 3 ^ 2 + s 4 ^ 2 + s 5 ^ 2))

/-- Frobenius norm of a strain with engineering shears. -/
noncomputable def strainNorm (e : Nat → ℝ) : ℝ :=
  Real.sqrt (e 0 ^ 2 + e 1 ^ 2 + e 2 ^ 2 + (e 3 ^ 2 + e 4 ^ 2 + e 5 ^ 2) / 2)

/-- `σ : ε` for a stress and a strain with engineering shears. -/
def power (s e : Nat → ℝ) : ℝ := s 0 * e 0 + s 1 * e 1 + s 2 * e 2 + s 3 * e 3 + s 4 * e 4 + s 5 * e 5

/-- Radius of the yield surface for initial yield stress `Sy`, hardening modulus `Ka` and
hardening variable `alpha`. -/
noncomputable def yieldRadius (Sy Ka alpha : ℝ) : ℝ := Real.sqrt (2 / 3) * (Sy + Ka * alpha)

/-- Isotropic elasticity: `σ = λ tr(ε) I + 2 μ ε` with engineering shears. -/
def hooke (lambda mu : ℝ) (e : Nat → ℝ) (i : Nat) : ℝ :=
  if i < 3 then lambda * tr e + 2 * mu * e i else mu * e i

end Verif.Spec
