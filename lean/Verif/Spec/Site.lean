import Verif.Model.Site

/-!
# What a place in the code requires
-/

namespace Verif

/-- The values of the `const int` members of an object built with at least two nodes per direction and
a known `micro_type`, /repo/src/micro.cpp:30-81. -/
structure Cls (σ : SV → Int) : Prop where
  dim : (σ .dim = 2 ∧ σ .nz = 1 ∧ σ .npe = 4 ∧ σ .nvoi = 3 ∧
      σ .nelem = (σ .nx - 1) * (σ .ny - 1)) ∨
    (σ .dim = 3 ∧ 2 ≤ σ .nz ∧ σ .npe = 8 ∧ σ .nvoi = 6 ∧
      σ .nelem = (σ .nx - 1) * (σ .ny - 1) * (σ .nz - 1))
  nx : 2 ≤ σ .nx
  ny : 2 ≤ σ .ny
  nn : σ .nn = σ .nx * σ .ny * σ .nz
  vars : σ .num_int_vars = σ .nelem * 8 * 7
  mats : σ .numMaterials = 2
  params : σ .nParams = 5

/-- The variables are as the surroundings say. -/
def Fact.Holds (σ : SV → Int) : Fact → Prop
  | .loop v lo hi => lo.eval σ ≤ σ v ∧ σ v < hi.eval σ
  | .eq v e => σ v = e.eval σ
  | .ne v e => σ v ≠ e.eval σ

/-- No overflow; no access outside of the array; enough entries for the callee; a value in range. -/
def Use.Safe (σ : SV → Int) : Use → Prop
  | .fits e => e.run32 σ = some (e.eval σ)
  | .index _ e size => 0 ≤ e.eval σ ∧ e.eval σ < size.eval σ
  | .extent _ need given => need.eval σ ≤ given.eval σ
  | .range e lo hi => lo.eval σ ≤ e.eval σ ∧ e.eval σ < hi.eval σ

end Verif
