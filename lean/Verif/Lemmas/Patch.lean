import Verif.Lemmas.FemGrid
import Mathlib.Algebra.BigOperators.Field

/-! # Patch test for elements with edges of any sign -/

namespace Verif.Spec.Fe
open Finset

variable {F : Fe}

/-- The same grid with unit edges. -/
def unitGrid (F : Fe) : Fe := { F with h := fun _ => 1 }

theorem grad_unit (u : Nat → ℝ) (e : Nat × Nat × Nat) (gp i j : Nat) :
    F.grad u e gp i j = F.unitGrid.grad u e gp i j / F.h j := by
  unfold grad
  rw [sum_div]
  refine sum_congr rfl fun a _ => ?_
  have : F.unitGrid.node e a = F.node e a := rfl
  rw [this]
  simp only [unitGrid, dShape]
  ring

theorem affine_unit (G : Nat → Nat → ℝ) (t : Nat → ℝ) (r : Nat) :
    F.affine G t r = F.unitGrid.affine (fun i j => G i j * F.h j) t r := by
  unfold affine coord
  simp only [unitGrid]
  congr 1
  exact sum_congr rfl fun j _ => by ring

/-- The strain of an affine field needs non-zero edges only. -/
theorem strain_affine_ne (hF : F.unitGrid.Good) (hh : ∀ k, k < F.dim → F.h k ≠ 0)
    (G : Nat → Nat → ℝ) (t : Nat → ℝ) {e : Nat × Nat × Nat}
    (he : e ∈ F.elems) (gp : Nat) {v : Nat} (hv : v < F.nvoi) :
    F.strain (F.affine G t) e gp v = voigt F.dim G v := by
  have hv' : v < F.unitGrid.nvoi := hv
  refine voigt_congr (F := F.unitGrid) hF (fun i j hi hj => ?_) hv'
  rw [grad_unit, show F.affine G t = F.unitGrid.affine (fun i j => G i j * F.h j) t from
    funext fun r => affine_unit G t r, grad_affine hF _ t (e := e) he gp hi hj]
  exact mul_div_cancel_right₀ _ (hh j hj)

end Verif.Spec.Fe
