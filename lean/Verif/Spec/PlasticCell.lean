import Verif.Spec.Cell

/-!
# Cells with plastic elements: what is assumed of the constants and of the history
-/

namespace Verif
open Spec

/-- Constants of an elastic-plastic material, related as in the constructor
(/repo/src/micro.cpp:90-98): positive yield stress, no softening. -/
structure Material.J2 (m : Material ℝ) : Prop extends m.Admissible where
  k : m.k = m.E / (3 * (1 - 2 * m.nu))
  Sy : 0 < m.Sy
  Ka : 0 ≤ m.Ka

/-- A three-dimensional object: both materials are admissible, those that are plastic have a positive
yield stress and do not soften. -/
structure Cfg.J2 (c : Cfg ℝ) : Prop where
  dim : c.dim = 3
  mats : ∀ i, i < 2 → (c.mats i).Admissible
  plastic : ∀ i, i < 2 → (c.mats i).plasticity = true → (c.mats i).J2

/-- The history `vo` (layout: /repo/include/micro.hpp:38) has no negative hardening variable in a
plastic element. -/
def Cfg.Hardened (c : Cfg ℝ) (vo : Buf ℝ) : Prop := ∀ e ∈ c.fe.elems, (c.matAt e).plasticity = true →
  ∀ gp, gp < 8 → 0 ≤ vo.val (intvarIx (gloElem3D c.nx c.ny e.1 e.2.1 e.2.2) gp 6)

/-- The yield radius at a Gauss point for the history `vo`. -/
noncomputable def Cfg.radius (c : Cfg ℝ) (vo : Buf ℝ) (e : Nat × Nat × Nat) (gp : Nat) : ℝ :=
  yieldRadius (c.matAt e).Sy (c.matAt e).Ka (vo.val (intvarIx (gloElem3D c.nx c.ny e.1 e.2.1 e.2.2) gp 6))

end Verif
