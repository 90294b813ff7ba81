import Verif.Model.Homogenize
import Verif.Lemmas.CgLoops
import Mathlib.Data.Real.Basic
import Mathlib.LinearAlgebra.Matrix.Trace
import Mathlib.LinearAlgebra.Matrix.Notation
import Mathlib.Analysis.Real.Sqrt

/-!
# C55: invariants of symmetric tensors
-/

namespace Verif.Props
open Verif Matrix

/-- The symmetric matrix with components 11, 22, 33, 12, 13, 23. -/
def sym3 (t : Nat → ℝ) : Matrix (Fin 3) (Fin 3) ℝ :=
  !![t 0, t 3, t 4; t 3, t 1, t 5; t 4, t 5, t 2]

/-- The symmetric matrix with components 11, 22, 12. -/
def sym2 (t : Nat → ℝ) : Matrix (Fin 2) (Fin 2) ℝ := !![t 0, t 2; t 2, t 1]

/-- The second principal invariant of a matrix. -/
noncomputable def inv2 (T : Matrix (Fin 3) (Fin 3) ℝ) : ℝ := (T.trace ^ 2 - (T * T).trace) / 2

/-- `T'` is `T` seen from a frame rotated by `R`. -/
def Rotated {n : Nat} (R T T' : Matrix (Fin n) (Fin n) ℝ) : Prop :=
  R * Rᵀ = 1 ∧ Rᵀ * R = 1 ∧ T' = R * T * Rᵀ

theorem Rotated.trace {n : Nat} {R T T' : Matrix (Fin n) (Fin n) ℝ} (h : Rotated R T T') :
    T'.trace = T.trace := by
  rw [h.2.2, Matrix.trace_mul_comm, ← Matrix.mul_assoc, h.2.1, Matrix.one_mul]

theorem Rotated.sq {n : Nat} {R T T' : Matrix (Fin n) (Fin n) ℝ} (h : Rotated R T T') :
    Rotated R (T * T) (T' * T') := by
  refine ⟨h.1, h.2.1, ?_⟩
  rw [h.2.2, show R * T * Rᵀ * (R * T * Rᵀ) = R * T * (Rᵀ * R) * T * Rᵀ from by
    simp only [Matrix.mul_assoc], h.2.1]
  simp only [Matrix.mul_assoc, Matrix.one_mul]

/-- The second principal invariant does not depend on the frame. -/
theorem inv2_rotated {R T T' : Matrix (Fin 3) (Fin 3) ℝ} (h : Rotated R T T') : inv2 T' = inv2 T := by
  unfold inv2; rw [h.trace, h.sq.trace]

/-- **C55**, first invariant, space: `get_inv_1` returns the trace, which is linear and does not
change under rotations. -/
theorem C55_inv1 (t t' : Nat → ℝ) (a b : ℝ) :
    getInv1 3 t = .ok (sym3 t).trace ∧
    getInv1 3 (fun i => a * t i + b * t' i) = .ok (a * (sym3 t).trace + b * (sym3 t').trace) ∧
    ∀ R, Rotated R (sym3 t) (sym3 t') → getInv1 3 t' = getInv1 3 t := by
  have h : ∀ t : Nat → ℝ, getInv1 3 t = .ok (sym3 t).trace := fun t => by
    simp [getInv1, sym3, Matrix.trace_fin_three]
  refine ⟨h t, ?_, fun R hR => ?_⟩
  · rw [h]; congr 1; simp [sym3, Matrix.trace_fin_three]; ring
  · rw [h, h, hR.trace]

example : getInv1 3 (fun i => (i : ℝ) + 1) = .ok 6 := by
  rw [(C55_inv1 _ (fun _ => 0) 0 0).1]; simp [sym3, Matrix.trace_fin_three]; norm_num

/-- **C55**, first invariant, plane. -/
theorem C55_inv1_plane (t t' : Nat → ℝ) (a b : ℝ) :
    getInv1 2 t = .ok (sym2 t).trace ∧
    getInv1 2 (fun i => a * t i + b * t' i) = .ok (a * (sym2 t).trace + b * (sym2 t').trace) ∧
    ∀ R, Rotated R (sym2 t) (sym2 t') → getInv1 2 t' = getInv1 2 t := by
  have h : ∀ t : Nat → ℝ, getInv1 2 t = .ok (sym2 t).trace := fun t => by
    simp [getInv1, sym2, Matrix.trace_fin_two]
  refine ⟨h t, ?_, fun R hR => ?_⟩
  · rw [h]; congr 1; simp [sym2, Matrix.trace_fin_two]; ring
  · rw [h, h, hR.trace]

example : getInv1 2 (fun i => (i : ℝ) + 1) = .ok 3 := by
  rw [(C55_inv1_plane _ (fun _ => 0) 0 0).1]; norm_num [sym2, Matrix.trace_fin_two]

/-- **C55**, what holds of the second invariant: `get_inv_2` exceeds the second principal invariant
by twice the sum of the squared shear components (the shear terms are added instead of
subtracted).  So it is the invariant exactly when the frame is the principal frame. -/
theorem C55_partial (t : Nat → ℝ) :
    getInv2 3 t = some (inv2 (sym3 t) + 2 * (t 3 ^ 2 + t 4 ^ 2 + t 5 ^ 2)) ∧
    (getInv2 3 t = some (inv2 (sym3 t)) ↔ t 3 = 0 ∧ t 4 = 0 ∧ t 5 = 0) ∧
    getInv2 2 t = none := by
  have h : getInv2 3 t = some (inv2 (sym3 t) + 2 * (t 3 ^ 2 + t 4 ^ 2 + t 5 ^ 2)) := by
    unfold getInv2 inv2
    rw [if_pos rfl]
    congr 1
    simp [sym3, Matrix.trace_fin_three, Matrix.mul_apply, Fin.sum_univ_three]
    ring
  refine ⟨h, ?_, by simp [getInv2]⟩
  rw [h, Option.some_inj]
  constructor
  · intro h
    have h3 := sq_nonneg (t 3); have h4 := sq_nonneg (t 4); have h5 := sq_nonneg (t 5)
    exact ⟨pow_eq_zero_iff two_ne_zero |>.1 (by linarith),
      pow_eq_zero_iff two_ne_zero |>.1 (by linarith), pow_eq_zero_iff two_ne_zero |>.1 (by linarith)⟩
  · rintro ⟨h3, h4, h5⟩; rw [h3, h4, h5]; ring

/-- Without shear the value is right, with shear it is not. -/
example : getInv2 3 (fun i => if i < 3 then 1 else 0) = some (inv2 (sym3 fun i => if i < 3 then 1 else 0)) ∧
    getInv2 3 (fun _ => 1) ≠ some (inv2 (sym3 fun _ => 1)) :=
  ⟨(C55_partial _).2.1.mpr (by norm_num), fun h => by have := ((C55_partial _).2.1.mp h).1; norm_num at this⟩

/-- **C55**, frame indifference of `get_inv_2` fails: whenever a rotation changes the size of the
shear components, the returned value changes; and a rotation by 45 degrees takes the pure shear
`12` (value `1`) to the tension-compression `diag(1, -1, 0)` (value `-1`). -/
theorem C55_fails :
    (∀ R t t', Rotated R (sym3 t) (sym3 t') →
      (getInv2 3 t' = getInv2 3 t ↔
        t' 3 ^ 2 + t' 4 ^ 2 + t' 5 ^ 2 = t 3 ^ 2 + t 4 ^ 2 + t 5 ^ 2)) ∧
    ∃ R t t', Rotated R (sym3 t) (sym3 t') ∧ getInv2 3 t = some 1 ∧ getInv2 3 t' = some (-1) := by
  refine ⟨fun R t t' h => ?_, ?_⟩
  · rw [(C55_partial t).1, (C55_partial t').1, inv2_rotated h, Option.some_inj]
    constructor <;> intro h <;> linarith
  · obtain ⟨r, hs⟩ : ∃ r : ℝ, r * r = 1 / 2 := ⟨_, Real.mul_self_sqrt (by norm_num)⟩
    refine ⟨!![r, r, 0; -r, r, 0; 0, 0, 1], fun i => if i = 3 then 1 else 0, fun i => if i = 0 then 1 else if i = 1 then -1 else 0,
      ⟨?_, ?_, ?_⟩, ?_, ?_⟩
    · ext i j; fin_cases i <;> fin_cases j <;>
        simp [Matrix.mul_apply, Fin.sum_univ_three] <;>
        nlinarith [hs]
    · ext i j; fin_cases i <;> fin_cases j <;>
        simp [Matrix.mul_apply, Fin.sum_univ_three] <;>
        nlinarith [hs]
    · ext i j; fin_cases i <;> fin_cases j <;>
        simp [sym3, Matrix.mul_apply, Fin.sum_univ_three] <;> nlinarith [hs]
    · norm_num [getInv2]
    · norm_num [getInv2]

/-- A rotation by 90 degrees about the third axis exchanges the first two directions: the hypotheses of
the statements on rotations are met by tensors with all components different from zero. -/
example : Rotated !![0, 1, 0; -1, 0, 0; 0, 0, 1]
    (sym3 fun i => if i = 0 then 1 else if i = 1 then 2 else if i = 2 then 3 else if i = 3 then 4
      else if i = 4 then 5 else 6)
    (sym3 fun i => if i = 0 then 2 else if i = 1 then 1 else if i = 2 then 3 else if i = 3 then -4
      else if i = 4 then 6 else -5) := by
  refine ⟨?_, ?_, ?_⟩ <;> ext i j <;> fin_cases i <;> fin_cases j <;>
    simp [sym3, Matrix.mul_apply, Fin.sum_univ_three]

end Verif.Props
