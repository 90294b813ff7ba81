import Verif.Model.Assembly
import Verif.Spec.J2
import Mathlib.Tactic.Ring
import Mathlib.Tactic.FieldSimp
import Mathlib.Tactic.Linarith
import Mathlib.Tactic.Positivity
import Mathlib.Tactic.IntervalCases
import Mathlib.Tactic.LinearCombination

/-! Lemmas about `plastic_step` over the reals. -/

namespace Verif
open Spec

theorem devTensor_real (t : Nat → ℝ) (i : Nat) : devTensor t i = dev t i := by
  unfold devTensor dev tr
  split
  · norm_num; ring
  · rfl

theorem sigTrial_real (m : Material ℝ) (e p : Nat → ℝ) (i : Nat) :
    sigTrial m e p i = if i < 3 then 2 * m.mu * (dev e i - dev p i) else m.mu * (dev e i - dev p i) := by
  simp only [sigTrial, devTensor_real]
  norm_num

theorem sigNorm_real (s : Nat → ℝ) : sigNorm s = stressNorm s := by
  unfold sigNorm stressNorm
  simp only [sqrt_real]
  congr 1
  push_cast
  ring

theorem fTrial_real (m : Material ℝ) (e p : Nat → ℝ) (a : ℝ) :
    fTrial m e p a = stressNorm (sigTrial m e p) - yieldRadius m.Sy m.Ka a := by
  unfold fTrial yieldRadius
  rw [sigNorm_real]
  simp only [sqrt_real]
  norm_num

theorem sigTrial_tr (m : Material ℝ) (e p : Nat → ℝ) : tr (sigTrial m e p) = 0 := by
  unfold tr
  simp only [sigTrial_real, dev, tr]
  norm_num
  ring

theorem dl_real (m : Material ℝ) (f : ℝ) :
    f / (((2 : Nat) : ℝ) * m.mu * (1.0 + (0.0 * m.Ka) / (((3 : Nat) : ℝ) * m.mu)))
      = f / (2 * m.mu) := by
  norm_num

/-- `plastic_step` when the trial state is beyond the yield surface. -/
theorem plasticStep_flow (m : Material ℝ) (e p : Nat → ℝ) (a : ℝ)
    (h : 0 < fTrial m e p a) :
    plasticStep m e p a =
      { epsP := fun i => p i + fTrial m e p a / (2 * m.mu)
          * (sigTrial m e p i / stressNorm (sigTrial m e p))
        alpha := a + Real.sqrt (2 / 3) * (fTrial m e p a / (2 * m.mu))
        nl := true
        stress := plasticStress m e (sigTrial m e p) (fTrial m e p a / (2 * m.mu))
          (fun i => sigTrial m e p i / stressNorm (sigTrial m e p)) } := by
  unfold plasticStep
  simp only [lt_real, h, decide_true, if_true, sigNorm_real, dl_real, sqrt_real]
  norm_num

/-- `plastic_step` when it is not. -/
theorem plasticStep_elastic (m : Material ℝ) (e p : Nat → ℝ) (a : ℝ)
    (h : ¬ 0 < fTrial m e p a) :
    plasticStep m e p a =
      { epsP := p, alpha := a, nl := false
        stress := plasticStress m e (sigTrial m e p) 0 (fun _ => 0) } := by
  unfold plasticStep
  simp only [lt_real, h, decide_false, Bool.false_eq_true, if_false]

theorem plasticStress_real (m : Material ℝ) (e s : Nat → ℝ) (dl : ℝ) (n : Nat → ℝ) (i : Nat) :
    plasticStress m e s dl n i =
      (if i < 3 then s i + m.k * tr e else s i) - 2 * m.mu * dl * n i := by
  unfold plasticStress tr
  push_cast
  rfl

theorem stressNorm_nonneg (s : Nat → ℝ) : 0 ≤ stressNorm s := Real.sqrt_nonneg _

theorem stressNorm_congr {s t : Nat → ℝ} (h : ∀ i, i < 6 → s i = t i) :
    stressNorm s = stressNorm t := by
  unfold stressNorm
  rw [h 0 (by omega), h 1 (by omega), h 2 (by omega), h 3 (by omega), h 4 (by omega),
    h 5 (by omega)]

theorem stressNorm_smul (c : ℝ) (s : Nat → ℝ) :
    stressNorm (fun i => c * s i) = |c| * stressNorm s := by
  unfold stressNorm
  rw [← Real.sqrt_sq_eq_abs, ← Real.sqrt_mul (sq_nonneg c)]
  congr 1
  ring

theorem stressNorm_sq (s : Nat → ℝ) :
    stressNorm s ^ 2 = s 0 ^ 2 + s 1 ^ 2 + s 2 ^ 2 + 2 * (s 3 ^ 2 + s 4 ^ 2 + s 5 ^ 2) := by
  unfold stressNorm
  rw [Real.sq_sqrt (by positivity)]

theorem stressNorm_eq_zero {s : Nat → ℝ} (h : stressNorm s = 0) : ∀ i, i < 6 → s i = 0 := by
  have h2 := stressNorm_sq s
  rw [h] at h2
  intro i hi
  have : s i ^ 2 ≤ 0 := by
    interval_cases i <;>
      nlinarith [sq_nonneg (s 0), sq_nonneg (s 1), sq_nonneg (s 2), sq_nonneg (s 3),
        sq_nonneg (s 4), sq_nonneg (s 5)]
  exact pow_eq_zero_iff (two_ne_zero) |>.mp (le_antisymm this (sq_nonneg _))

/-- The factor by which the return mapping scales the trial stress. -/
noncomputable def retFactor (N R : ℝ) : ℝ := if R < N then R / N else 1

/-- Deviator of the stress returned by `plastic_step`. -/
theorem plasticStep_dev (m : Material ℝ) (e p : Nat → ℝ) (a : ℝ) (hmu : m.mu ≠ 0)
    (hR : 0 ≤ yieldRadius m.Sy m.Ka a) (i : Nat) (_hi : i < 6) :
    dev (plasticStep m e p a).stress i =
      retFactor (stressNorm (sigTrial m e p)) (yieldRadius m.Sy m.Ka a) * sigTrial m e p i := by
  have ht := sigTrial_tr m e p
  have hf := fTrial_real m e p a
  by_cases h : 0 < fTrial m e p a
  · have hN : 0 < stressNorm (sigTrial m e p) := by linarith
    have hlt : yieldRadius m.Sy m.Ka a < stressNorm (sigTrial m e p) := by linarith
    rw [plasticStep_flow m e p a h]
    unfold retFactor
    rw [if_pos hlt]
    unfold dev
    simp only [plasticStress_real, tr] at ht ⊢
    rw [hf]
    generalize stressNorm (sigTrial m e p) = N at *
    generalize yieldRadius m.Sy m.Ka a = R at *
    generalize sigTrial m e p = s at *
    by_cases h3 : i < 3
    · simp only [h3, if_true, show (0 : Nat) < 3 by omega, show (1 : Nat) < 3 by omega,
        show (2 : Nat) < 3 by omega]
      have hs : s 0 = -s 1 - s 2 := by linarith
      rw [hs]
      field_simp
      ring
    · simp only [h3, if_false]
      field_simp
      ring
  · have hge : ¬ yieldRadius m.Sy m.Ka a < stressNorm (sigTrial m e p) := by
      rw [hf] at h; linarith
    rw [plasticStep_elastic m e p a h]
    unfold retFactor
    rw [if_neg hge]
    unfold dev
    simp only [plasticStress_real, tr] at ht ⊢
    by_cases h3 : i < 3
    · simp only [h3, if_true, show (0 : Nat) < 3 by omega, show (1 : Nat) < 3 by omega,
        show (2 : Nat) < 3 by omega]
      linear_combination (-1 / 3) * ht
    · simp only [h3, if_false]
      ring

theorem retFactor_nonneg {N R : ℝ} (hN : 0 ≤ N) (hR : 0 ≤ R) : 0 ≤ retFactor N R := by
  unfold retFactor; split
  · positivity
  · norm_num

theorem retFactor_mul {N R : ℝ} (hR : 0 ≤ R) : retFactor N R * N = if R < N then R else N := by
  unfold retFactor; split
  · rename_i h
    have : N ≠ 0 := by linarith
    field_simp
  · ring

theorem plasticStep_norm (m : Material ℝ) (e p : Nat → ℝ) (a : ℝ) (hmu : m.mu ≠ 0)
    (hR : 0 ≤ yieldRadius m.Sy m.Ka a) :
    stressNorm (dev (plasticStep m e p a).stress) =
      if yieldRadius m.Sy m.Ka a < stressNorm (sigTrial m e p) then yieldRadius m.Sy m.Ka a
      else stressNorm (sigTrial m e p) := by
  rw [stressNorm_congr (plasticStep_dev m e p a hmu hR), stressNorm_smul,
    abs_of_nonneg (retFactor_nonneg (stressNorm_nonneg _) hR), retFactor_mul hR]

theorem plasticStep_nl (m : Material ℝ) (e p : Nat → ℝ) (a : ℝ) :
    (plasticStep m e p a).nl = true ↔
      yieldRadius m.Sy m.Ka a < stressNorm (sigTrial m e p) := by
  have hf := fTrial_real m e p a
  by_cases h : 0 < fTrial m e p a
  · rw [plasticStep_flow m e p a h]; simp; linarith
  · rw [plasticStep_elastic m e p a h]; simp; linarith

theorem plasticStep_tr (m : Material ℝ) (e p : Nat → ℝ) (a : ℝ) :
    tr (plasticStep m e p a).stress = 3 * m.k * tr e := by
  have ht := sigTrial_tr m e p
  by_cases h : 0 < fTrial m e p a
  · rw [plasticStep_flow m e p a h]
    have hq : sigTrial m e p 0 / stressNorm (sigTrial m e p)
        + sigTrial m e p 1 / stressNorm (sigTrial m e p)
        + sigTrial m e p 2 / stressNorm (sigTrial m e p) = 0 := by
      rw [← add_div, ← add_div]; unfold tr at ht; rw [ht, zero_div]
    simp only [tr, plasticStress_real] at ht ⊢
    norm_num
    linear_combination ht - 2 * m.mu * (fTrial m e p a / (2 * m.mu)) * hq
  · rw [plasticStep_elastic m e p a h]
    simp only [tr, plasticStress_real] at ht ⊢
    norm_num
    linear_combination ht

theorem plasticStep_eps_tr (m : Material ℝ) (e p : Nat → ℝ) (a : ℝ) :
    tr (plasticStep m e p a).epsP = tr p := by
  have ht := sigTrial_tr m e p
  by_cases h : 0 < fTrial m e p a
  · rw [plasticStep_flow m e p a h]
    have hq : sigTrial m e p 0 / stressNorm (sigTrial m e p)
        + sigTrial m e p 1 / stressNorm (sigTrial m e p)
        + sigTrial m e p 2 / stressNorm (sigTrial m e p) = 0 := by
      rw [← add_div, ← add_div]; unfold tr at ht; rw [ht, zero_div]
    simp only [tr]
    linear_combination (fTrial m e p a / (2 * m.mu)) * hq
  · rw [plasticStep_elastic m e p a h]

theorem sqrt_two_thirds_pos : 0 < Real.sqrt (2 / 3) := Real.sqrt_pos.mpr (by norm_num)

end Verif
