import Verif.Lemmas.Plastic
import Mathlib.Analysis.InnerProductSpace.PiL2
import Mathlib.Algebra.Order.BigOperators.Ring.Finset

/-! Further lemmas about `plastic_step`: radial projection, re-evaluation. -/

namespace Verif
open Spec

/-- Scalar product of two stresses. -/
def sdot (s t : Nat → ℝ) : ℝ :=
  s 0 * t 0 + s 1 * t 1 + s 2 * t 2 + 2 * (s 3 * t 3 + s 4 * t 4 + s 5 * t 5)

theorem sdot_le (s t : Nat → ℝ) : sdot s t ≤ stressNorm s * stressNorm t := by
  have h : sdot s t ^ 2 ≤ stressNorm s ^ 2 * stressNorm t ^ 2 := by
    rw [stressNorm_sq, stressNorm_sq]
    have := Finset.sum_mul_sq_le_sq_mul_sq (Finset.range 6)
      (fun i => if i < 3 then s i else Real.sqrt 2 * s i)
      (fun i => if i < 3 then t i else Real.sqrt 2 * t i)
    simp only [Finset.sum_range_succ, Finset.range_zero, Finset.sum_empty] at this
    norm_num at this
    have h2 : Real.sqrt 2 * Real.sqrt 2 = 2 := Real.mul_self_sqrt (by norm_num)
    have e1 : ∀ a b : ℝ, Real.sqrt 2 * a * (Real.sqrt 2 * b) = 2 * (a * b) := by
      intro a b
      calc Real.sqrt 2 * a * (Real.sqrt 2 * b) = (Real.sqrt 2 * Real.sqrt 2) * (a * b) := by ring
        _ = _ := by rw [h2]
    have e2 : ∀ a : ℝ, (Real.sqrt 2 * a) ^ 2 = 2 * a ^ 2 := by
      intro a; rw [sq, e1, sq]
    simp only [e1] at this
    unfold sdot
    calc _ = (s 0 * t 0 + s 1 * t 1 + s 2 * t 2 + 2 * (s 3 * t 3) + 2 * (s 4 * t 4)
        + 2 * (s 5 * t 5)) ^ 2 := by ring
      _ ≤ _ := this
      _ = _ := by simp only [mul_pow, Real.sq_sqrt (show (0:ℝ) ≤ 2 by norm_num)]; ring
  have hn : 0 ≤ stressNorm s * stressNorm t := mul_nonneg (stressNorm_nonneg _) (stressNorm_nonneg _)
  rw [← mul_pow] at h
  exact le_of_abs_le (by
    rw [← abs_of_nonneg hn]; exact sq_le_sq.mp h)

theorem stressNorm_sub_sq (s t : Nat → ℝ) :
    stressNorm (fun i => s i - t i) ^ 2 = stressNorm s ^ 2 + stressNorm t ^ 2 - 2 * sdot s t := by
  rw [stressNorm_sq, stressNorm_sq, stressNorm_sq]; unfold sdot; ring

theorem sdot_smul (a b : ℝ) (s t : Nat → ℝ) :
    sdot (fun i => a * s i) (fun i => b * t i) = a * b * sdot s t := by
  unfold sdot; ring

theorem retFactor_le_one {N R : ℝ} (hR : 0 ≤ R) : retFactor N R ≤ 1 := by
  unfold retFactor; split
  · rename_i h
    have : 0 < N := by linarith
    rw [div_le_one this]; linarith
  · exact le_refl _

/-- Radial projection on a ball is non-expansive. -/
theorem ret_nonexpansive (s t : Nat → ℝ) {R : ℝ} (hR : 0 ≤ R) :
    stressNorm (fun i => retFactor (stressNorm s) R * s i - retFactor (stressNorm t) R * t i)
      ≤ stressNorm (fun i => s i - t i) := by
  have hs := stressNorm_nonneg s
  have ht := stressNorm_nonneg t
  have hx1 := retFactor_le_one (N := stressNorm s) hR
  have hy1 := retFactor_le_one (N := stressNorm t) hR
  have hx0 := retFactor_nonneg hs hR
  have hy0 := retFactor_nonneg ht hR
  have mx := retFactor_mul (N := stressNorm s) hR
  have my := retFactor_mul (N := stressNorm t) hR
  have hc := sdot_le s t
  apply le_of_sq_le_sq _ (stressNorm_nonneg _)
  rw [stressNorm_sub_sq (fun i => retFactor (stressNorm s) R * s i)
    (fun i => retFactor (stressNorm t) R * t i), stressNorm_sub_sq, stressNorm_smul,
    stressNorm_smul, sdot_smul, abs_of_nonneg hx0, abs_of_nonneg hy0]
  generalize retFactor (stressNorm s) R = x at *
  generalize retFactor (stressNorm t) R = y at *
  generalize stressNorm s = a at *
  generalize stressNorm t = b at *
  generalize sdot s t = c at *
  have hxy : 0 ≤ 1 - x * y := by nlinarith
  have h1 : (x * a - y * b) ^ 2 ≤ (a - b) ^ 2 := by
    rw [mx, my]
    apply sq_le_sq.mpr
    split_ifs
    · simp [abs_nonneg]
    · rw [abs_of_nonneg (by linarith), abs_of_nonneg (by linarith)]; linarith
    · rw [abs_of_nonpos (by linarith), abs_of_nonpos (by linarith)]; linarith
    · exact le_refl _
  nlinarith [mul_nonneg hxy (sub_nonneg.mpr hc)]

theorem dev_sub (a b : Nat → ℝ) (i : Nat) : dev (fun j => a j - b j) i = dev a i - dev b i := by
  unfold dev tr; split <;> ring

/-- Difference of trial stresses. -/
theorem sigTrial_sub_norm (m : Material ℝ) (hmu : 0 ≤ m.mu) (e1 e2 p : Nat → ℝ) :
    stressNorm (fun i => sigTrial m e1 p i - sigTrial m e2 p i)
      = 2 * m.mu * strainNorm (fun i => dev e1 i - dev e2 i) := by
  unfold stressNorm strainNorm
  rw [← Real.sqrt_sq (show 0 ≤ 2 * m.mu by linarith), ← Real.sqrt_mul (sq_nonneg _)]
  congr 1
  simp only [sigTrial_real]
  norm_num
  ring

theorem dev_dev_of (t : Nat → ℝ) (h : tr t = 0) (i : Nat) : dev t i = t i := by
  unfold dev; rw [h]; split <;> ring

/-- The trial stress is the deviator of Hooke's law for the elastic strain. -/
theorem sigTrial_hooke (m : Material ℝ) (e p : Nat → ℝ) (i : Nat) :
    sigTrial m e p i = dev (hooke m.lambda m.mu (fun j => e j - p j)) i := by
  rw [sigTrial_real]
  by_cases h : i < 3
  · simp only [h, if_true, dev, hooke, tr, show (0:Nat) < 3 by omega, show (1:Nat) < 3 by omega,
      show (2:Nat) < 3 by omega]
    ring
  · simp only [h, if_false, dev, hooke]

/-- The trial stress of the re-evaluation at the same strain after plastic flow. -/
theorem sigTrial_again (m : Material ℝ) (e p : Nat → ℝ) (a : ℝ) (hmu : m.mu ≠ 0)
    (h : 0 < fTrial m e p a) (i : Nat) :
    sigTrial m e (plasticStep m e p a).epsP i =
      if i < 3 then (1 - fTrial m e p a / stressNorm (sigTrial m e p)) * sigTrial m e p i
      else (1 - fTrial m e p a / stressNorm (sigTrial m e p) / 2) * sigTrial m e p i := by
  have hf := fTrial_real m e p a
  have ht := sigTrial_tr m e p
  have hq : sigTrial m e p 0 / stressNorm (sigTrial m e p)
      + sigTrial m e p 1 / stressNorm (sigTrial m e p)
      + sigTrial m e p 2 / stressNorm (sigTrial m e p) = 0 := by
    rw [← add_div, ← add_div]; unfold tr at ht; rw [ht, zero_div]
  have hd : ∀ i, dev (plasticStep m e p a).epsP i = dev p i + fTrial m e p a / (2 * m.mu)
      * (sigTrial m e p i / stressNorm (sigTrial m e p)) := by
    intro i
    rw [plasticStep_flow m e p a h]
    unfold dev
    by_cases h3 : i < 3
    · simp only [h3, if_true, tr]
      linear_combination (-(fTrial m e p a / (2 * m.mu)) / 3) * hq
    · simp only [h3, if_false]
  have e1 := sigTrial_real m e (plasticStep m e p a).epsP i
  have e2 := sigTrial_real m e p i
  rw [hd] at e1
  rw [e1]
  by_cases h3 : i < 3
  · simp only [h3, if_true] at e2 ⊢
    have : 2 * m.mu * (dev e i - (dev p i + fTrial m e p a / (2 * m.mu)
      * (sigTrial m e p i / stressNorm (sigTrial m e p))))
      = 2 * m.mu * (dev e i - dev p i) - fTrial m e p a
        * (sigTrial m e p i / stressNorm (sigTrial m e p)) := by field_simp; ring
    rw [this, ← e2]; ring
  · simp only [h3, if_false] at e2 ⊢
    have : m.mu * (dev e i - (dev p i + fTrial m e p a / (2 * m.mu)
      * (sigTrial m e p i / stressNorm (sigTrial m e p))))
      = m.mu * (dev e i - dev p i) - fTrial m e p a / 2
        * (sigTrial m e p i / stressNorm (sigTrial m e p)) := by field_simp; ring
    rw [this, ← e2]; ring

theorem stress_of_dev_tr {s t : Nat → ℝ} (hd : ∀ i, i < 6 → dev s i = dev t i) (ht : tr s = tr t) :
    ∀ i, i < 6 → s i = t i := by
  intro i hi
  have := hd i hi
  unfold dev at this
  split at this
  · rw [ht] at this; linarith
  · exact this

end Verif
