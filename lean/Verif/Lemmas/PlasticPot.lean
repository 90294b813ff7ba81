import Verif.Lemmas.Potential
import Verif.Lemmas.PlasticMore
import Verif.Lemmas.Cell

/-! # The law of a Gauss point with plasticity derives from a convex potential

For a given history `plastic_step` returns the radial projection of the trial stress on the ball of
the old yield radius. -/

namespace Verif
open Spec Finset

/-! ## Projection on a ball -/

/-- Potential of the radial projection. -/
noncomputable def huber (R : ℝ) (s : Nat → ℝ) : ℝ :=
  retFactor (stressNorm s) R * stressNorm s * stressNorm s - (retFactor (stressNorm s) R * stressNorm s) ^ 2 / 2

/-- What is used of a projection `f s * s` with potential `H`. -/
structure Radial (f : (Nat → ℝ) → ℝ) (H : (Nat → ℝ) → ℝ) (R : ℝ) : Prop where
  pos : 0 < R
  below : ∀ s t, H s + (f s * sdot s t - f s * stressNorm s ^ 2)
    + stressNorm (fun i => f t * t i - f s * s i) ^ 2 / 2 ≤ H t
  above : ∀ s t, H t ≤ H s + (f s * sdot s t - f s * stressNorm s ^ 2)
    + stressNorm (fun i => t i - s i) ^ 2 / 2
  grow : ∀ s, R * stressNorm s - R ^ 2 / 2 ≤ H s

theorem sdot_comm (s t : Nat → ℝ) : sdot s t = sdot t s := by unfold sdot; ring

theorem radial_huber {R : ℝ} (hR : 0 < R) : Radial (fun s => retFactor (stressNorm s) R) (huber R) R := by
  refine ⟨hR, fun s t => ?_, fun s t => ?_, fun s => ?_⟩
  · have hs := stressNorm_nonneg s
    have ht := stressNorm_nonneg t
    have hx0 := retFactor_nonneg hs hR.le
    have hy0 := retFactor_nonneg ht hR.le
    have hy1 := retFactor_le_one (N := stressNorm t) hR.le
    have hx1 := retFactor_le_one (N := stressNorm s) hR.le
    have mx := retFactor_mul (N := stressNorm s) hR.le
    have my := retFactor_mul (N := stressNorm t) hR.le
    have hc := sdot_le s t
    rw [stressNorm_sub_sq (fun i => retFactor (stressNorm t) R * t i) (fun i => retFactor (stressNorm s) R * s i),
      stressNorm_smul, stressNorm_smul, sdot_smul, sdot_comm t s, abs_of_nonneg hx0, abs_of_nonneg hy0]
    unfold huber
    have key : (1 - retFactor (stressNorm t) R) * (retFactor (stressNorm s) R * sdot s t
        - retFactor (stressNorm t) R * stressNorm t ^ 2) ≤ 0 := by
      by_cases hb : R < stressNorm t
      · rw [if_pos hb] at my
        refine mul_nonpos_of_nonneg_of_nonpos (by linarith) ?_
        have h1 : retFactor (stressNorm s) R * sdot s t
            ≤ retFactor (stressNorm s) R * (stressNorm s * stressNorm t) := mul_le_mul_of_nonneg_left hc hx0
        have h2 : retFactor (stressNorm s) R * stressNorm s ≤ R := by
          rw [mx]; split <;> linarith
        have h3 : retFactor (stressNorm s) R * (stressNorm s * stressNorm t) ≤ R * stressNorm t := by
          rw [← mul_assoc]; exact mul_le_mul_of_nonneg_right h2 ht
        have h4 : retFactor (stressNorm t) R * stressNorm t ^ 2 = R * stressNorm t := by
          rw [sq, ← mul_assoc, my]
        linarith
      · have : retFactor (stressNorm t) R = 1 := by unfold retFactor; rw [if_neg hb]
        rw [this]; norm_num
    nlinarith
  · have hs := stressNorm_nonneg s
    have ht := stressNorm_nonneg t
    have hc := sdot_le s t
    rw [stressNorm_sub_sq, sdot_comm t s]
    unfold huber retFactor
    generalize sdot s t = z at *
    generalize stressNorm s = a at *
    generalize stressNorm t = b at *
    by_cases ha : R < a <;> by_cases hb : R < b <;> simp only [ha, hb, if_true, if_false]
    · have ha0 : 0 < a := by linarith
      have hb0 : 0 < b := by linarith
      rw [div_mul_cancel₀ _ hb0.ne', div_mul_cancel₀ _ ha0.ne']
      have h1 : R / a * a ^ 2 = R * a := by field_simp
      rw [h1]
      have h2 : (1 - R / a) * z ≤ (1 - R / a) * (a * b) :=
        mul_le_mul_of_nonneg_left hc (by rw [sub_nonneg, div_le_one ha0]; linarith)
      have h3 : (1 - R / a) * (a * b) = (a - R) * b := by field_simp
      nlinarith [sq_nonneg (a - b)]
    · have ha0 : 0 < a := by linarith
      rw [div_mul_cancel₀ _ ha0.ne']
      have h1 : R / a * a ^ 2 = R * a := by field_simp
      rw [h1]
      have h2 : (1 - R / a) * z ≤ (1 - R / a) * (a * b) :=
        mul_le_mul_of_nonneg_left hc (by rw [sub_nonneg, div_le_one ha0]; linarith)
      have h3 : (1 - R / a) * (a * b) = (a - R) * b := by field_simp
      nlinarith [mul_nonneg (sub_nonneg.mpr ha.le) (sub_nonneg.mpr (not_lt.mp hb))]
    · have hb0 : 0 < b := by linarith
      rw [div_mul_cancel₀ _ hb0.ne']
      nlinarith [sq_nonneg (b - R)]
    · nlinarith
  · have hs := stressNorm_nonneg s
    unfold huber
    rw [retFactor_mul hR.le]
    split
    · linarith
    · nlinarith [sq_nonneg (R - stressNorm s)]

theorem radial_id : Radial (fun _ => 1) (fun s => stressNorm s ^ 2 / 2) 1 := by
  refine ⟨one_pos, fun s t => ?_, fun s t => ?_, fun s => ?_⟩
  · simp only [one_mul]
    rw [stressNorm_sub_sq, sdot_comm t s]; linarith
  · simp only [one_mul]
    rw [stressNorm_sub_sq, sdot_comm t s]; linarith
  · nlinarith [sq_nonneg (1 - stressNorm s)]

/-! ## The law of a point -/

/-- Law of a point: pressure and radial part. -/
noncomputable def radLaw (k : ℝ) (m : Material ℝ) (p : Nat → ℝ) (f : (Nat → ℝ) → ℝ) (x : Nat → ℝ) (i : Nat) : ℝ :=
  f (sigTrial m x p) * sigTrial m x p i + if i < 3 then k * tr x else 0

/-- Its potential. -/
noncomputable def radPot (k : ℝ) (m : Material ℝ) (p : Nat → ℝ) (H : (Nat → ℝ) → ℝ) (x : Nat → ℝ) : ℝ :=
  k / 2 * tr x ^ 2 + H (sigTrial m x p) / (2 * m.mu)

variable {k R : ℝ} {m : Material ℝ} {p : Nat → ℝ} {f H : (Nat → ℝ) → ℝ}

theorem sdot_trial_sub (x y : Nat → ℝ) :
    sdot (sigTrial m x p) (sigTrial m y p) - stressNorm (sigTrial m x p) ^ 2
      = 2 * m.mu * ∑ v ∈ range 6, sigTrial m x p v * (y v - x v) := by
  have ht := sigTrial_tr m x p
  have e : ∀ i, i < 6 → sigTrial m y p i - sigTrial m x p i
      = if i < 3 then 2 * m.mu * (y i - x i - (tr y - tr x) / 3) else m.mu * (y i - x i) := by
    intro i _
    rw [sigTrial_real, sigTrial_real]
    split
    · rename_i h
      simp only [dev, h, if_true]; ring
    · rename_i h
      simp only [dev, h, if_false]; ring
  rw [stressNorm_sq]
  unfold sdot tr at *
  have e0 := e 0 (by omega); have e1 := e 1 (by omega); have e2 := e 2 (by omega)
  have e3 := e 3 (by omega); have e4 := e 4 (by omega); have e5 := e 5 (by omega)
  simp only [show (0:Nat) < 3 by omega, show (1:Nat) < 3 by omega, show (2:Nat) < 3 by omega, if_true] at e0 e1 e2
  simp only [show ¬ (3:Nat) < 3 by omega, show ¬ (4:Nat) < 3 by omega, show ¬ (5:Nat) < 3 by omega, if_false] at e3 e4 e5
  simp only [sum_range_succ, sum_range_zero]
  linear_combination sigTrial m x p 0 * e0 + sigTrial m x p 1 * e1 + sigTrial m x p 2 * e2
    + 2 * sigTrial m x p 3 * e3 + 2 * sigTrial m x p 4 * e4 + 2 * sigTrial m x p 5 * e5
    - (2 * m.mu * (y 0 + y 1 + y 2 - (x 0 + x 1 + x 2)) / 3) * ht

theorem pair_radLaw (x d : Nat → ℝ) : ∑ v ∈ range 6, radLaw k m p f x v * d v
    = k * tr x * tr d + f (sigTrial m x p) * ∑ v ∈ range 6, sigTrial m x p v * d v := by
  simp only [radLaw, sum_range_succ, sum_range_zero, tr]
  norm_num
  ring

theorem radLaw_diff (x y : Nat → ℝ) :
    ∑ v ∈ range 6, (radLaw k m p f y v - radLaw k m p f x v) ^ 2
      ≤ stressNorm (fun i => f (sigTrial m y p) * sigTrial m y p i - f (sigTrial m x p) * sigTrial m x p i) ^ 2
        + 3 * k ^ 2 * (tr y - tr x) ^ 2 := by
  have hx := sigTrial_tr m x p
  have hy := sigTrial_tr m y p
  rw [stressNorm_sq]
  unfold tr at hx hy
  simp only [radLaw, sum_range_succ, sum_range_zero]
  norm_num
  have e : (f (sigTrial m y p) * sigTrial m y p 0 - f (sigTrial m x p) * sigTrial m x p 0)
      + (f (sigTrial m y p) * sigTrial m y p 1 - f (sigTrial m x p) * sigTrial m x p 1)
      + (f (sigTrial m y p) * sigTrial m y p 2 - f (sigTrial m x p) * sigTrial m x p 2) = 0 := by
    linear_combination f (sigTrial m y p) * hy - f (sigTrial m x p) * hx
  generalize f (sigTrial m y p) = a at *
  generalize f (sigTrial m x p) = b at *
  generalize tr y = ty at *
  generalize tr x = tx at *
  nlinarith [sq_nonneg (a * sigTrial m y p 3 - b * sigTrial m x p 3),
    sq_nonneg (a * sigTrial m y p 4 - b * sigTrial m x p 4),
    sq_nonneg (a * sigTrial m y p 5 - b * sigTrial m x p 5), congrArg (fun z => 2 * k * (ty - tx) * z) e]

theorem radPot_below (hk : 0 < k) (hm : 0 < m.mu) (hf : Radial f H R) (x y : Nat → ℝ) :
    radPot k m p H x + ∑ v ∈ range 6, radLaw k m p f x v * (y v - x v)
      + 1 / (4 * m.mu + 6 * k) * ∑ v ∈ range 6, (radLaw k m p f y v - radLaw k m p f x v) ^ 2
      ≤ radPot k m p H y := by
  have h1 := hf.below (sigTrial m x p) (sigTrial m y p)
  rw [← mul_sub, sdot_trial_sub] at h1
  rw [pair_radLaw]
  have h2 := radLaw_diff (k := k) (m := m) (p := p) (f := f) x y
  have ed : tr (fun v => y v - x v) = tr y - tr x := by unfold tr; ring
  rw [ed]
  unfold radPot
  generalize stressNorm (fun i => f (sigTrial m y p) * sigTrial m y p i - f (sigTrial m x p) * sigTrial m x p i) = D at *
  generalize ∑ v ∈ range 6, (radLaw k m p f y v - radLaw k m p f x v) ^ 2 = Q at *
  generalize ∑ v ∈ range 6, sigTrial m x p v * (y v - x v) = z at *
  have h3 : 1 / (4 * m.mu + 6 * k) * Q ≤ D ^ 2 / (4 * m.mu) + k / 2 * (tr y - tr x) ^ 2 := by
    rw [div_mul_eq_mul_div, one_mul, div_le_iff₀ (by positivity)]
    have e : (D ^ 2 / (4 * m.mu) + k / 2 * (tr y - tr x) ^ 2) * (4 * m.mu + 6 * k)
        = D ^ 2 + 3 * k ^ 2 * (tr y - tr x) ^ 2 + (D ^ 2 / (4 * m.mu) * (6 * k) + k / 2 * (tr y - tr x) ^ 2 * (4 * m.mu)) := by
      field_simp; ring
    rw [e]
    have : 0 ≤ D ^ 2 / (4 * m.mu) * (6 * k) + k / 2 * (tr y - tr x) ^ 2 * (4 * m.mu) := by positivity
    linarith
  have h4 : H (sigTrial m x p) / (2 * m.mu) + f (sigTrial m x p) * z + D ^ 2 / (4 * m.mu)
      ≤ H (sigTrial m y p) / (2 * m.mu) := by
    have e : H (sigTrial m x p) / (2 * m.mu) + f (sigTrial m x p) * z + D ^ 2 / (4 * m.mu)
        = (H (sigTrial m x p) + f (sigTrial m x p) * (2 * m.mu * z) + D ^ 2 / 2) / (2 * m.mu) := by
      field_simp
      ring
    rw [e]
    exact div_le_div_of_nonneg_right h1 (by positivity)
  nlinarith

theorem radPot_above (hk : 0 < k) (hm : 0 < m.mu) (hf : Radial f H R) (x y : Nat → ℝ) :
    radPot k m p H y ≤ radPot k m p H x + ∑ v ∈ range 6, radLaw k m p f x v * (y v - x v)
      + (3 * k / 2 + m.mu) * ∑ v ∈ range 6, (y v - x v) ^ 2 := by
  have h1 := hf.above (sigTrial m x p) (sigTrial m y p)
  rw [← mul_sub, sdot_trial_sub] at h1
  rw [pair_radLaw]
  have ed : tr (fun v => y v - x v) = tr y - tr x := by unfold tr; ring
  rw [ed]
  have h2 : stressNorm (fun i => sigTrial m y p i - sigTrial m x p i) ^ 2
      ≤ 4 * m.mu ^ 2 * ∑ v ∈ range 6, (y v - x v) ^ 2 := by
    rw [stressNorm_sq]
    simp only [sigTrial_real, dev, tr, sum_range_succ, sum_range_zero]
    norm_num
    nlinarith [mul_nonneg (sq_nonneg m.mu) (sq_nonneg (y 0 - x 0 + (y 1 - x 1) + (y 2 - x 2))),
      mul_nonneg (sq_nonneg m.mu) (sq_nonneg (y 3 - x 3)), mul_nonneg (sq_nonneg m.mu) (sq_nonneg (y 4 - x 4)),
      mul_nonneg (sq_nonneg m.mu) (sq_nonneg (y 5 - x 5))]
  have h3 : (tr y - tr x) ^ 2 ≤ 3 * ∑ v ∈ range 6, (y v - x v) ^ 2 := by
    simp only [tr, sum_range_succ, sum_range_zero]
    nlinarith [sq_nonneg (y 0 - x 0 - (y 1 - x 1)), sq_nonneg (y 1 - x 1 - (y 2 - x 2)),
      sq_nonneg (y 0 - x 0 - (y 2 - x 2)), sq_nonneg (y 3 - x 3), sq_nonneg (y 4 - x 4), sq_nonneg (y 5 - x 5)]
  unfold radPot
  generalize stressNorm (fun i => sigTrial m y p i - sigTrial m x p i) = D at *
  generalize ∑ v ∈ range 6, (y v - x v) ^ 2 = Q at *
  generalize ∑ v ∈ range 6, sigTrial m x p v * (y v - x v) = z at *
  have h4 : H (sigTrial m y p) / (2 * m.mu)
      ≤ H (sigTrial m x p) / (2 * m.mu) + f (sigTrial m x p) * z + m.mu * Q := by
    have e : H (sigTrial m x p) / (2 * m.mu) + f (sigTrial m x p) * z + m.mu * Q
        = (H (sigTrial m x p) + f (sigTrial m x p) * (2 * m.mu * z) + 4 * m.mu ^ 2 * Q / 2) / (2 * m.mu) := by
      field_simp
      ring
    rw [e]
    exact div_le_div_of_nonneg_right (by linarith) (by positivity)
  nlinarith

theorem abs_le_stressNorm (s : Nat → ℝ) {i : Nat} (hi : i < 6) : |s i| ≤ stressNorm s := by
  rw [← Real.sqrt_sq_eq_abs]
  unfold stressNorm
  apply Real.sqrt_le_sqrt
  interval_cases i <;>
    nlinarith [sq_nonneg (s 0), sq_nonneg (s 1), sq_nonneg (s 2), sq_nonneg (s 3), sq_nonneg (s 4), sq_nonneg (s 5)]

theorem radPot_grow (hk : 0 < k) (hm : 0 < m.mu) (hf : Radial f H R) (x : Nat → ℝ) :
    R / 12 * ∑ v ∈ range 6, |x v|
      - (R ^ 2 / (4 * m.mu) + (R / 12) ^ 2 / (2 * k) + R / 12 * ∑ v ∈ range 6, |dev p v|)
      ≤ radPot k m p H x := by
  have h1 := hf.grow (sigTrial m x p)
  have hR := hf.pos
  have h2 : ∀ i, i < 6 → |x i| ≤ stressNorm (sigTrial m x p) / m.mu + (if i < 3 then |tr x| / 3 else 0) + |dev p i| := by
    intro i hi
    have h3 := abs_le_stressNorm (sigTrial m x p) hi
    have h4 : |dev x i - dev p i| ≤ stressNorm (sigTrial m x p) / m.mu := by
      rw [le_div_iff₀ hm]
      rw [sigTrial_real] at h3
      split at h3
      · rw [abs_mul, abs_of_pos (by positivity : 0 < 2 * m.mu)] at h3
        nlinarith [abs_nonneg (dev x i - dev p i), mul_nonneg hm.le (abs_nonneg (dev x i - dev p i))]
      · rw [abs_mul, abs_of_pos hm] at h3
        linarith
    have h5 : |x i| ≤ |dev x i - dev p i| + (if i < 3 then |tr x| / 3 else 0) + |dev p i| := by
      have e : x i = (dev x i - dev p i) + (if i < 3 then tr x / 3 else 0) + dev p i := by
        unfold dev; split <;> ring
      have e' : |(if i < 3 then tr x / 3 else 0 : ℝ)| = if i < 3 then |tr x| / 3 else 0 := by
        split
        · rw [abs_div, abs_of_pos (by norm_num : (0:ℝ) < 3)]
        · exact abs_zero
      calc |x i| = |(dev x i - dev p i) + (if i < 3 then tr x / 3 else 0) + dev p i| := by rw [← e]
        _ ≤ |(dev x i - dev p i) + (if i < 3 then tr x / 3 else 0)| + |dev p i| := abs_add_le _ _
        _ ≤ |dev x i - dev p i| + |(if i < 3 then tr x / 3 else 0 : ℝ)| + |dev p i| := by
          linarith [abs_add_le (dev x i - dev p i) (if i < 3 then tr x / 3 else 0)]
        _ = _ := by rw [e']
    linarith
  have h6 : ∑ v ∈ range 6, |x v| ≤ 6 * (stressNorm (sigTrial m x p) / m.mu) + |tr x| + ∑ v ∈ range 6, |dev p v| := by
    have := sum_le_sum fun i (hi : i ∈ range 6) => h2 i (mem_range.mp hi)
    rw [sum_add_distrib, sum_add_distrib] at this
    refine this.trans (le_of_eq ?_)
    congr 1
    simp only [sum_range_succ, sum_range_zero]
    norm_num
    ring
  have h7 : R / 12 * |tr x| - (R / 12) ^ 2 / (2 * k) ≤ k / 2 * tr x ^ 2 := by
    have e : k / 2 * tr x ^ 2 - (R / 12 * |tr x| - (R / 12) ^ 2 / (2 * k)) = (k * |tr x| - R / 12) ^ 2 / (2 * k) := by
      have : tr x ^ 2 = |tr x| ^ 2 := (sq_abs _).symm
      rw [this]; field_simp; ring
    have : 0 ≤ (k * |tr x| - R / 12) ^ 2 / (2 * k) := by positivity
    linarith
  have h8 : R / 12 * (6 * (stressNorm (sigTrial m x p) / m.mu)) - R ^ 2 / (4 * m.mu) ≤ H (sigTrial m x p) / (2 * m.mu) := by
    have e : R / 12 * (6 * (stressNorm (sigTrial m x p) / m.mu)) - R ^ 2 / (4 * m.mu)
        = (R * stressNorm (sigTrial m x p) - R ^ 2 / 2) / (2 * m.mu) := by
      field_simp; ring
    rw [e]
    exact div_le_div_of_nonneg_right h1 (by positivity)
  unfold radPot
  have h9 : R / 12 * ∑ v ∈ range 6, |x v| ≤ R / 12 * (6 * (stressNorm (sigTrial m x p) / m.mu) + |tr x| + ∑ v ∈ range 6, |dev p v|) :=
    mul_le_mul_of_nonneg_left h6 (by positivity)
  nlinarith

end Verif
