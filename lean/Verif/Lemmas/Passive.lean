import Verif.Lemmas.Aging

/-! # Storage of energy by a point and by a cell

The potential of `Lemmas/PlasticPot.lean` for the current history serves as storage function: an
evaluation raises it by at most the work supplied, storing the new history does not raise it, provided
there is no hardening (or no shear). -/

namespace Verif
open Spec Finset

theorem power_sum (s e : Nat → ℝ) : power s e = ∑ v ∈ range 6, s v * e v := by
  simp only [power, sum_range_succ, sum_range_zero]; ring

/-! ## One point -/

theorem huber_eq {R : ℝ} (hR : 0 ≤ R) (s : Nat → ℝ) :
    huber R s = if R < stressNorm s then R * stressNorm s - R ^ 2 / 2 else stressNorm s ^ 2 / 2 := by
  unfold huber
  rw [retFactor_mul hR]
  split <;> ring

theorem huber_nonneg {R : ℝ} (hR : 0 ≤ R) (s : Nat → ℝ) : 0 ≤ huber R s := by
  rw [huber_eq hR]
  split
  · rename_i h; nlinarith
  · positivity

theorem huber_mono {R : ℝ} (hR : 0 ≤ R) {s t : Nat → ℝ} (h : stressNorm s ≤ stressNorm t) :
    huber R s ≤ huber R t := by
  have h0 := stressNorm_nonneg s
  rw [huber_eq hR, huber_eq hR]
  split <;> split
  · nlinarith
  · rename_i h1 h2; exact absurd (h1.trans_le h) h2
  · rename_i h1 h2; nlinarith [sq_nonneg (stressNorm s - R)]
  · nlinarith

theorem stressNorm_le_of_abs {s t : Nat → ℝ} (h : ∀ i, i < 6 → |s i| ≤ |t i|) : stressNorm s ≤ stressNorm t := by
  unfold stressNorm
  apply Real.sqrt_le_sqrt
  have := fun i hi => sq_le_sq.mpr (h i hi)
  linarith [this 0 (by omega), this 1 (by omega), this 2 (by omega), this 3 (by omega), this 4 (by omega),
    this 5 (by omega)]

/-- After an evaluation the trial stress at the same strain is not larger. -/
theorem sigTrial_shrinks (m : Material ℝ) (x p : Nat → ℝ) (a : ℝ) (hmu : 0 < m.mu)
    (hR : 0 ≤ yieldRadius m.Sy m.Ka a) :
    stressNorm (sigTrial m x (plasticStep m x p a).epsP) ≤ stressNorm (sigTrial m x p) := by
  by_cases h : 0 < fTrial m x p a
  · refine stressNorm_le_of_abs fun i _ => ?_
    have hf := fTrial_real m x p a
    have hN : 0 < stressNorm (sigTrial m x p) := by linarith
    have h1 : fTrial m x p a / stressNorm (sigTrial m x p) ≤ 1 := by rw [div_le_one hN]; linarith
    have h0 : 0 ≤ fTrial m x p a / stressNorm (sigTrial m x p) := by positivity
    rw [sigTrial_again m x p a hmu.ne' h]
    have hb : ∀ q : ℝ, 0 ≤ q → q ≤ 1 → |(1 - q) * sigTrial m x p i| ≤ |sigTrial m x p i| := by
      intro q q0 q1
      rw [abs_mul, abs_of_nonneg (by linarith)]
      nlinarith [abs_nonneg (sigTrial m x p i)]
    split
    · exact hb _ h0 h1
    · exact hb _ (by linarith) (by linarith)
  · rw [plasticStep_elastic m x p a h]

/-- Energy stored at a point. -/
noncomputable def stored (m : Material ℝ) (x : Nat → ℝ) (s : (Nat → ℝ) × ℝ) : ℝ :=
  radPot ((3 * m.lambda + 2 * m.mu) / 3) m s.1 (huber (yieldRadius m.Sy m.Ka s.2)) x

theorem stored_nonneg {m : Material ℝ} (hJ : m.J2) {a : ℝ} (ha : 0 ≤ a) (x p : Nat → ℝ) :
    0 ≤ stored m x (p, a) := by
  have hR : 0 ≤ yieldRadius m.Sy m.Ka a :=
    mul_nonneg sqrt_two_thirds_pos.le (add_nonneg hJ.Sy.le (mul_nonneg hJ.Ka ha))
  have h1 := huber_nonneg hR (sigTrial m x p)
  have h2 := hJ.bulk_pos
  have h3 := hJ.mu_pos
  unfold stored radPot
  positivity

theorem Material.J2.radius_pos {m : Material ℝ} (hJ : m.J2) {a : ℝ} (ha : 0 ≤ a) : 0 < yieldRadius m.Sy m.Ka a :=
  mul_pos sqrt_two_thirds_pos (add_pos_of_pos_of_nonneg hJ.Sy (mul_nonneg hJ.Ka ha))

/-- The evaluation: the work of the increment covers the rise of the stored energy. -/
theorem stored_work {m : Material ℝ} (hJ : m.J2) {a : ℝ} (ha : 0 ≤ a) (x y p : Nat → ℝ) :
    stored m y (p, a) - stored m x (p, a) ≤ power (plasticStep m y p a).stress (fun i => y i - x i) := by
  have hR := hJ.radius_pos ha
  have hk : 0 < (3 * m.lambda + 2 * m.mu) / 3 := div_pos hJ.bulk_pos (by norm_num)
  have h := radPot_below (p := p) hk hJ.mu_pos (radial_huber hR) y x
  have hq : 0 ≤ 1 / (4 * m.mu + 6 * ((3 * m.lambda + 2 * m.mu) / 3)) * ∑ v ∈ range 6,
      (radLaw ((3 * m.lambda + 2 * m.mu) / 3) m p (fun s => retFactor (stressNorm s) (yieldRadius m.Sy m.Ka a)) x v
        - radLaw ((3 * m.lambda + 2 * m.mu) / 3) m p (fun s => retFactor (stressNorm s) (yieldRadius m.Sy m.Ka a)) y v) ^ 2 :=
    mul_nonneg (by have := hJ.mu_pos; positivity) (sum_nonneg fun _ _ => sq_nonneg _)
  have e : power (plasticStep m y p a).stress (fun i => y i - x i) = - ∑ v ∈ range 6,
      radLaw ((3 * m.lambda + 2 * m.mu) / 3) m p (fun s => retFactor (stressNorm s) (yieldRadius m.Sy m.Ka a)) y v
        * (x v - y v) := by
    rw [power_sum, ← sum_neg_distrib]
    refine sum_congr rfl fun v hv => ?_
    rw [plasticStep_radLaw hJ y p hR.le (mem_range.mp hv)]
    ring
  rw [e]
  unfold stored
  linarith

/-- Storing the new history, no hardening. -/
theorem stored_commit {m : Material ℝ} (hJ : m.J2) (hK : m.Ka = 0) (a : ℝ) (y p : Nat → ℝ) :
    stored m y ((plasticStep m y p a).epsP, (plasticStep m y p a).alpha) ≤ stored m y (p, a) := by
  have hr : ∀ b, yieldRadius m.Sy m.Ka b = yieldRadius m.Sy m.Ka 0 := fun b => by unfold yieldRadius; rw [hK]; ring
  have hR := (hJ.radius_pos le_rfl).le
  have hm := hJ.mu_pos
  have h := huber_mono hR (sigTrial_shrinks m y p a hm (by rw [hr]; exact hR))
  unfold stored radPot
  simp only
  rw [hr a, hr (plasticStep m y p a).alpha]
  have := div_le_div_of_nonneg_right h (by positivity : 0 ≤ 2 * m.mu)
  linarith

/-- Storing the new history, no shear. -/
theorem stored_commit_axial {m : Material ℝ} (hJ : m.J2) {a : ℝ} (ha : 0 ≤ a) (y p : Nat → ℝ)
    (hy : ∀ i, 3 ≤ i → i < 6 → y i = p i) :
    stored m y ((plasticStep m y p a).epsP, (plasticStep m y p a).alpha) ≤ stored m y (p, a) := by
  have hR := hJ.radius_pos ha
  have hm := hJ.mu_pos
  by_cases h : 0 < fTrial m y p a
  · have hf := fTrial_real m y p a
    have hN : 0 < stressNorm (sigTrial m y p) := by linarith
    have ha' : 0 ≤ (plasticStep m y p a).alpha := ha.trans (plasticStep_alpha_le m y p a hm)
    have hle : yieldRadius m.Sy m.Ka a ≤ yieldRadius m.Sy m.Ka (plasticStep m y p a).alpha := by
      unfold yieldRadius
      have := mul_le_mul_of_nonneg_left (plasticStep_alpha_le m y p a hm) hJ.Ka
      exact mul_le_mul_of_nonneg_left (by linarith) sqrt_two_thirds_pos.le
    have hn : stressNorm (sigTrial m y (plasticStep m y p a).epsP) = yieldRadius m.Sy m.Ka a := by
      have e : stressNorm (sigTrial m y (plasticStep m y p a).epsP)
          = stressNorm (fun i => (1 - fTrial m y p a / stressNorm (sigTrial m y p)) * sigTrial m y p i) := by
        refine stressNorm_congr fun i hi => ?_
        rw [sigTrial_again m y p a hm.ne' h]
        split
        · rfl
        · rename_i h3
          have : sigTrial m y p i = 0 := by
            rw [sigTrial_real, if_neg h3]
            simp only [dev, h3, if_false]
            rw [hy i (by omega) hi]; ring
          rw [this]; ring
      have e2 : 1 - fTrial m y p a / stressNorm (sigTrial m y p)
          = yieldRadius m.Sy m.Ka a / stressNorm (sigTrial m y p) := by
        rw [hf]; field_simp; ring
      rw [e, stressNorm_smul, e2, abs_of_nonneg (by positivity), div_mul_cancel₀ _ hN.ne']
    have h1 : huber (yieldRadius m.Sy m.Ka (plasticStep m y p a).alpha) (sigTrial m y (plasticStep m y p a).epsP)
        ≤ huber (yieldRadius m.Sy m.Ka a) (sigTrial m y p) := by
      rw [huber_eq (hR.le.trans hle), huber_eq hR.le, hn, if_neg (by linarith), if_pos (by linarith)]
      nlinarith
    unfold stored radPot
    simp only
    have := div_le_div_of_nonneg_right h1 (by positivity : 0 ≤ 2 * m.mu)
    linarith
  · rw [plasticStep_elastic m y p a h]

theorem stored_virgin (m : Material ℝ) {x : Nat → ℝ} (hx : ∀ i, i < 6 → x i = 0)
    (hR : 0 ≤ yieldRadius m.Sy m.Ka 0) : stored m x (fun _ => 0, 0) = 0 := by
  have h1 : stressNorm (sigTrial m x fun _ => 0) = 0 := by
    have : stressNorm (sigTrial m x fun _ => 0) = stressNorm fun _ => 0 := stressNorm_congr fun i hi => by
      rw [sigTrial_real]
      simp [dev, tr, hx 0, hx 1, hx 2, hx i hi]
    rw [this]; simp [stressNorm]
  unfold stored radPot
  rw [huber_eq hR, h1]
  simp only [tr, hx 0 (by omega), hx 1 (by omega), hx 2 (by omega)]
  split <;> rename_i h
  · exact absurd h (not_lt.mpr hR)
  · norm_num

/-! ## Pure shear -/

/-- Pure shear strain. -/
def shear (g : ℝ) (i : Nat) : ℝ := if i = 3 then g else 0

theorem sigTrial_shear (m : Material ℝ) (g p : ℝ) : sigTrial m (shear g) (shear p) = shear (m.mu * (g - p)) := by
  funext i
  rw [sigTrial_real]
  by_cases h : i = 3
  · subst h; simp [dev, shear]
  · by_cases h3 : i < 3 <;> simp [dev, tr, shear, h, h3]

theorem stressNorm_shear {x : ℝ} (hx : 0 ≤ x) : stressNorm (shear x) = Real.sqrt 2 * x := by
  unfold stressNorm shear
  norm_num
  rw [Real.sqrt_sq hx]

theorem power_shear (s : Nat → ℝ) (g p : ℝ) : power s (fun i => shear g i - shear p i) = s 3 * (g - p) := by
  unfold power shear; norm_num

theorem plasticStep_shear_flow {m : Material ℝ} (hmu : 0 < m.mu) {g p a : ℝ} (hgp : p < g)
    (hR : 0 ≤ yieldRadius m.Sy m.Ka a) (h : yieldRadius m.Sy m.Ka a < Real.sqrt 2 * (m.mu * (g - p))) :
    (plasticStep m (shear g) (shear p) a).stress 3 = yieldRadius m.Sy m.Ka a / Real.sqrt 2 ∧
    (plasticStep m (shear g) (shear p) a).epsP
      = shear (p + (Real.sqrt 2 * (m.mu * (g - p)) - yieldRadius m.Sy m.Ka a) / (2 * Real.sqrt 2 * m.mu)) ∧
    (plasticStep m (shear g) (shear p) a).alpha
      = a + Real.sqrt (2 / 3) * ((Real.sqrt 2 * (m.mu * (g - p)) - yieldRadius m.Sy m.Ka a) / (2 * m.mu)) := by
  have hx : 0 < m.mu * (g - p) := mul_pos hmu (by linarith)
  have h2 : 0 < Real.sqrt 2 := Real.sqrt_pos.mpr (by norm_num)
  have hN : stressNorm (sigTrial m (shear g) (shear p)) = Real.sqrt 2 * (m.mu * (g - p)) := by
    rw [sigTrial_shear, stressNorm_shear hx.le]
  have hf : fTrial m (shear g) (shear p) a = Real.sqrt 2 * (m.mu * (g - p)) - yieldRadius m.Sy m.Ka a := by
    rw [fTrial_real, hN]
  have hf0 : 0 < fTrial m (shear g) (shear p) a := by rw [hf]; linarith
  refine ⟨?_, ?_, ?_⟩
  · have hd := plasticStep_dev m (shear g) (shear p) a hmu.ne' hR 3 (by omega)
    have e : dev (plasticStep m (shear g) (shear p) a).stress 3 = (plasticStep m (shear g) (shear p) a).stress 3 := by
      simp [dev]
    rw [e] at hd
    have hr : retFactor (stressNorm (sigTrial m (shear g) (shear p))) (yieldRadius m.Sy m.Ka a)
        = yieldRadius m.Sy m.Ka a / (Real.sqrt 2 * (m.mu * (g - p))) := by
      unfold retFactor; rw [hN, if_pos h]
    rw [hd, hr, sigTrial_shear]
    simp only [shear, if_true]
    have : g - p ≠ 0 := by linarith
    field_simp
  · rw [plasticStep_flow m _ _ a hf0, hf, hN]
    funext i
    simp only [sigTrial_shear]
    by_cases h : i = 3
    · simp only [shear, h, if_true]
      have : g - p ≠ 0 := by linarith
      field_simp
    · simp [shear, h]
  · rw [plasticStep_flow m _ _ a hf0, hf]

theorem plasticStep_shear_elastic {m : Material ℝ} (hmu : 0 < m.mu) {g p a : ℝ} (hgp : p ≤ g)
    (h : Real.sqrt 2 * (m.mu * (g - p)) ≤ yieldRadius m.Sy m.Ka a) :
    (plasticStep m (shear g) (shear p) a).stress 3 = m.mu * (g - p) := by
  have hx : 0 ≤ m.mu * (g - p) := mul_nonneg hmu.le (by linarith)
  have hN : stressNorm (sigTrial m (shear g) (shear p)) = Real.sqrt 2 * (m.mu * (g - p)) := by
    rw [sigTrial_shear, stressNorm_shear hx]
  have h2 : 0 < Real.sqrt 2 := Real.sqrt_pos.mpr (by norm_num)
  have hd := plasticStep_dev m (shear g) (shear p) a hmu.ne' (le_trans (by positivity) h) 3 (by omega)
  have e : dev (plasticStep m (shear g) (shear p) a).stress 3 = (plasticStep m (shear g) (shear p) a).stress 3 := by
    simp [dev]
  rw [e] at hd
  rw [hd, retFactor, hN, if_neg (not_lt.mpr h), sigTrial_shear]
  simp [shear]

/-- The two strains of a cycle that delivers energy. -/
noncomputable def cycleH (m : Material ℝ) : ℝ := min (m.Ka / (3 * m.mu)) (1 / 4)
noncomputable def cycleZ (m : Material ℝ) : ℝ := 8 / cycleH m
noncomputable def cycle1 (m : Material ℝ) : ℝ :=
  yieldRadius m.Sy m.Ka 0 * (1 + cycleZ m) / (Real.sqrt 2 * m.mu)
noncomputable def cycleP (m : Material ℝ) : ℝ := yieldRadius m.Sy m.Ka 0 * cycleZ m / (2 * Real.sqrt 2 * m.mu)
noncomputable def cycle2 (m : Material ℝ) : ℝ :=
  cycleP m + yieldRadius m.Sy m.Ka 0 * (1 + cycleH m * cycleZ m) / (Real.sqrt 2 * m.mu)

/-- Load and partly unload in shear: more work comes back than went in. -/
theorem shear_cycle {m : Material ℝ} (hJ : m.J2) (hK : 0 < m.Ka) :
    ∃ p a : ℝ, (plasticStep m (shear (cycle1 m)) (shear 0) 0).epsP = shear p ∧
      (plasticStep m (shear (cycle1 m)) (shear 0) 0).alpha = a ∧
      (plasticStep m (shear (cycle1 m)) (shear 0) 0).stress 3 * cycle1 m
        + (plasticStep m (shear (cycle2 m)) (shear p) a).stress 3 * (cycle2 m - cycle1 m) < 0 := by
  have hmu := hJ.mu_pos
  have hR := hJ.radius_pos le_rfl
  have h2 : 0 < Real.sqrt 2 := Real.sqrt_pos.mpr (by norm_num)
  have hsq : Real.sqrt 2 * Real.sqrt 2 = 2 := Real.mul_self_sqrt (by norm_num)
  have hh : 0 < cycleH m := lt_min (by positivity) (by norm_num)
  have hh1 : cycleH m ≤ m.Ka / (3 * m.mu) := min_le_left _ _
  have hh4 : cycleH m ≤ 1 / 4 := min_le_right _ _
  have hz : 0 < cycleZ m := by unfold cycleZ; positivity
  have hhz : cycleH m * cycleZ m = 8 := by unfold cycleZ; field_simp
  have n1 : Real.sqrt 2 * (m.mu * (cycle1 m - 0)) = yieldRadius m.Sy m.Ka 0 * (1 + cycleZ m) := by
    unfold cycle1; field_simp; ring
  obtain ⟨s1, p1, a1⟩ := plasticStep_shear_flow hmu (m := m) (g := cycle1 m) (p := 0) (a := 0)
    (by unfold cycle1; positivity) hR.le (by rw [n1]; nlinarith)
  rw [n1] at p1 a1
  have ep : (0 : ℝ) + (yieldRadius m.Sy m.Ka 0 * (1 + cycleZ m) - yieldRadius m.Sy m.Ka 0) / (2 * Real.sqrt 2 * m.mu)
      = cycleP m := by unfold cycleP; ring
  rw [ep] at p1
  refine ⟨_, _, p1, a1, ?_⟩
  have n2 : Real.sqrt 2 * (m.mu * (cycle2 m - cycleP m)) = yieldRadius m.Sy m.Ka 0 * (1 + cycleH m * cycleZ m) := by
    unfold cycle2; field_simp; ring
  have hr : yieldRadius m.Sy m.Ka (0 + Real.sqrt (2 / 3) * ((yieldRadius m.Sy m.Ka 0 * (1 + cycleZ m)
      - yieldRadius m.Sy m.Ka 0) / (2 * m.mu))) = yieldRadius m.Sy m.Ka 0 * (1 + m.Ka / (3 * m.mu) * cycleZ m) := by
    have h23 : Real.sqrt (2 / 3) * Real.sqrt (2 / 3) = 2 / 3 := Real.mul_self_sqrt (by norm_num)
    have e : yieldRadius m.Sy m.Ka (0 + Real.sqrt (2 / 3) * ((yieldRadius m.Sy m.Ka 0 * (1 + cycleZ m)
      - yieldRadius m.Sy m.Ka 0) / (2 * m.mu))) = yieldRadius m.Sy m.Ka 0
        + Real.sqrt (2 / 3) * Real.sqrt (2 / 3) * m.Ka * (yieldRadius m.Sy m.Ka 0 * cycleZ m / (2 * m.mu)) := by
      have ey : ∀ x : ℝ, yieldRadius m.Sy m.Ka (0 + Real.sqrt (2 / 3) * x) = yieldRadius m.Sy m.Ka 0
          + Real.sqrt (2 / 3) * Real.sqrt (2 / 3) * m.Ka * x := fun x => by unfold yieldRadius; ring
      rw [ey]
      ring
    rw [e, h23]; field_simp
  have s2 := plasticStep_shear_elastic hmu (m := m) (g := cycle2 m) (p := cycleP m)
    (a := 0 + Real.sqrt (2 / 3) * ((yieldRadius m.Sy m.Ka 0 * (1 + cycleZ m)
      - yieldRadius m.Sy m.Ka 0) / (2 * m.mu))) (by
      have : 0 < yieldRadius m.Sy m.Ka 0 * (1 + 8) / (Real.sqrt 2 * m.mu) := by positivity
      unfold cycle2
      rw [hhz]
      linarith) (by
      rw [n2, hr]
      refine mul_le_mul_of_nonneg_left ?_ hR.le
      have := mul_le_mul_of_nonneg_right hh1 hz.le
      linarith)
  rw [s1, s2]
  have d1 : cycle2 m - cycle1 m = - (yieldRadius m.Sy m.Ka 0 / (Real.sqrt 2 * m.mu) * ((1 / 2 - cycleH m) * cycleZ m)) := by
    unfold cycle2 cycle1 cycleP; field_simp; ring
  have d2 : m.mu * (cycle2 m - cycleP m) = yieldRadius m.Sy m.Ka 0 / Real.sqrt 2 * (1 + cycleH m * cycleZ m) := by
    unfold cycle2; field_simp; ring
  have e : yieldRadius m.Sy m.Ka 0 / Real.sqrt 2 * cycle1 m + m.mu * (cycle2 m - cycleP m) * (cycle2 m - cycle1 m)
      = yieldRadius m.Sy m.Ka 0 ^ 2 / (2 * m.mu) * ((1 + cycleZ m)
        - (1 + cycleH m * cycleZ m) * ((1 / 2 - cycleH m) * cycleZ m)) := by
    rw [d1, d2]
    unfold cycle1
    have e2 : yieldRadius m.Sy m.Ka 0 ^ 2 / (2 * m.mu)
        = yieldRadius m.Sy m.Ka 0 / Real.sqrt 2 * (yieldRadius m.Sy m.Ka 0 / (Real.sqrt 2 * m.mu)) := by
      rw [div_mul_div_comm, ← mul_assoc, hsq, sq]
    rw [e2]
    ring
  rw [e]
  refine mul_neg_of_pos_of_neg (by positivity) ?_
  rw [hhz]
  have : 32 ≤ cycleZ m := by nlinarith
  nlinarith

end Verif
