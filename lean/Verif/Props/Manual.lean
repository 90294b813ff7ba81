import Verif.Spec.Manual
import Verif.Props.Plastic

/-!
# C92: the plasticity algorithm of the manual

`plastic_step` (/repo/src/assembly.cpp:1007-1062) against the algorithm printed in the manual
(/repo/doc/manual.tex:85-142), read with 3 x 3 tensors (`Spec/Manual.lean`).
-/

namespace Verif.Props
open Spec

/-- The constants of a material in the manual's notation. -/
def consts (m : Material ℝ) : Manual.Consts := { k := m.k, mu := m.mu, sy := m.Sy, ka := m.Ka }

/-- The manual's step for a strain and a plastic strain given by their six components. -/
noncomputable def manualStep (m : Material ℝ) (eps epsP : Nat → ℝ) (alpha : ℝ) : Manual.Result :=
  Manual.step (consts m) (Manual.strainTensor eps) (Manual.strainTensor epsP) alpha

/-- The manual's yield function. -/
noncomputable def manualYield (m : Material ℝ) (eps epsP : Nat → ℝ) (alpha : ℝ) : ℝ :=
  Manual.yield (consts m) (Manual.strainTensor eps) (Manual.strainTensor epsP) alpha

theorem manual_trace (e : Nat → ℝ) : Manual.trace (Manual.strainTensor e) = tr e := by
  simp [Manual.trace, Manual.strainTensor, Manual.slot, Fin.sum_univ_three, tr]

theorem manual_trial (m : Material ℝ) (e p : Nat → ℝ) :
    Manual.trial (consts m) (Manual.strainTensor e) (Manual.strainTensor p)
      = Manual.stressTensor (sigTrial m e p) := by
  funext i j
  unfold Manual.trial Manual.deviator Manual.stressTensor
  rw [manual_trace, manual_trace]
  simp only [sigTrial_real, dev]
  fin_cases i <;> fin_cases j <;>
    simp [Manual.strainTensor, Manual.slot, Manual.unit, consts] <;> ring

theorem manual_norm (s : Nat → ℝ) : Manual.norm (Manual.stressTensor s) = stressNorm s := by
  unfold Manual.norm stressNorm
  congr 1
  simp [Manual.stressTensor, Manual.slot, Fin.sum_univ_three]
  ring

theorem manual_yield (m : Material ℝ) (e p : Nat → ℝ) (a : ℝ) : manualYield m e p a = fTrial m e p a := by
  unfold manualYield Manual.yield
  rw [manual_trial, manual_norm, fTrial_real]
  rfl

theorem slot_lt (i j : Fin 3) : Manual.slot i j < 6 := by fin_cases i <;> fin_cases j <;> decide

theorem slot_diag (i j : Fin 3) : Manual.slot i j < 3 ↔ i = j := by fin_cases i <;> fin_cases j <;> decide

theorem slot_surj {v : Nat} (hv : v < 6) : ∃ i j, Manual.slot i j = v := by
  interval_cases v
  exacts [⟨0, 0, rfl⟩, ⟨1, 1, rfl⟩, ⟨2, 2, rfl⟩, ⟨0, 1, rfl⟩, ⟨0, 2, rfl⟩, ⟨1, 2, rfl⟩]

/-- The stress of the code, with its own step length. -/
theorem code_stress (m : Material ℝ) (e p : Nat → ℝ) (a : ℝ) (hmu : m.mu ≠ 0) (i j : Fin 3) :
    Manual.stressTensor (plasticStep m e p a).stress i j
      = m.k * tr e * Manual.unit i j + sigTrial m e p (Manual.slot i j)
        - (if 0 < fTrial m e p a then fTrial m e p a else 0)
          * (sigTrial m e p (Manual.slot i j) / stressNorm (sigTrial m e p)) := by
  have hd : (if Manual.slot i j < 3 then sigTrial m e p (Manual.slot i j) + m.k * tr e
      else sigTrial m e p (Manual.slot i j)) = m.k * tr e * Manual.unit i j + sigTrial m e p (Manual.slot i j) := by
    unfold Manual.unit
    by_cases h : i = j
    · rw [if_pos ((slot_diag i j).mpr h), if_pos h]; ring
    · rw [if_neg (fun h' => h ((slot_diag i j).mp h')), if_neg h]; ring
  unfold Manual.stressTensor
  by_cases h : 0 < fTrial m e p a
  · rw [plasticStep_flow m e p a h, if_pos h]
    simp only [plasticStress_real]
    rw [hd]
    field_simp
  · rw [plasticStep_elastic m e p a h, if_neg h]
    simp only [plasticStress_real]
    rw [hd]
    ring

/-- The stress of the manual. -/
theorem manual_stress (m : Material ℝ) (e p : Nat → ℝ) (a : ℝ) (hmu : m.mu ≠ 0) (i j : Fin 3) :
    (manualStep m e p a).stress i j
      = m.k * tr e * Manual.unit i j + sigTrial m e p (Manual.slot i j)
        - (if 0 < fTrial m e p a then fTrial m e p a / (1 + m.Ka) else 0)
          * (sigTrial m e p (Manual.slot i j) / stressNorm (sigTrial m e p)) := by
  have hy := manual_yield m e p a
  unfold manualYield at hy
  unfold manualStep Manual.step
  rw [hy]
  by_cases h : fTrial m e p a < 0
  · rw [if_pos h, if_neg (by linarith)]
    simp only [manual_trial, manual_trace]
    show m.k * tr e * _ + _ = _
    unfold Manual.stressTensor
    ring
  · rw [if_neg h]
    simp only [manual_trial, manual_trace, Manual.gamma, Manual.normal, manual_norm, hy]
    show m.k * tr e * _ + _ - 2 * m.mu * (_ / (2 * m.mu * (1 + m.Ka))) * _ = _
    unfold Manual.stressTensor
    have e1 : 2 * m.mu * (fTrial m e p a / (2 * m.mu * (1 + m.Ka))) = fTrial m e p a / (1 + m.Ka) := by
      rw [mul_div_assoc', mul_div_mul_left _ _ (mul_ne_zero two_ne_zero hmu)]
    rw [e1]
    by_cases h0 : 0 < fTrial m e p a
    · rw [if_pos h0]
    · have : fTrial m e p a = 0 := le_antisymm (not_lt.mp h0) (not_lt.mp h)
      rw [this]; simp

/-- The hardening variable of the manual. -/
theorem manual_alpha (m : Material ℝ) (e p : Nat → ℝ) (a : ℝ) :
    (manualStep m e p a).alpha = a + Real.sqrt (2 / 3)
      * ((if 0 < fTrial m e p a then fTrial m e p a else 0) / (2 * m.mu * (1 + m.Ka))) := by
  have hy := manual_yield m e p a
  unfold manualYield at hy
  unfold manualStep Manual.step
  rw [hy]
  by_cases h : fTrial m e p a < 0
  · rw [if_pos h, if_neg (by linarith)]; simp
  · rw [if_neg h]
    simp only [Manual.gamma, hy]
    show a + _ * (_ / (2 * m.mu * (1 + m.Ka))) = _
    by_cases h0 : 0 < fTrial m e p a
    · rw [if_pos h0]
    · have : fTrial m e p a = 0 := le_antisymm (not_lt.mp h0) (not_lt.mp h)
      rw [this]; simp

theorem code_alpha (m : Material ℝ) (e p : Nat → ℝ) (a : ℝ) :
    (plasticStep m e p a).alpha = a + Real.sqrt (2 / 3)
      * ((if 0 < fTrial m e p a then fTrial m e p a else 0) / (2 * m.mu)) := by
  by_cases h : 0 < fTrial m e p a
  · rw [plasticStep_flow m e p a h, if_pos h]
  · rw [plasticStep_elastic m e p a h, if_neg h]; simp

/-- **C92**, yield: the code reports plastic flow exactly when the manual's yield function is positive. -/
theorem C92_yield (m : Material ℝ) (eps epsP : Nat → ℝ) (alpha : ℝ) :
    (plasticStep m eps epsP alpha).nl = true ↔ 0 < manualYield m eps epsP alpha := by
  rw [manual_yield, plasticStep_nl, fTrial_real, sub_pos]

/-- **C92**, where it holds: for a perfectly plastic material (`Ka = 0`), and for every material at or below
yield, the code returns the manual's stress and hardening variable. -/
theorem C92_law_partial (m : Material ℝ) (eps epsP : Nat → ℝ) (alpha : ℝ) (hmu : 0 < m.mu)
    (h : m.Ka = 0 ∨ manualYield m eps epsP alpha ≤ 0) :
    Manual.stressTensor (plasticStep m eps epsP alpha).stress = (manualStep m eps epsP alpha).stress ∧
    (plasticStep m eps epsP alpha).alpha = (manualStep m eps epsP alpha).alpha := by
  rw [manual_yield] at h
  constructor
  · funext i j
    rw [code_stress m _ _ _ hmu.ne', manual_stress m _ _ _ hmu.ne']
    rcases h with h | h
    · rw [h, add_zero, div_one]
    · rw [if_neg (not_lt.mpr h), if_neg (not_lt.mpr h)]
  · rw [code_alpha, manual_alpha]
    rcases h with h | h
    · rw [h, add_zero, mul_one]
    · rw [if_neg (not_lt.mpr h), zero_div, zero_div]

/-- **C92** fails for every hardening material beyond yield: both the stress and the hardening variable
differ from the manual's. -/
theorem C92_law_fails (m : Material ℝ) (eps epsP : Nat → ℝ) (alpha : ℝ) (hm : PlasticOk m alpha) (hK : 0 < m.Ka)
    (h : 0 < manualYield m eps epsP alpha) :
    Manual.stressTensor (plasticStep m eps epsP alpha).stress ≠ (manualStep m eps epsP alpha).stress ∧
    (manualStep m eps epsP alpha).alpha < (plasticStep m eps epsP alpha).alpha := by
  rw [manual_yield] at h
  have h1 : fTrial m eps epsP alpha / (1 + m.Ka) < fTrial m eps epsP alpha := by
    rw [div_lt_iff₀ (by linarith)]; nlinarith
  have hN : 0 < stressNorm (sigTrial m eps epsP) := by
    have := fTrial_real m eps epsP alpha
    have := hm.radius
    linarith
  constructor
  · intro he
    have hz : ∀ v, v < 6 → sigTrial m eps epsP v = 0 := by
      intro v hv
      obtain ⟨i, j, rfl⟩ := slot_surj hv
      have := congrFun (congrFun he i) j
      rw [code_stress m _ _ _ hm.mu.ne', manual_stress m _ _ _ hm.mu.ne', if_pos h, if_pos h] at this
      have h2 : (fTrial m eps epsP alpha - fTrial m eps epsP alpha / (1 + m.Ka))
          * (sigTrial m eps epsP (Manual.slot i j) / stressNorm (sigTrial m eps epsP)) = 0 := by linarith
      rcases mul_eq_zero.mp h2 with h3 | h3
      · linarith
      · rcases div_eq_zero_iff.mp h3 with h4 | h4
        · exact h4
        · exact absurd h4 hN.ne'
    have : stressNorm (sigTrial m eps epsP) = stressNorm fun _ => 0 := stressNorm_congr hz
    rw [this] at hN
    unfold stressNorm at hN
    norm_num at hN
  · rw [code_alpha, manual_alpha, if_pos h]
    have h2 : 0 < Real.sqrt (2 / 3) := sqrt_two_thirds_pos
    have h3 : fTrial m eps epsP alpha / (2 * m.mu * (1 + m.Ka)) < fTrial m eps epsP alpha / (2 * m.mu) :=
      div_lt_div_of_pos_left h (by linarith [hm.mu]) (by nlinarith [hm.mu])
    have := mul_lt_mul_of_pos_left h3 h2
    linarith

/-- **C92**, plastic strain: the code adds the flow, the manual subtracts it, so the two plastic strains agree
exactly when there is no flow. -/
theorem C92_plastic_strain (m : Material ℝ) (eps epsP : Nat → ℝ) (alpha : ℝ) (hm : PlasticOk m alpha) :
    Manual.strainTensor (plasticStep m eps epsP alpha).epsP = (manualStep m eps epsP alpha).epsP ↔
      manualYield m eps epsP alpha ≤ 0 := by
  have hy := manual_yield m eps epsP alpha
  constructor
  · intro he
    by_contra h
    rw [hy, not_le] at h
    have hN : 0 < stressNorm (sigTrial m eps epsP) := by
      have := fTrial_real m eps epsP alpha
      have := hm.radius
      linarith
    have hK : 0 < 1 + m.Ka := by linarith [hm.Ka]
    have hz : ∀ v, v < 6 → sigTrial m eps epsP v = 0 := by
      intro v hv
      obtain ⟨i, j, rfl⟩ := slot_surj hv
      have h1 := congrFun (congrFun he i) j
      unfold manualStep Manual.step at h1
      unfold manualYield at hy
      rw [hy, if_neg (by linarith), plasticStep_flow m _ _ _ h] at h1
      simp only [Manual.gamma, Manual.normal, manual_trial, manual_norm, hy] at h1
      have hg : 0 < fTrial m eps epsP alpha / (2 * m.mu * (1 + m.Ka)) :=
        div_pos h (mul_pos (by linarith [hm.mu]) hK)
      have hd : 0 < fTrial m eps epsP alpha / (2 * m.mu) := div_pos h (by linarith [hm.mu])
      have h2 : ∃ c : ℝ, 0 < c ∧ c * (sigTrial m eps epsP (Manual.slot i j)
          / stressNorm (sigTrial m eps epsP)) = 0 := by
        by_cases hij : i = j
        · refine ⟨fTrial m eps epsP alpha / (2 * m.mu) + fTrial m eps epsP alpha / (2 * m.mu * (1 + m.Ka)),
            by linarith, ?_⟩
          simp only [Manual.strainTensor, if_pos hij] at h1
          have h1 : epsP (Manual.slot i j) + fTrial m eps epsP alpha / (2 * m.mu) * (sigTrial m eps epsP
            (Manual.slot i j) / stressNorm (sigTrial m eps epsP)) = epsP (Manual.slot i j) - fTrial m eps epsP alpha
              / (2 * m.mu * (1 + m.Ka)) * (sigTrial m eps epsP (Manual.slot i j)
              / stressNorm (sigTrial m eps epsP)) := h1
          linarith
        · refine ⟨fTrial m eps epsP alpha / (2 * m.mu) / 2 + fTrial m eps epsP alpha / (2 * m.mu * (1 + m.Ka)),
            by linarith, ?_⟩
          simp only [Manual.strainTensor, if_neg hij] at h1
          have h1 : (epsP (Manual.slot i j) + fTrial m eps epsP alpha / (2 * m.mu) * (sigTrial m eps epsP
            (Manual.slot i j) / stressNorm (sigTrial m eps epsP))) / 2 = epsP (Manual.slot i j) / 2
              - fTrial m eps epsP alpha / (2 * m.mu * (1 + m.Ka)) * (sigTrial m eps epsP (Manual.slot i j)
              / stressNorm (sigTrial m eps epsP)) := h1
          linarith
      obtain ⟨c, hc, h2⟩ := h2
      rcases mul_eq_zero.mp h2 with h3 | h3
      · linarith
      · rcases div_eq_zero_iff.mp h3 with h4 | h4
        · exact h4
        · exact absurd h4 hN.ne'
    have : stressNorm (sigTrial m eps epsP) = stressNorm fun _ => 0 := stressNorm_congr hz
    rw [this] at hN
    unfold stressNorm at hN
    norm_num at hN
  · intro h
    rw [hy] at h
    rw [plasticStep_elastic m _ _ _ (not_lt.mpr h)]
    unfold manualStep Manual.step
    unfold manualYield at hy
    rw [hy]
    by_cases h0 : fTrial m eps epsP alpha < 0
    · rw [if_pos h0]
    · have h1 : fTrial m eps epsP alpha = 0 := le_antisymm h (not_lt.mp h0)
      rw [if_neg h0]
      funext i j
      simp only [Manual.gamma, hy, h1]
      simp

/-- The manual's formula itself does not return to the yield surface of the new hardening variable, except
for `Ka = 0` or the modulus `μ = 1/3`. -/
theorem C92_manual_consistency (m : Material ℝ) (eps epsP : Nat → ℝ) (alpha : ℝ) (hm : PlasticOk m alpha)
    (h : 0 < manualYield m eps epsP alpha) :
    Manual.norm (Manual.deviator (manualStep m eps epsP alpha).stress)
      = Manual.radius (consts m) (manualStep m eps epsP alpha).alpha ↔ m.Ka = 0 ∨ 3 * m.mu = 1 := by
  rw [manual_yield] at h
  have hf := fTrial_real m eps epsP alpha
  have hR := hm.radius
  have hK : 0 < 1 + m.Ka := by linarith [hm.Ka]
  have hmu := hm.mu
  set f := fTrial m eps epsP alpha with hfd
  set N := stressNorm (sigTrial m eps epsP) with hNd
  have hN : 0 < N := by linarith
  set c := 1 - f / (1 + m.Ka) / N with hc
  have hs : Manual.deviator (manualStep m eps epsP alpha).stress
      = Manual.stressTensor (fun v => c * sigTrial m eps epsP v) := by
    have ht := sigTrial_tr m eps epsP
    unfold tr at ht
    have hst : ∀ i j, (manualStep m eps epsP alpha).stress i j
        = m.k * tr eps * Manual.unit i j + c * sigTrial m eps epsP (Manual.slot i j) := by
      intro i j
      rw [manual_stress m _ _ _ hmu.ne', ← hfd, if_pos h, ← hNd, hc]; ring
    have htr : Manual.trace (manualStep m eps epsP alpha).stress = 3 * (m.k * tr eps) := by
      unfold Manual.trace
      rw [Fin.sum_univ_three, hst, hst, hst]
      simp only [Manual.unit, Manual.slot]
      simp
      linear_combination c * ht
    funext i j
    unfold Manual.deviator Manual.stressTensor
    rw [htr, hst]; ring
  have hcN : 0 ≤ c := by
    rw [hc, sub_nonneg, div_le_one hN, div_le_iff₀ hK]
    nlinarith [hm.Ka]
  rw [hs, manual_norm, stressNorm_smul, abs_of_nonneg hcN, ← hNd, manual_alpha, ← hfd, if_pos h]
  unfold Manual.radius
  show c * N = Real.sqrt (2 / 3) * (m.Sy + m.Ka * _) ↔ _
  have e1 : c * N = N - f / (1 + m.Ka) := by rw [hc]; field_simp
  have e2 : Real.sqrt (2 / 3) * Real.sqrt (2 / 3) = 2 / 3 := Real.mul_self_sqrt (by norm_num)
  have e3 : Real.sqrt (2 / 3) * (m.Sy + m.Ka * (alpha + Real.sqrt (2 / 3) * (f / (2 * m.mu * (1 + m.Ka)))))
      = yieldRadius m.Sy m.Ka alpha + 2 / 3 * (m.Ka * (f / (2 * m.mu * (1 + m.Ka)))) := by
    unfold yieldRadius
    linear_combination (m.Ka * (f / (2 * m.mu * (1 + m.Ka)))) * e2
  rw [e1, e3, show N = f + yieldRadius m.Sy m.Ka alpha by linarith]
  have e4 : f + yieldRadius m.Sy m.Ka alpha - f / (1 + m.Ka)
      = yieldRadius m.Sy m.Ka alpha + 2 / 3 * (m.Ka * (f / (2 * m.mu * (1 + m.Ka)))) ↔
        m.Ka * f * (3 * m.mu - 1) = 0 := by
    constructor
    · intro h1
      have : f - f / (1 + m.Ka) - 2 / 3 * (m.Ka * (f / (2 * m.mu * (1 + m.Ka)))) = 0 := by linarith
      field_simp at this
      linarith
    · intro h1
      have : f - f / (1 + m.Ka) - 2 / 3 * (m.Ka * (f / (2 * m.mu * (1 + m.Ka)))) = 0 := by
        field_simp
        linarith
      linarith
  rw [e4]
  constructor
  · intro h1
    rcases mul_eq_zero.mp h1 with h2 | h2
    · rcases mul_eq_zero.mp h2 with h3 | h3
      · exact Or.inl h3
      · linarith
    · exact Or.inr (by linarith)
  · rintro (h1 | h1)
    · rw [h1]; ring
    · rw [h1]; ring

/-- **C92**, tangent: what the manual writes into row `i`, the code writes into column `i`; the stress is the
one `plastic_step` returns for the strain and the stored history. -/
theorem C92_tangent (c : Cfg ℝ) (u varsOld varsNew : Buf ℝ) (ex ey ez gp : Nat)
    (eps : Nat → ℝ) (m : Material ℝ)
    (hmat : getMaterial c (gloElem3D c.nx c.ny ex ey ez) = .ok m) (hpl : m.plasticity = true)
    (hO : intvarIx (gloElem3D c.nx c.ny ex ey ez) gp 6 < varsOld.size)
    (hN : intvarIx (gloElem3D c.nx c.ny ex ey ez) gp 6 < varsNew.size)
    (heps : getStrain3D c u ex ey ez gp = .ok eps) :
    ∃ o, getCtanPlastPert c u varsOld varsNew ex ey ez gp = .ok o ∧
      ∀ i j, i < 6 → j < 6 → o.ctan j i = Manual.tangent
        (fun e => (plasticStep m e
          (fun l => if l < 6 then varsOld.val (intvarIx (gloElem3D c.nx c.ny ex ey ez) gp l) else 0)
          (varsOld.val (intvarIx (gloElem3D c.nx c.ny ex ey ez) gp 6))).stress) (1 / 10 ^ 8) eps i j := by
  have ht : c.microType = 0 ∨ c.microType = 1 := by
    by_contra hc; unfold getMaterial at hmat; rw [if_neg hc] at hmat; cases hmat
  have he : gloElem3D c.nx c.ny ex ey ez < c.elemType.size := by
    by_contra hc
    unfold getMaterial Buf.read at hmat
    rw [if_pos ht, if_neg hc] at hmat; cases hmat
  have hmm : matOf c (gloElem3D c.nx c.ny ex ey ez) = m := by
    rw [getMaterial_eq ht he] at hmat; cases hmat; rfl
  have hdeps : (1.0e-8 : ℝ) = 1 / 10 ^ 8 := by norm_num
  have hstress : ∀ (eps' : Nat → ℝ) (v : Buf ℝ),
      intvarIx (gloElem3D c.nx c.ny ex ey ez) gp 6 < v.size →
      ∃ o, getStress3D c varsOld v ex ey ez gp eps' = .ok o ∧ o.varsNew.size = v.size ∧
        o.stress = (plasticStep m eps' (epsPAt varsOld (gloElem3D c.nx c.ny ex ey ez) gp)
          (alphaAt varsOld (gloElem3D c.nx c.ny ex ey ez) gp)).stress := by
    intro eps' v hv
    refine ⟨_, getStress3D_eq ht he hO hv, ?_⟩
    rw [hmm]; unfold stressOut; simp only [hpl, if_true]
    exact ⟨rfl, trivial⟩
  obtain ⟨s0, hs0, hz0, hv0⟩ := hstress eps varsNew hN
  unfold getCtanPlastPert
  simp only [heps, M_bind_ok', hs0]
  obtain ⟨o, h1, h2⟩ := loop_inv (n := 6) (s := ({ ctan := fun _ _ => 0, varsNew := s0.varsNew } : CtanOut ℝ))
    (f := fun i s => do
      let r ← getStress3D c varsOld s.varsNew ex ey ez gp
        (fun j => if j = i then eps j + 1.0e-8 else eps j)
      pure { ctan := fun j l => if l = i then (r.stress j - s0.stress j) / 1.0e-8 else s.ctan j l
             varsNew := r.varsNew })
    (P := fun k s => intvarIx (gloElem3D c.nx c.ny ex ey ez) gp 6 < s.varsNew.size ∧
      ∀ i j, i < k → s.ctan j i = Manual.tangent
        (fun e => (plasticStep m e (epsPAt varsOld (gloElem3D c.nx c.ny ex ey ez) gp)
          (alphaAt varsOld (gloElem3D c.nx c.ny ex ey ez) gp)).stress) (1 / 10 ^ 8) eps i j)
    ⟨by simp only; omega, by intro i l hl; omega⟩ (by
      rintro k s hk6 ⟨hsz, hc⟩
      obtain ⟨r, hr, hrz, hrv⟩ := hstress (fun j => if j = k then eps j + 1.0e-8 else eps j) s.varsNew hsz
      refine ⟨_, by rw [hr]; rfl, ?_, ?_⟩
      · simp only; omega
      · intro i j hi
        simp only
        by_cases hik : i = k
        · subst hik
          rw [if_pos rfl, hrv, hv0, hdeps]
          rfl
        · rw [if_neg hik]; exact hc i j (by omega))
  exact ⟨o, h1, fun i j hi _ => h2.2 i j hi⟩

/-! ### Witnesses -/

/-- A hardening material under the strain `(1, -1, 0, 1, 0, 0)`: beyond yield, so the stresses differ. -/
example : 0 < manualYield (exMat 1 1 true) (exStrain 1) (fun _ => 0) 0 ∧
    Manual.stressTensor (plasticStep (exMat 1 1 true) (exStrain 1) (fun _ => 0) 0).stress
      ≠ (manualStep (exMat 1 1 true) (exStrain 1) (fun _ => 0) 0).stress ∧
    Manual.strainTensor (plasticStep (exMat 1 1 true) (exStrain 1) (fun _ => 0) 0).epsP
      ≠ (manualStep (exMat 1 1 true) (exStrain 1) (fun _ => 0) 0).epsP ∧
    Manual.norm (Manual.deviator (manualStep (exMat 1 1 true) (exStrain 1) (fun _ => 0) 0).stress)
      ≠ Manual.radius (consts (exMat 1 1 true)) (manualStep (exMat 1 1 true) (exStrain 1) (fun _ => 0) 0).alpha := by
  have h := (C92_yield (exMat 1 1 true) (exStrain 1) (fun _ => 0) 0).mp (exStrain_yields 1 1 1 le_rfl true)
  have hm : PlasticOk (exMat 1 1 true) 0 := exMat_ok zero_le_one zero_le_one le_rfl true
  refine ⟨h, (C92_law_fails _ _ _ _ hm zero_lt_one h).1, fun he => ?_, fun he => ?_⟩
  · exact absurd ((C92_plastic_strain _ _ _ _ hm).mp he) (not_le.mpr h)
  · rcases (C92_manual_consistency _ _ _ _ hm h).mp he with h1 | h1 <;> norm_num [exMat] at h1

/-- A perfectly plastic material under the same strain: the manual's stress, although it yields. -/
example : 0 < manualYield (exMat 1 0 true) (exStrain 1) (fun _ => 0) 0 ∧
    Manual.stressTensor (plasticStep (exMat 1 0 true) (exStrain 1) (fun _ => 0) 0).stress
      = (manualStep (exMat 1 0 true) (exStrain 1) (fun _ => 0) 0).stress :=
  ⟨(C92_yield (exMat 1 0 true) (exStrain 1) (fun _ => 0) 0).mp (exStrain_yields 1 0 1 le_rfl true),
    (C92_law_partial _ _ _ _ (by norm_num [exMat]) (Or.inl rfl)).1⟩

/-- The tangent of the plastic element of the example cell. -/
example : ∃ o, getCtanPlastPert (exCfg 100 1 true) ⟨24, fun _ => 0⟩ exVars exVars 0 0 0 0 = .ok o ∧
      ∀ i j, i < 6 → j < 6 → o.ctan j i = Manual.tangent
        (fun e => (plasticStep (exMat 100 1 true) e
          (fun l => if l < 6 then exVars.val (intvarIx (gloElem3D 2 2 0 0 0) 0 l) else 0)
          (exVars.val (intvarIx (gloElem3D 2 2 0 0 0) 0 6))).stress) (1 / 10 ^ 8) (fun _ => 0) i j :=
  C92_tangent (exCfg 100 1 true) ⟨24, fun _ => 0⟩ exVars exVars 0 0 0 0 _ (exMat 100 1 true)
    (getMaterial_eq (c := exCfg 100 1 true) (Or.inl rfl) (by decide)) rfl (by decide) (by decide) exStrain_zero

end Verif.Props
