import Verif.Lemmas.ThinEx
import Verif.Lemmas.History

/-!
# Runs of the concrete cell of two elements
-/

namespace Verif
open Spec Finset

variable {c : Cfg ℝ}

/-- The memory contents of `exJunk`, with a tolerance that no strain satisfies. -/
noncomputable def exJunkT : Junk ℝ := { exJunk with invTol := -1 }

/-- A shear strain. -/
noncomputable def exShear (v : Nat) : ℝ := if v = 3 then 1 else 0

theorem IsT.nelem (hT : IsT c) : c.nelem = 2 := by
  rw [nelem3 hT.dim, hT.nx, hT.ny, hT.nz]

theorem IsT.num (hT : IsT c) : c.numIntVars = 112 := by
  unfold Cfg.numIntVars; rw [hT.nelem]

theorem IsT.mem (hT : IsT c) (e : Nat × Nat × Nat) :
    e ∈ c.fe.elems ↔ e = (0, 0, 0) ∨ e = (0, 1, 0) := by
  obtain ⟨a, b, d⟩ := e
  rw [Cfg.fe_3 hT.dim, Fe.mem_elems]
  unfold Cfg.F3
  rw [hT.nx, hT.ny, hT.nz]
  simp only [fe3, Prod.mk.injEq]
  omega

theorem IsT.el0 (hT : IsT c) : c.el 0 0 0 = 0 := by
  unfold Cfg.el; rw [hT.nx, hT.ny]; rfl

theorem IsT.el1 (hT : IsT c) : c.el 0 1 0 = 1 := by
  unfold Cfg.el; rw [hT.nx, hT.ny]; rfl

theorem IsT.plastic (hT : IsT c) {k : Nat} (hk : k < 56) : PlasticVar c k :=
  ⟨by rw [hT.num]; omega, by rw [Nat.div_eq_of_lt hk, hT.low]⟩

theorem IsT.elastic (hT : IsT c) {k : Nat} (h1 : 56 ≤ k) (h2 : k < 112) : ¬ PlasticVar c k := by
  rintro ⟨-, h⟩
  have : k / 56 = 1 := by omega
  rw [this, hT.high] at h
  cases h

theorem ptStep_zero (hT : IsT c) {vo : Buf ℝ} (hv : ∀ k, k < 112 → vo.val k = 0) {gp : Nat}
    (hg : gp < 8) (eps : Nat → ℝ) :
    ptStep c vo 0 gp eps = plasticStep ⟨10, 1 / 4, 20 / 3, 4, 4, 1, 1, true, false⟩ eps (fun _ => 0) 0 := by
  unfold ptStep
  rw [hT.low]
  congr 1
  · funext i
    unfold epsPAt intvarIx
    split
    · exact hv _ (by omega)
    · rfl
  · unfold alphaAt intvarIx
    exact hv _ (by omega)

theorem fTrial_shear :
    0 < fTrial (⟨10, 1 / 4, 20 / 3, 4, 4, 1, 1, true, false⟩ : Material ℝ) exShear (fun _ => 0) 0 := by
  rw [fTrial_real, sub_pos]
  unfold yieldRadius stressNorm
  simp only [sigTrial_real]
  rw [show (1 : ℝ) + 1 * 0 = 1 by norm_num, mul_one]
  refine Real.sqrt_lt_sqrt (by norm_num) ?_
  norm_num [dev, tr, exShear]

theorem fTrial_null :
    ¬ 0 < fTrial (⟨10, 1 / 4, 20 / 3, 4, 4, 1, 1, true, false⟩ : Material ℝ) (fun _ => 0) (fun _ => 0) 0 := by
  rw [fTrial_real, sub_pos]
  unfold yieldRadius stressNorm
  simp only [sigTrial_real]
  norm_num [dev, tr]
  positivity

theorem T_shear (hT : IsT c) {w : Work ℝ} (hv : ∀ k, k < 112 → w.varsOld.val k = 0)
    {eps : Nat → ℝ} (he : ∀ v, v < 6 → eps v = exShear v) {r : PertOut ℝ} (h : ThinOut c w eps r) :
    r.nr.nl = true ∧ r.nr.work.varsNew.val 3 ≠ 0 ∧
      r.nr.work.varsNew.val 59 = w.varsNew.val 59 := by
  refine ⟨?_, ?_, h.elast _ (hT.elastic (by omega) (by omega))⟩
  · rw [h.nl]
    refine ⟨(0, 0, 0), (hT.mem _).mpr (Or.inl rfl), ?_, ?_⟩
    · show (matOf c (c.el 0 0 0)).plasticity = true
      rw [hT.el0, hT.low]
    · show (ptStep c w.varsOld (c.el 0 0 0) 7 eps).nl = true
      rw [hT.el0, ptStep_zero hT hv (by omega),
        (plasticStep_congr he (fun _ _ => rfl) 0).1, plasticStep_flow _ _ _ _ fTrial_shear]
  · rw [h.plast 3 (hT.plastic (by omega))]
    norm_num
    rw [ptStep_zero hT hv (by omega), ((plasticStep_congr he (fun _ _ => rfl) 0).2.2 3 (by omega)).1,
      plasticStep_flow _ _ _ _ fTrial_shear]
    have h1 := fTrial_shear
    have h2 : 0 < stressNorm (sigTrial (⟨10, 1 / 4, 20 / 3, 4, 4, 1, 1, true, false⟩ : Material ℝ)
        exShear (fun _ => 0)) := by
      rw [fTrial_real, sub_pos] at h1
      refine lt_of_le_of_lt ?_ h1
      unfold yieldRadius; positivity
    simp only [zero_add]
    refine mul_ne_zero (div_ne_zero h1.ne' (by norm_num)) (div_ne_zero ?_ h2.ne')
    rw [sigTrial_real]
    norm_num [dev, exShear]

theorem T_null (hT : IsT c) {w : Work ℝ} (hv : ∀ k, k < 112 → w.varsOld.val k = 0)
    {eps : Nat → ℝ} (he : ∀ v, v < 6 → eps v = 0)
    {r : PertOut ℝ} (h : ThinOut c w eps r) :
    r.nr.nl = false ∧ ∀ k, k < 56 → r.nr.work.varsNew.val k = 0 := by
  have hp : ∀ gp, gp < 8 → (ptStep c w.varsOld 0 gp eps).nl = false ∧
      (∀ i, i < 6 → (ptStep c w.varsOld 0 gp eps).epsP i = 0) ∧
      (ptStep c w.varsOld 0 gp eps).alpha = 0 := by
    intro gp hg
    have : ¬ 0 < fTrial (⟨10, 1 / 4, 20 / 3, 4, 4, 1, 1, true, false⟩ : Material ℝ) eps
        (fun _ => 0) 0 := by
      rw [fTrial_congr (p' := fun _ => 0) (e' := fun _ => 0) (fun v hv => he v hv) (fun _ _ => rfl)]
      exact fTrial_null
    rw [ptStep_zero hT hv hg, plasticStep_elastic _ _ _ _ this]
    simp
  constructor
  · by_contra hn
    obtain ⟨e, he', hm, hn⟩ := h.nl.mp (by simpa using hn)
    rcases (hT.mem e).mp he' with rfl | rfl
    · have hn : (ptStep c w.varsOld (c.el 0 0 0) 7 eps).nl = true := hn
      rw [hT.el0, (hp 7 (by omega)).1] at hn
      cases hn
    · have hm : (matOf c (c.el 0 1 0)).plasticity = true := hm
      rw [hT.el1, hT.high] at hm
      cases hm
  · intro k hk
    rw [h.plast k (hT.plastic hk), Nat.div_eq_of_lt hk]
    split
    · exact (hp _ (Nat.mod_lt _ (by omega))).2.2
    · exact (hp _ (Nat.mod_lt _ (by omega))).2.1 _ (by omega)

/-- One Gauss point without committed plastic strain in `homogenize`, when the tolerance is
negative. -/
theorem T_gp {env : Env ℝ} (hf : 1 ≤ env.fuel) (hT : IsT c) (hi : c.invTol = -1) {g : Gp ℝ}
    {w : Work ℝ} {s : GpWork ℝ} (hw : w.Ok c) (hg : g.Ok c)
    (hN : ∀ b, g.intVarsN = some b → ∀ k, k < 112 → b.val k = 0)
    (h : homogenizeGp env c g w = .ok s) :
    ∃ (w' : Work ℝ) (r : PertOut ℝ) (g1 : Gp ℝ), (∀ k, k < 112 → w'.varsOld.val k = 0) ∧
      w'.varsNew = w.varsNew ∧ ThinOut c w' g.macroStrain r ∧
      storeVars c r.nr.nl r.nr.work.varsNew
        { g with macroStress := setFirst c.nvoi r.sig g.macroStress } = .ok g1 ∧
      GpStep c g s.gp ∧ s.gp.intVarsN = g1.intVarsN ∧ s.gp.intVarsK = g1.intVarsK := by
  obtain ⟨old, l, h1, h2, h3, h4⟩ := homogenizeGp_inv hT.ok hw hg h
  have hl : l.1 = false := by
    unfold isLinear getInv1 at h3
    rw [hT.dim] at h3
    simp only [bind_ok_iff, pure_ok_iff] at h3
    obtain ⟨inv, -, rfl⟩ := h3
    simp only [lt_real, hi, decide_eq_false_iff_not, not_lt]
    have : (0 : ℝ) ≤ Scalar.abs inv := by rw [abs_real]; exact abs_nonneg _
    linarith
  rcases h4 with ⟨h, -⟩ | ⟨-, r, g1, h5, -, -, -, h6, h7, h8, -⟩
  · rw [hl] at h; cases h
  · have hw' : Work.Ok c { w with varsOld := old, invMax := l.2 } :=
      ⟨hw.u, hw.du, hw.b, hw.elemStress, hw.elemStrain, h1, hw.varsNew, hw.A2, hw.A3⟩
    obtain ⟨r', h9, h10⟩ := solveStrain_thin hT.ok hT.geom hT.dim hT.nx hw' hf g.macroStrain
    rw [h5] at h9
    cases h9
    refine ⟨{ w with varsOld := old, invMax := l.2 }, r, g1, fun k hk => ?_, rfl, h10, h6, homogenizeGp_step h, h7, h8⟩
    show old.val k = 0
    rw [h2 k (by rw [hT.num]; exact hk)]
    cases hn : g.intVarsN with
    | none => rfl
    | some b => exact hN b hn k hk

/-- `homogenize` on an object with one such Gauss point. -/
theorem T_hom {env : Env ℝ} (hf : 1 ≤ env.fuel) {s : ObjFiles ℝ} {r : Stepped ℝ}
    (hT : IsT s.obj.cfg) (hi : s.obj.cfg.invTol = -1) (hs : s.obj.Ok) {g : Gp ℝ}
    (hg : s.obj.gauss = [g]) (hN : ∀ b, g.intVarsN = some b → ∀ k, k < 112 → b.val k = 0)
    (h : step env s .homogenize = .ok r) :
    ∃ (w' : Work ℝ) (out : PertOut ℝ) (g1 g' : Gp ℝ), (∀ k, k < 112 → w'.varsOld.val k = 0) ∧
      w'.varsNew = s.obj.work.varsNew ∧ ThinOut s.obj.cfg w' g.macroStrain out ∧
      storeVars s.obj.cfg out.nr.nl out.nr.work.varsNew
        { g with macroStress := setFirst s.obj.cfg.nvoi out.sig g.macroStress } = .ok g1 ∧
      r.state.obj.gauss = [g'] ∧ GpStep s.obj.cfg g g' ∧
      g'.intVarsN = g1.intVarsN ∧ g'.intVarsK = g1.intVarsK := by
  obtain ⟨lw, h4, h5, h6⟩ := step_gauss h
  rw [hg] at h4
  simp only [homogenizeList, bind_ok_iff, pure_ok_iff] at h4
  obtain ⟨sg, h7, lw', h8, rfl⟩ := h4
  subst h8
  obtain ⟨w', out, g1, a1, a2, a3, a4, a5, a6, a7⟩ := T_gp hf hT hi hs.work
    (hs.gauss g (by rw [hg]; simp)) hN h7
  exact ⟨w', out, g1, sg.gp, a1, a2, a3, a4, h5, a5, a6, a7⟩

end Verif
