import Verif.Lemmas.Passive
import Verif.Lemmas.Thin

/-! # Storage of energy by a cell -/

namespace Verif
open Spec Finset

namespace Spec.Fe
variable {F : Fe}

/-- At equilibrium the work of the average stress covers the rise of the energy of the cell. -/
theorem pot_rise (P : Pot F) (hF : F.Good) {u w eps eps' : Nat → ℝ} (hw : F.Equil (P.field w))
    (bu : F.OnBd eps u) (bw : F.OnBd eps' w) :
    F.integral (fun e gp => P.W e gp (F.strain w e gp)) - F.integral (fun e gp => P.W e gp (F.strain u e gp))
      ≤ F.pair (fun v => F.integral fun e gp => P.field w e gp v) (fun v => eps' v - eps v) := by
  have e1 : F.pair (fun v => F.integral fun e gp => P.field w e gp v) (fun v => eps' v - eps v)
      = F.integral fun e gp => F.pair (P.field w e gp) (F.strain w e gp) - F.pair (P.field w e gp) (F.strain u e gp) := by
    rw [integral_sub, hill_mandel hF hw bw, hill_mandel hF hw bu]
    unfold pair
    rw [← sum_sub_distrib]
    exact sum_congr rfl fun v _ => by ring
  rw [e1, ← integral_sub]
  refine integral_mono hF fun e he gp hg => ?_
  have h := P.below e he gp hg (F.strain w e gp) (F.strain u e gp)
  have h0 : 0 ≤ P.kap e gp * ∑ v ∈ range F.nvoi, (P.S e gp (F.strain u e gp) v - P.S e gp (F.strain w e gp) v) ^ 2 :=
    mul_nonneg (P.kap_pos e he gp hg).le (sum_nonneg fun _ _ => sq_nonneg _)
  have e2 : F.pair (P.field w e gp) (F.strain w e gp) - F.pair (P.field w e gp) (F.strain u e gp)
      = - F.pair (P.S e gp (F.strain w e gp)) (fun v => F.strain u e gp v - F.strain w e gp v) := by
    unfold pair
    rw [← sum_sub_distrib, ← sum_neg_distrib]
    exact sum_congr rfl fun v _ => by show P.S _ _ _ _ * _ - P.S _ _ _ _ * _ = _; ring
  rw [e2]
  linarith

end Spec.Fe

variable {c : Cfg ℝ} {w : Work ℝ}

/-- What `calc_ave_stress` leaves in `vars_new` at a plastic point. -/
theorem ave_commit (hc : c.Ok) (hd : c.dim = 3) (hw : w.Ok c) {r : AveState ℝ} (hr : calcAveStress c w = .ok r)
    {e : Nat × Nat × Nat} (he : e ∈ c.fe.elems) (hp : (c.matAt e).plasticity = true) {gp : Nat} (hg : gp < 8) :
    (∀ i, i < 6 → r.varsNew.val (intvarIx (c.el e.1 e.2.1 e.2.2) gp i) = (plasticStep (c.matAt e)
      (c.fe.strain w.u.val e gp) (epsPAt w.varsOld (c.el e.1 e.2.1 e.2.2) gp)
      (alphaAt w.varsOld (c.el e.1 e.2.1 e.2.2) gp)).epsP i) ∧
    r.varsNew.val (intvarIx (c.el e.1 e.2.1 e.2.2) gp 6) = (plasticStep (c.matAt e)
      (c.fe.strain w.u.val e gp) (epsPAt w.varsOld (c.el e.1 e.2.1 e.2.2) gp)
      (alphaAt w.varsOld (c.el e.1 e.2.1 e.2.2) gp)).alpha := by
  rw [calcAveStress3_eq hc hd (hw.u3 hd) hw.varsOld hw.varsNew] at hr
  cases hr
  obtain ⟨h1, h2, -, h3⟩ := c.mem_elems hc he
  have h3 := h3 hd
  have hlt : c.el e.1 e.2.1 e.2.2 < (c.nx - 1) * (c.ny - 1) * (c.nz - 1) := gloElem3D_lt h1 h2 h3
  have em : matOf c (c.el e.1 e.2.1 e.2.2) = c.matAt e := rfl
  have hst : ∀ v, v < 6 → strain3 c w.u.val e.1 e.2.1 e.2.2 gp v = c.fe.strain w.u.val e gp v := by
    intro v hv
    rw [Cfg.fe_3 hd]
    exact strain3_eq _ hg hv
  have hcg := plasticStep_congr (m := c.matAt e) hst (p := epsPAt w.varsOld (c.el e.1 e.2.1 e.2.2) gp)
    (fun _ _ => rfl) (alphaAt w.varsOld (c.el e.1 e.2.1 e.2.2) gp)
  have hv : ∀ i, i < 7 → (allPut c w.u.val w.varsOld w.varsNew).val (intvarIx (c.el e.1 e.2.1 e.2.2) gp i)
      = if i = 6 then (plasticStep (c.matAt e) (strain3 c w.u.val e.1 e.2.1 e.2.2 gp)
          (epsPAt w.varsOld (c.el e.1 e.2.1 e.2.2) gp) (alphaAt w.varsOld (c.el e.1 e.2.1 e.2.2) gp)).alpha
        else (plasticStep (c.matAt e) (strain3 c w.u.val e.1 e.2.1 e.2.2 gp)
          (epsPAt w.varsOld (c.el e.1 e.2.1 e.2.2) gp) (alphaAt w.varsOld (c.el e.1 e.2.1 e.2.2) gp)).epsP i := by
    intro i hi
    have hk1 : intvarIx (c.el e.1 e.2.1 e.2.2) gp i / 56 = c.el e.1 e.2.1 e.2.2 := by unfold intvarIx; omega
    have hk2 : intvarIx (c.el e.1 e.2.1 e.2.2) gp i / 7 % 8 = gp := by unfold intvarIx; omega
    have hk3 : intvarIx (c.el e.1 e.2.1 e.2.2) gp i % 7 = i := by unfold intvarIx; omega
    have hpv : PlasticVar c (intvarIx (c.el e.1 e.2.1 e.2.2) gp i) := by
      refine ⟨?_, by rw [hk1]; exact hp⟩
      rw [numIntVars3 hd]
      unfold intvarIx
      omega
    rw [(allPut_puts hd w.varsNew _).1 hpv]
    unfold varAt
    simp only [hk1, hk2, hk3]
    obtain ⟨d1, d2, d3⟩ := gloElem_decode (ez := e.2.2) h1 h2
    rw [show c.el e.1 e.2.1 e.2.2 = gloElem3D c.nx c.ny e.1 e.2.1 e.2.2 from rfl] at *
    rw [d1, d2, d3, em]
  refine ⟨fun i hi => ?_, ?_⟩
  · show (allPut c w.u.val w.varsOld w.varsNew).val _ = _
    rw [hv i (by omega), if_neg (by omega), (hcg.2.2 i hi).1]
  · show (allPut c w.u.val w.varsOld w.varsNew).val _ = _
    rw [hv 6 (by omega), if_pos rfl, hcg.2.1]

theorem stored_congr {m : Material ℝ} {x p q : Nat → ℝ} {a b : ℝ} (h : ∀ i, i < 6 → p i = q i) (hab : a = b) :
    stored m x (p, a) = stored m x (q, b) := by
  subst hab
  unfold stored radPot huber
  simp only
  rw [stressNorm_congr fun v hv => sigTrial_congr (m := m) (e := x) (fun _ _ => rfl) h hv]

theorem pot_plastic (hJ : c.J2) {vo : Buf ℝ} (hH : c.Hardened vo) {e : Nat × Nat × Nat}
    (hp : (c.matAt e).plasticity = true) (gp : Nat) (x : Nat → ℝ) : (c.potential hJ hH).W e gp x
      = stored (c.matAt e) x (epsPAt vo (c.el e.1 e.2.1 e.2.2) gp, alphaAt vo (c.el e.1 e.2.1 e.2.2) gp) := by
  show radPot (c.bulk e) (c.matAt e) (c.plas vo e gp) (c.pot vo e gp) x = _
  have e1 : c.plas vo e gp = epsPAt vo (c.el e.1 e.2.1 e.2.2) gp := by unfold Cfg.plas; rw [if_pos hp]
  have e2 : c.pot vo e gp = huber (c.radius vo e gp) := by funext s; unfold Cfg.pot; rw [if_pos hp]
  rw [e1, e2]
  rfl

theorem pot_elastic (hJ : c.J2) {vo : Buf ℝ} (hH : c.Hardened vo) {e : Nat × Nat × Nat}
    (hp : (c.matAt e).plasticity ≠ true) (gp : Nat) (x : Nat → ℝ) : (c.potential hJ hH).W e gp x
      = radPot (c.bulk e) (c.matAt e) (fun _ => 0) (fun s => stressNorm s ^ 2 / 2) x := by
  show radPot (c.bulk e) (c.matAt e) (c.plas vo e gp) (c.pot vo e gp) x = _
  have e1 : c.plas vo e gp = fun _ => 0 := by unfold Cfg.plas; rw [if_neg hp]
  have e2 : c.pot vo e gp = fun s => stressNorm s ^ 2 / 2 := by funext s; unfold Cfg.pot; rw [if_neg hp]
  rw [e1, e2]

theorem pot_nonneg (hJ : c.J2) {vo : Buf ℝ} (hH : c.Hardened vo) {e : Nat × Nat × Nat} (he : e ∈ c.fe.elems)
    {gp : Nat} (hg : gp < 8) (x : Nat → ℝ) : 0 ≤ (c.potential hJ hH).W e gp x := by
  by_cases hp : (c.matAt e).plasticity = true
  · rw [pot_plastic hJ hH hp]
    exact stored_nonneg (hJ.atP hp) (hH e he hp gp hg) _ _
  · rw [pot_elastic hJ hH hp]
    have h1 := (hJ.at e).mu_pos
    have h2 : 0 < c.bulk e := div_pos (hJ.at e).bulk_pos (by norm_num)
    unfold radPot
    positivity

/-- The history `vo` is the one `calc_ave_stress` left. -/
def Commits (c : Cfg ℝ) (r : AveState ℝ) (vo : Buf ℝ) : Prop := ∀ k, k < c.numIntVars → vo.val k = r.varsNew.val k

theorem commits_point (hc : c.Ok) (hd : c.dim = 3) (hw : w.Ok c) {r : AveState ℝ} (hr : calcAveStress c w = .ok r)
    {vo : Buf ℝ} (hv : Commits c r vo) {e : Nat × Nat × Nat} (he : e ∈ c.fe.elems)
    (hp : (c.matAt e).plasticity = true) {gp : Nat} (hg : gp < 8) :
    (∀ i, i < 6 → epsPAt vo (c.el e.1 e.2.1 e.2.2) gp i = (plasticStep (c.matAt e)
      (c.fe.strain w.u.val e gp) (epsPAt w.varsOld (c.el e.1 e.2.1 e.2.2) gp)
      (alphaAt w.varsOld (c.el e.1 e.2.1 e.2.2) gp)).epsP i) ∧
    alphaAt vo (c.el e.1 e.2.1 e.2.2) gp = (plasticStep (c.matAt e)
      (c.fe.strain w.u.val e gp) (epsPAt w.varsOld (c.el e.1 e.2.1 e.2.2) gp)
      (alphaAt w.varsOld (c.el e.1 e.2.1 e.2.2) gp)).alpha := by
  obtain ⟨h1, h2, -, h3⟩ := c.mem_elems hc he
  have h3 := h3 hd
  have hlt : c.el e.1 e.2.1 e.2.2 < (c.nx - 1) * (c.ny - 1) * (c.nz - 1) := gloElem3D_lt h1 h2 h3
  obtain ⟨a1, a2⟩ := ave_commit hc hd hw hr he hp hg
  have hk : ∀ i, i < 7 → intvarIx (c.el e.1 e.2.1 e.2.2) gp i < c.numIntVars := by
    intro i hi
    rw [numIntVars3 hd]
    unfold intvarIx
    omega
  refine ⟨fun i hi => ?_, ?_⟩
  · unfold epsPAt
    rw [if_pos hi, hv _ (hk i (by omega)), a1 i hi]
    rfl
  · unfold alphaAt
    rw [hv _ (hk 6 (by omega)), a2]
    rfl

theorem commits_hardened (hc : c.Ok) (hJ : c.J2) (hw : w.Ok c) (hH : c.Hardened w.varsOld) {r : AveState ℝ}
    (hr : calcAveStress c w = .ok r) {vo : Buf ℝ} (hv : Commits c r vo) : c.Hardened vo := by
  intro e he hp gp hg
  have h := (commits_point hc hJ.dim hw hr hv he hp hg).2
  have h0 : 0 ≤ alphaAt w.varsOld (c.el e.1 e.2.1 e.2.2) gp := hH e he hp gp hg
  have h1 := plasticStep_alpha_le (c.matAt e) (c.fe.strain w.u.val e gp)
    (epsPAt w.varsOld (c.el e.1 e.2.1 e.2.2) gp) (alphaAt w.varsOld (c.el e.1 e.2.1 e.2.2) gp) (hJ.at e).mu_pos
  show 0 ≤ alphaAt vo (c.el e.1 e.2.1 e.2.2) gp
  linarith

/-- Storing the new history does not raise the energy of a cell without hardening. -/
theorem commits_stored (hc : c.Ok) (hg : c.Geom) (hJ : c.J2) (hK : ∀ i, i < 2 → (c.mats i).plasticity = true → (c.mats i).Ka = 0)
    (hw : w.Ok c) (hH : c.Hardened w.varsOld) {r : AveState ℝ} (hr : calcAveStress c w = .ok r) {vo : Buf ℝ}
    (hv : Commits c r vo) (hH' : c.Hardened vo) :
    c.fe.integral (fun e gp => (c.potential hJ hH').W e gp (c.fe.strain w.u.val e gp))
      ≤ c.fe.integral (fun e gp => (c.potential hJ hH).W e gp (c.fe.strain w.u.val e gp)) := by
  refine Fe.integral_mono (c.good hc hg) fun e he gp hgp => ?_
  have hg8 : gp < 8 := by rw [Cfg.fe_3 hJ.dim] at hgp; exact hgp
  by_cases hp : (c.matAt e).plasticity = true
  · have hK' : (c.matAt e).Ka = 0 := by
      unfold Cfg.matAt at hp ⊢
      split at hp <;> rename_i h1
      · rw [if_pos h1]; exact hK 0 (by omega) hp
      · rw [if_neg h1]; exact hK 1 (by omega) hp
    obtain ⟨a1, a2⟩ := commits_point hc hJ.dim hw hr hv he hp hg8
    rw [pot_plastic hJ hH' hp, pot_plastic hJ hH hp, stored_congr a1 a2]
    exact stored_commit (hJ.atP hp) hK' _ _ _
  · rw [pot_elastic hJ hH' hp, pot_elastic hJ hH hp]

end Verif
