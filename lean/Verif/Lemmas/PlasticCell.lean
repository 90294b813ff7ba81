import Verif.Lemmas.PlasticPot
import Verif.Spec.PlasticCell

/-! # The cell problem of an object with plastic elements -/

namespace Verif
open Spec Finset

variable {c : Cfg ℝ} {vo : Buf ℝ}

theorem Cfg.J2.at (hJ : c.J2) (e : Nat × Nat × Nat) : (c.matAt e).Admissible := by
  unfold Cfg.matAt; split <;> exact hJ.mats _ (by omega)

theorem Cfg.J2.atP (hJ : c.J2) {e : Nat × Nat × Nat} (h : (c.matAt e).plasticity = true) : (c.matAt e).J2 := by
  unfold Cfg.matAt at h ⊢; split at h <;> rename_i h1
  · rw [if_pos h1]; exact hJ.plastic 0 (by omega) h
  · rw [if_neg h1]; exact hJ.plastic 1 (by omega) h

/-- Bulk modulus. -/
noncomputable def Cfg.bulk (c : Cfg ℝ) (e : Nat × Nat × Nat) : ℝ := (3 * (c.matAt e).lambda + 2 * (c.matAt e).mu) / 3

/-- Plastic strain seen by a point. -/
noncomputable def Cfg.plas (c : Cfg ℝ) (vo : Buf ℝ) (e : Nat × Nat × Nat) (gp : Nat) : Nat → ℝ :=
  if (c.matAt e).plasticity = true then epsPAt vo (c.el e.1 e.2.1 e.2.2) gp else fun _ => 0

noncomputable def Cfg.fac (c : Cfg ℝ) (vo : Buf ℝ) (e : Nat × Nat × Nat) (gp : Nat) (s : Nat → ℝ) : ℝ :=
  if (c.matAt e).plasticity = true then retFactor (stressNorm s) (c.radius vo e gp) else 1

noncomputable def Cfg.pot (c : Cfg ℝ) (vo : Buf ℝ) (e : Nat × Nat × Nat) (gp : Nat) (s : Nat → ℝ) : ℝ :=
  if (c.matAt e).plasticity = true then huber (c.radius vo e gp) s else stressNorm s ^ 2 / 2

noncomputable def Cfg.rad (c : Cfg ℝ) (vo : Buf ℝ) (e : Nat × Nat × Nat) (gp : Nat) : ℝ :=
  if (c.matAt e).plasticity = true then c.radius vo e gp else 1

theorem Cfg.radius_pos (hJ : c.J2) (hH : c.Hardened vo) {e : Nat × Nat × Nat} (he : e ∈ c.fe.elems)
    (hp : (c.matAt e).plasticity = true) {gp : Nat} (hg : gp < 8) : 0 < c.radius vo e gp := by
  have h := hJ.atP hp
  exact mul_pos sqrt_two_thirds_pos (add_pos_of_pos_of_nonneg h.Sy (mul_nonneg h.Ka (hH e he hp gp hg)))

theorem Cfg.radial (hJ : c.J2) (hH : c.Hardened vo) {e : Nat × Nat × Nat} (he : e ∈ c.fe.elems)
    {gp : Nat} (hg : gp < 8) : Radial (c.fac vo e gp) (c.pot vo e gp) (c.rad vo e gp) := by
  by_cases hp : (c.matAt e).plasticity = true
  · have e1 : c.fac vo e gp = fun s => retFactor (stressNorm s) (c.radius vo e gp) := by
      funext s; unfold Cfg.fac; rw [if_pos hp]
    have e2 : c.pot vo e gp = huber (c.radius vo e gp) := by funext s; unfold Cfg.pot; rw [if_pos hp]
    have e3 : c.rad vo e gp = c.radius vo e gp := by unfold Cfg.rad; rw [if_pos hp]
    rw [e1, e2, e3]
    exact radial_huber (c.radius_pos hJ hH he hp hg)
  · have e1 : c.fac vo e gp = fun _ => 1 := by funext s; unfold Cfg.fac; rw [if_neg hp]
    have e2 : c.pot vo e gp = fun s => stressNorm s ^ 2 / 2 := by funext s; unfold Cfg.pot; rw [if_neg hp]
    have e3 : c.rad vo e gp = 1 := by unfold Cfg.rad; rw [if_neg hp]
    rw [e1, e2, e3]
    exact radial_id

/-- The potential of a cell. -/
noncomputable def Cfg.potential (hJ : c.J2) (hH : c.Hardened vo) : Pot c.fe where
  S e gp := radLaw (c.bulk e) (c.matAt e) (c.plas vo e gp) (c.fac vo e gp)
  W e gp := radPot (c.bulk e) (c.matAt e) (c.plas vo e gp) (c.pot vo e gp)
  kap e _ := 1 / (4 * (c.matAt e).mu + 6 * c.bulk e)
  cap e _ := 3 * c.bulk e / 2 + (c.matAt e).mu
  slope e gp := c.rad vo e gp / 12
  shift e gp := c.rad vo e gp ^ 2 / (4 * (c.matAt e).mu) + (c.rad vo e gp / 12) ^ 2 / (2 * c.bulk e)
    + c.rad vo e gp / 12 * ∑ v ∈ range 6, |dev (c.plas vo e gp) v|
  kap_pos e _ _ _ := by
    have h1 := (hJ.at e).mu_pos
    have h2 : 0 < c.bulk e := div_pos (hJ.at e).bulk_pos (by norm_num)
    positivity
  slope_pos e he gp hg := by
    have := (c.radial hJ hH he (gp := gp) (by rw [Cfg.fe_3 hJ.dim] at hg; exact hg)).pos
    positivity
  below e he gp hg x y := by
    rw [Cfg.fe_3 hJ.dim] at hg
    have := radPot_below (p := c.plas vo e gp) (k := c.bulk e) (div_pos (hJ.at e).bulk_pos (by norm_num))
      (hJ.at e).mu_pos (c.radial hJ hH he hg) x y
    rw [Cfg.fe_3 hJ.dim]
    exact this
  above e he gp hg x y := by
    rw [Cfg.fe_3 hJ.dim] at hg
    have := radPot_above (p := c.plas vo e gp) (k := c.bulk e) (div_pos (hJ.at e).bulk_pos (by norm_num))
      (hJ.at e).mu_pos (c.radial hJ hH he hg) x y
    rw [Cfg.fe_3 hJ.dim]
    exact this
  grow e he gp hg x := by
    rw [Cfg.fe_3 hJ.dim] at hg
    have := radPot_grow (p := c.plas vo e gp) (k := c.bulk e) (div_pos (hJ.at e).bulk_pos (by norm_num))
      (hJ.at e).mu_pos (c.radial hJ hH he hg) x
    rw [Cfg.fe_3 hJ.dim]
    exact this

theorem Material.J2.bulk {m : Material ℝ} (h : m.J2) : m.k = (3 * m.lambda + 2 * m.mu) / 3 := by
  have h1 : 0 < 1 + m.nu := by linarith [h.lo]
  have h2 : 0 < 1 - 2 * m.nu := by linarith [h.hi]
  have h1' := h1.ne'
  have h2' := h2.ne'
  have h3' : 1 - m.nu * 2 ≠ 0 := by rw [mul_comm]; exact h2'
  rw [h.k, h.mu, h.lambda]; field_simp; ring

theorem sigTrial_congr6 {m : Material ℝ} {x y p : Nat → ℝ} (h : ∀ v, v < 6 → x v = y v) {i : Nat} (hi : i < 6) :
    sigTrial m x p i = sigTrial m y p i := by
  rw [sigTrial_real, sigTrial_real]
  unfold dev tr
  rw [h 0 (by omega), h 1 (by omega), h 2 (by omega), h i hi]

theorem radLaw_congr {k : ℝ} {m : Material ℝ} {p : Nat → ℝ} {g : ℝ → ℝ} {x y : Nat → ℝ}
    (h : ∀ v, v < 6 → x v = y v) {i : Nat} (hi : i < 6) :
    radLaw k m p (fun s => g (stressNorm s)) x i = radLaw k m p (fun s => g (stressNorm s)) y i := by
  unfold radLaw
  have e : stressNorm (sigTrial m x p) = stressNorm (sigTrial m y p) :=
    stressNorm_congr fun i hi => sigTrial_congr6 h hi
  beta_reduce
  rw [e, sigTrial_congr6 h hi]
  unfold tr
  rw [h 0 (by omega), h 1 (by omega), h 2 (by omega)]

/-- The stress of `plastic_step` as pressure and projected trial stress. -/
theorem plasticStep_radLaw {m : Material ℝ} (h : m.J2) (x p : Nat → ℝ) {a : ℝ} (hR : 0 ≤ yieldRadius m.Sy m.Ka a)
    {i : Nat} (hi : i < 6) : (plasticStep m x p a).stress i
      = radLaw ((3 * m.lambda + 2 * m.mu) / 3) m p (fun s => retFactor (stressNorm s) (yieldRadius m.Sy m.Ka a)) x i := by
  have h1 := plasticStep_dev m x p a h.mu_pos.ne' hR i hi
  have h2 := plasticStep_tr m x p a
  unfold radLaw
  rw [← h1, ← h.bulk]
  unfold dev
  rw [h2]
  split <;> ring

theorem hooke_radLaw (m : Material ℝ) (x : Nat → ℝ) (i : Nat) :
    hooke m.lambda m.mu x i = radLaw ((3 * m.lambda + 2 * m.mu) / 3) m (fun _ => 0) (fun _ => 1) x i := by
  unfold radLaw
  rw [sigTrial_real]
  unfold hooke dev tr
  by_cases h : i < 3 <;> simp only [h, if_true, if_false] <;> ring

/-- The stress field of the object is the field of the potential. -/
theorem Cfg.sig_potential (hc : c.Ok) (hJ : c.J2) (hH : c.Hardened vo) (u : Nat → ℝ) {e : Nat × Nat × Nat}
    (he : e ∈ c.fe.elems) {gp v : Nat} (hg : gp < c.fe.npe) (hv : v < c.fe.nvoi) :
    c.sig u vo e gp v = (c.potential hJ hH).field u e gp v := by
  have hd := hJ.dim
  have hs : ∀ v, v < 6 → strain3 c u e.1 e.2.1 e.2.2 gp v = c.fe.strain u e gp v := by
    intro v hv
    rw [Cfg.fe_3 hd] at hg ⊢
    exact strain3_eq u hg hv
  have hv6 : v < 6 := by rw [Cfg.fe_3 hd] at hv; exact hv
  have hg8 : gp < 8 := by rw [Cfg.fe_3 hd] at hg; exact hg
  show c.sig u vo e gp v = radLaw (c.bulk e) (c.matAt e) (c.plas vo e gp) (c.fac vo e gp) (c.fe.strain u e gp) v
  unfold Cfg.sig
  rw [if_neg (by omega)]
  unfold Cfg.sigF3 gpSig sig3
  have em : matOf c (c.el e.1 e.2.1 e.2.2) = c.matAt e := rfl
  rw [em]
  by_cases hp : (c.matAt e).plasticity = true
  · have e1 : c.fac vo e gp = fun s => (fun n => retFactor n (c.radius vo e gp)) (stressNorm s) := by
      funext s; unfold Cfg.fac; rw [if_pos hp]
    have e2 : c.plas vo e gp = epsPAt vo (c.el e.1 e.2.1 e.2.2) gp := by unfold Cfg.plas; rw [if_pos hp]
    rw [if_pos hp, e1, e2]
    refine Eq.trans ?_ (radLaw_congr (g := fun n => retFactor n (c.radius vo e gp)) hs hv6)
    exact plasticStep_radLaw (hJ.atP hp) _ _ (c.radius_pos hJ hH he hp hg8).le hv6
  · have e1 : c.fac vo e gp = fun s => (fun _ => 1) (stressNorm s) := by
      funext s; unfold Cfg.fac; rw [if_neg hp]
    have e2 : c.plas vo e gp = fun _ => 0 := by unfold Cfg.plas; rw [if_neg hp]
    rw [if_neg hp, e1, e2, elasticStress3D_hooke]
    refine Eq.trans ?_ (radLaw_congr (g := fun _ => 1) hs hv6)
    exact hooke_radLaw _ _ _

theorem Cfg.force_potential (hc : c.Ok) (hJ : c.J2) (hH : c.Hardened vo) (u : Nat → ℝ) (r : Nat) :
    c.fe.force (c.sig u vo) r = c.fe.force ((c.potential hJ hH).field u) r := by
  unfold Fe.force
  refine Fe.integral_congr fun e hm gp hg => ?_
  unfold Fe.pair
  exact sum_congr rfl fun v hv => by rw [Cfg.sig_potential hc hJ hH u hm hg (mem_range.mp hv)]

theorem Cfg.equil_potential (hc : c.Ok) (hJ : c.J2) (hH : c.Hardened vo) (u : Nat → ℝ) :
    c.fe.Equil (c.sig u vo) ↔ c.fe.Equil ((c.potential hJ hH).field u) := by
  unfold Fe.Equil
  simp only [c.force_potential hc hJ hH u]

end Verif
