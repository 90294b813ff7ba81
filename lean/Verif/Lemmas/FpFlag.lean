import Verif.Lemmas.FpPlasticCell

/-! # The flag of nonlinearity in rounded arithmetic -/

namespace Verif
open Spec Finset

/-- The stress at a Gauss point is as close as the whole field. -/
theorem Spec.Fe.pot_point {F : Fe} (P : Pot F) (hF : F.Good) (u w : Nat → ℝ) {x : Nat × Nat × Nat}
    (hx : x ∈ F.elems) {gp v : Nat} (hg : gp < F.npe) (hv : v < F.nvoi) :
    P.kap x gp * (P.field w x gp v - P.field u x gp v) ^ 2 * (F.cell / F.npe) ≤ P.gap u w := by
  have hw := (Fe.weight_pos hF).le
  have hk := (P.kap_pos x hx gp hg).le
  have h0 : ∀ x ∈ F.elems, ∀ gp ∈ range F.npe, 0 ≤ P.kap x gp
      * ∑ v ∈ range F.nvoi, (P.field w x gp v - P.field u x gp v) ^ 2 * 1 := fun x hx gp hg =>
    mul_nonneg (P.kap_pos x hx gp (mem_range.mp hg)).le
      (sum_nonneg fun _ _ => by rw [mul_one]; exact sq_nonneg _)
  simp only [mul_one] at h0
  unfold Pot.gap Fe.integral
  refine le_trans ?_ (single_le_sum (f := fun x => ∑ gp ∈ range F.npe, P.kap x gp
    * (∑ v ∈ range F.nvoi, (P.field w x gp v - P.field u x gp v) ^ 2) * (F.cell / F.npe))
    (fun x hx => sum_nonneg fun gp hg => mul_nonneg (h0 x hx gp hg) hw) hx)
  refine le_trans ?_ (single_le_sum (f := fun gp => P.kap x gp
    * (∑ v ∈ range F.nvoi, (P.field w x gp v - P.field u x gp v) ^ 2) * (F.cell / F.npe))
    (fun gp hg => mul_nonneg (h0 x hx gp hg) hw) (mem_range.mpr hg))
  refine mul_le_mul_of_nonneg_right (mul_le_mul_of_nonneg_left ?_ hk) hw
  exact single_le_sum (f := fun v => (P.field w x gp v - P.field u x gp v) ^ 2) (fun _ _ => sq_nonneg _)
    (mem_range.mpr hv)

theorem dev_sub_le {s t : Nat → ℝ} {b : ℝ} (h : ∀ v, v < 6 → |s v - t v| ≤ b) {v : Nat} (hv : v < 6) :
    |dev s v - dev t v| ≤ 2 * b := by
  have h0 := abs_le.mp (h 0 (by omega)); have h1 := abs_le.mp (h 1 (by omega)); have h2 := abs_le.mp (h 2 (by omega))
  have h3 := abs_le.mp (h v hv)
  unfold dev tr
  rw [abs_le]
  split <;> constructor <;> linarith [h0.1, h0.2, h1.1, h1.2, h2.1, h2.2, h3.1, h3.2]

/-- The norm of the deviator of the stress is the smaller of the trial norm and the radius. -/
theorem plasticStep_devNorm {m : Material ℝ} (h : m.J2) (x p : Nat → ℝ) {a : ℝ}
    (hR : 0 ≤ yieldRadius m.Sy m.Ka a) :
    stressNorm (dev (plasticStep m x p a).stress)
      = if yieldRadius m.Sy m.Ka a < stressNorm (sigTrial m x p) then yieldRadius m.Sy m.Ka a
        else stressNorm (sigTrial m x p) := by
  have h0 := retFactor_nonneg (stressNorm_nonneg (sigTrial m x p)) hR
  have h1 := stressNorm_smul (retFactor (stressNorm (sigTrial m x p)) (yieldRadius m.Sy m.Ka a)) (sigTrial m x p)
  rw [abs_of_nonneg h0, retFactor_mul hR] at h1
  rw [← h1]
  exact stressNorm_congr fun i hi => plasticStep_dev m x p a h.mu_pos.ne' hR i hi

/-- `plastic_step` reports yielding when the computed yield function is positive. -/
theorem plasticStep_nl_fl {fp : Fp} {m : Material (Fl fp)} {eps epsP : Nat → Fl fp} {alpha : Fl fp} :
    (plasticStep m eps epsP alpha).nl = true ↔ 0 < (fTrial m eps epsP alpha).val := by
  rw [← Fl.val_zero (fp := fp), ← Fl.lt_iff]
  unfold plasticStep
  simp only
  split
  · rename_i h; simpa using h
  · rename_i h; simpa using h

variable {c : Cfg ℝ} {V : Buf ℝ} {e : Nat → ℝ}

/-- The value of the yield function at a Gauss point of an element. -/
noncomputable def Cfg.over (c : Cfg ℝ) (V : Buf ℝ) (y : Nat → ℝ) (x : Nat × Nat × Nat) (gp : Nat) : ℝ :=
  stressNorm (sigTrial (c.matAt x) (strain3 c y x.1 x.2.1 x.2.2 gp)
      (epsPAt V (gloElem3D c.nx c.ny x.1 x.2.1 x.2.2) gp))
    - yieldRadius (c.matAt x).Sy (c.matAt x).Ka (alphaAt V (gloElem3D c.nx c.ny x.1 x.2.1 x.2.2) gp)

/-- A field whose stress is near that of a field below yield is below yield. -/
theorem over_near (hc : c.Ok) (hJ : c.J2) (hH : c.Hardened V) {y z : Nat → ℝ} {x : Nat × Nat × Nat}
    (hx : x ∈ c.fe.elems) (hp : (c.matAt x).plasticity = true) {gp : Nat} (hg : gp < 8) {b : ℝ}
    (hs : ∀ v, v < 6 → |c.sig z V x gp v - c.sig y V x gp v| ≤ b) (hy : c.over V y x gp + 6 * b < 0) :
    c.over V z x gp ≤ c.over V y x gp + 6 * b := by
  have hd := hJ.dim
  have hR := (c.radius_pos hJ hH hx hp hg).le
  have hR : 0 ≤ yieldRadius (c.matAt x).Sy (c.matAt x).Ka
    (alphaAt V (gloElem3D c.nx c.ny x.1 x.2.1 x.2.2) gp) := hR
  have hb : 0 ≤ b := (abs_nonneg _).trans (hs 0 (by omega))
  have es : ∀ y v, c.sig y V x gp v = (plasticStep (c.matAt x) (strain3 c y x.1 x.2.1 x.2.2 gp)
      (epsPAt V (gloElem3D c.nx c.ny x.1 x.2.1 x.2.2) gp)
      (alphaAt V (gloElem3D c.nx c.ny x.1 x.2.1 x.2.2) gp)).stress v := by
    intro y v
    unfold Cfg.sig
    rw [if_neg (by omega)]
    unfold Cfg.sigF3 gpSig sig3
    have em : matOf c (c.el x.1 x.2.1 x.2.2) = c.matAt x := rfl
    rw [em, if_pos hp]
  simp only [es] at hs
  have h1 := plasticStep_devNorm (hJ.atP hp) (strain3 c y x.1 x.2.1 x.2.2 gp)
      (epsPAt V (gloElem3D c.nx c.ny x.1 x.2.1 x.2.2) gp) hR
  have h2 := plasticStep_devNorm (hJ.atP hp) (strain3 c z x.1 x.2.1 x.2.2 gp)
      (epsPAt V (gloElem3D c.nx c.ny x.1 x.2.1 x.2.2) gp) hR
  have h3 := (stressNorm_diff (dev (plasticStep (c.matAt x) (strain3 c z x.1 x.2.1 x.2.2 gp)
      (epsPAt V (gloElem3D c.nx c.ny x.1 x.2.1 x.2.2) gp)
      (alphaAt V (gloElem3D c.nx c.ny x.1 x.2.1 x.2.2) gp)).stress)
      (dev (plasticStep (c.matAt x) (strain3 c y x.1 x.2.1 x.2.2 gp)
      (epsPAt V (gloElem3D c.nx c.ny x.1 x.2.1 x.2.2) gp)
      (alphaAt V (gloElem3D c.nx c.ny x.1 x.2.1 x.2.2) gp)).stress)).trans
    (stressNorm_le fun v hv => dev_sub_le hs hv)
  unfold Cfg.over at hy ⊢
  rw [if_neg (by linarith)] at h1
  rw [h1, h2] at h3
  have h4 := (abs_le.mp h3).2
  split at h4
  · exact absurd h4 (by linarith)
  · linarith

/-- Below yield in the equilibrium: no Gauss point of a precise solution yields. -/
theorem plastic_quiet (hc : c.Ok) (hg : c.Geom) (hJ : c.J2) (hH : c.Hardened V) {y : Nat → ℝ}
    (hy : c.fe.OnBd e y) (hq : c.fe.Equil (c.sig y V))
    (hbelow : ∀ x ∈ c.fe.elems, (c.matAt x).plasticity = true → ∀ gp, gp < 8 → c.over V y x gp < 0) :
    ∃ d u0 : ℝ, 0 < d ∧ 0 < u0 ∧ ∀ (fp : Fp), fp.u ≤ u0 → fp.eta ≤ fp.u ^ 2 →
      ∀ (c' : Cfg (Fl fp)), ComputedJ2 c' c → ∀ (u eps x : Nat → Fl fp) (vo : Buf (Fl fp))
        (f : Nat → Fl fp) (T M : ℝ), SameHistory c vo V → (∀ v, v < 6 → (eps v).val = e v) → 0 ≤ T → 1 ≤ M →
      (∀ q, q < c.nn * c.dim → ¬ c.fe.Bd q → |(u q).val| ≤ M) → T + fp.u * M ≤ d →
      (∀ q, q < c.nn * c.dim → c.fe.Bd q → u q = c'.displV eps x q) →
      (∀ q, q < c.nn * c.dim → |(c'.residV u vo f q).val| ≤ T) →
      ∀ ex ey ez gp, ex < c.nx - 1 → ey < c.ny - 1 → ez < c.nz - 1 → gp < 8 →
        gpNl c' u vo ex ey ez gp = false := by
  classical
  have hd := hJ.dim
  have hF := c.good hc hg
  have e6 : c.fe.nvoi = 6 := by rw [Cfg.fe_3 hd]; rfl
  have e8 : c.fe.npe = 8 := by rw [Cfg.fe_3 hd]; rfl
  obtain ⟨K, d, u0, hK, hd0, hu0, H⟩ := plastic_near hc hg hJ hH hy hq
  obtain ⟨k, hk, hle⟩ := Props.kap_lower hc hg hJ
  obtain ⟨g, hg0, hgle⟩ := Fe.exists_lower ((c.fe.elems ×ˢ range 8).filter
      fun t => (c.matAt t.1).plasticity = true) (fun t => - c.over V y t.1 t.2) (fun t ht => by
    simp only [mem_filter, mem_product, mem_range] at ht
    have := hbelow t.1 ht.1.1 ht.2 t.2 ht.1.2
    linarith)
  have hw := Fe.weight_pos hF
  set ω := c.fe.cell / c.fe.npe
  let b := g / 12
  have hb : 0 < b := by positivity
  refine ⟨min d (k * b ^ 2 * ω / K), min u0 (g / (4 * K)), by positivity, by positivity, ?_⟩
  intro fp hu heta c' hcomp u eps x vo f T M hh heps hT hM huM hTM hbd hres ex ey ez gp hex hey hez hgp
  have hfu := fp.u_nonneg
  have hM0 : fp.u ≤ fp.u * M := le_mul_of_one_le_right hfu hM
  obtain ⟨z, hz, g1, -, g3⟩ := H fp (le_trans hu (min_le_left _ _)) heta c' hcomp u eps x vo f T M hh heps hT hM huM
    (le_trans hTM (min_le_left _ _)) hbd hres
  have hm : (ex, ey, ez) ∈ c.fe.elems := by
    rw [Cfg.fe_3 hd, Fe.mem_elems]; exact ⟨hex, hey, hez⟩
  have hnx := hcomp.toComputed.nx
  have hny := hcomp.toComputed.ny
  obtain ⟨k0, hk0, m1, m2⟩ : ∃ k0, k0 < 2 ∧ matOf c' (c'.el ex ey ez) = c'.mats k0 ∧
      matOf c (c.el ex ey ez) = c.mats k0 := by
    refine ⟨if c.elemType.val (c.el ex ey ez) = 0 then 0 else 1, by split <;> omega, ?_, rfl⟩
    unfold matOf
    rw [show c'.el ex ey ez = gloElem3D c.nx c.ny ex ey ez by unfold Cfg.el; rw [hnx, hny],
      hcomp.toComputed.elem ex ey ez hex hey (fun h => by omega) fun _ => hez]
  unfold gpNl nl3
  rw [m1]
  by_cases hp : (c'.mats k0).plasticity = true
  · rw [if_pos hp]
    have hpc : (c.matAt (ex, ey, ez)).plasticity = true := by
      have : c.matAt (ex, ey, ez) = c.mats k0 := m2
      rw [this, ← hcomp.toComputed.plast hd k0 hk0]; exact hp
    have h1 := hgle ((ex, ey, ez), gp) (by
      simp only [mem_filter, mem_product, mem_range]; exact ⟨⟨hm, hgp⟩, hpc⟩)
    beta_reduce at h1
    have hsb : ∀ v, v < 6 → |c.sig z V (ex, ey, ez) gp v - c.sig y V (ex, ey, ez) gp v| ≤ b := by
      intro v hv
      have hg8 : gp < c.fe.npe := by rw [e8]; exact hgp
      have hv6 : v < c.fe.nvoi := by rw [e6]; exact hv
      have p1 := Fe.pot_point (c.potential hJ hH) hF y z hm hg8 hv6
      rw [c.sig_potential hc hJ hH _ hm hg8 hv6, c.sig_potential hc hJ hH _ hm hg8 hv6]
      set D := (c.potential hJ hH).field z (ex, ey, ez) gp v - (c.potential hJ hH).field y (ex, ey, ez) gp v
      have p2 := hle _ hH (ex, ey, ez) hm gp hg8
      have p3 : k * D ^ 2 * ω ≤ k * b ^ 2 * ω := by
        calc k * D ^ 2 * ω ≤ (c.potential hJ hH).kap (ex, ey, ez) gp * D ^ 2 * ω :=
              mul_le_mul_of_nonneg_right (mul_le_mul_of_nonneg_right p2 (sq_nonneg _)) hw.le
          _ ≤ _ := p1
          _ ≤ K * (T + fp.u) := g1
          _ ≤ K * (k * b ^ 2 * ω / K) := mul_le_mul_of_nonneg_left
              (by linarith [le_trans hTM (min_le_right _ _)]) hK.le
          _ = _ := by field_simp
      have p4 : D ^ 2 ≤ b ^ 2 := le_of_mul_le_mul_left (le_of_mul_le_mul_right p3 hw) hk
      exact abs_le_of_sq_le_sq p4 hb.le
    have h2 := over_near hc hJ hH hm hpc hgp hsb (by show _ + 6 * (g / 12) < 0; linarith)
    have h3 := (abs_le.mp (g3 (ex, ey, ez) hm gp hgp k0 hk0)).2
    have h4 : c.over V z (ex, ey, ez) gp ≤ - g / 2 := by
      refine h2.trans ?_
      show _ + 6 * (g / 12) ≤ _
      linarith
    unfold Cfg.over at h4
    have em : c.matAt (ex, ey, ez) = c.mats k0 := m2
    rw [em] at h4
    have h5 : K * fp.u ≤ g / 4 := by
      calc K * fp.u ≤ K * (g / (4 * K)) := mul_le_mul_of_nonneg_left (le_trans hu (min_le_right _ _)) hK.le
        _ = g / 4 := by field_simp
    have h6 : ¬ 0 < (fTrial (c'.mats k0) (strain3 c' u ex ey ez gp)
              (epsPAt vo (gloElem3D c.nx c.ny ex ey ez) gp)
              (alphaAt vo (gloElem3D c.nx c.ny ex ey ez) gp)).val := by
      have h3 : (fTrial (c'.mats k0) (strain3 c' u ex ey ez gp)
              (epsPAt vo (gloElem3D c.nx c.ny ex ey ez) gp)
              (alphaAt vo (gloElem3D c.nx c.ny ex ey ez) gp)).val - _ ≤ _ := h3
      have h4 : stressNorm (sigTrial (c.mats k0) (strain3 c z ex ey ez gp)
                (epsPAt V (gloElem3D c.nx c.ny ex ey ez) gp)) - _ ≤ _ := h4
      linarith
    have eel : c'.el ex ey ez = gloElem3D c.nx c.ny ex ey ez := by unfold Cfg.el; rw [hnx, hny]
    rw [eel, Bool.eq_false_iff]
    exact fun h => h6 (plasticStep_nl_fl.mp h)
  · rw [if_neg hp]

/-- In a cell without interior nodes: a Gauss point that yields under the macro strain yields in precise
arithmetic. -/
theorem plastic_loud (hc : c.Ok) (hg : c.Geom) (hJ : c.J2) (hall : ∀ q, q < c.nn * c.dim → c.fe.Bd q)
    {x : Nat × Nat × Nat} (hx : x ∈ c.fe.elems) (hp : (c.matAt x).plasticity = true) {gp : Nat} (hgp : gp < 8)
    (hover : 0 < stressNorm (sigTrial (c.matAt x) e (epsPAt V (gloElem3D c.nx c.ny x.1 x.2.1 x.2.2) gp))
      - yieldRadius (c.matAt x).Sy (c.matAt x).Ka (alphaAt V (gloElem3D c.nx c.ny x.1 x.2.1 x.2.2) gp)) :
    ∃ u0 : ℝ, 0 < u0 ∧ ∀ (fp : Fp), fp.u ≤ u0 → fp.eta ≤ fp.u ^ 2 →
      ∀ (c' : Cfg (Fl fp)), ComputedJ2 c' c → ∀ (u eps x0 : Nat → Fl fp) (vo : Buf (Fl fp)),
      SameHistory c vo V → (∀ v, v < 6 → (eps v).val = e v) →
      (∀ q, q < c.nn * c.dim → u q = c'.displV eps x0 q) → gpNl c' u vo x.1 x.2.1 x.2.2 gp = true := by
  have hd := hJ.dim
  have hF := c.good hc hg
  have n6 : c.nvoi = 6 := by unfold Cfg.nvoi; rw [if_neg (by omega)]
  have e6 : c.fe.nvoi = 6 := by rw [Cfg.fe_3 hd]; rfl
  have hN := c.fe_nn hc
  obtain ⟨K, hK, H⟩ := PlRun.yields (V := V) (e := e) hc hg hJ
  obtain ⟨D, hD, HD⟩ := BdRun.bound (e := e) hc hg hJ.mats
  set g := stressNorm (sigTrial (c.matAt x) e (epsPAt V (gloElem3D c.nx c.ny x.1 x.2.1 x.2.2) gp))
      - yieldRadius (c.matAt x).Sy (c.matAt x).Ka (alphaAt V (gloElem3D c.nx c.ny x.1 x.2.1 x.2.2) gp) with hgdef
  refine ⟨min (1 / K) (min (1 / D) (g / (4 * K * D))), by positivity, ?_⟩
  intro fp hu heta c' hcomp u eps x0 vo hh heps hbd
  have hu0 := fp.u_nonneg
  have hKu1 : K * fp.u ≤ 1 := by
    calc K * fp.u ≤ K * (1 / K) := mul_le_mul_of_nonneg_left (le_trans hu (min_le_left _ _)) (by linarith)
      _ = 1 := by field_simp
  have hDu1 : D * fp.u ≤ 1 := by
    calc D * fp.u ≤ D * (1 / D) := mul_le_mul_of_nonneg_left
          (le_trans hu (le_trans (min_le_right _ _) (min_le_left _ _))) (by linarith)
      _ = 1 := by field_simp
  have hKD : K * fp.u * (2 * D) ≤ g / 2 := by
    calc K * fp.u * (2 * D) = 2 * K * D * fp.u := by ring
      _ ≤ 2 * K * D * (g / (4 * K * D)) := mul_le_mul_of_nonneg_left
          (le_trans hu (le_trans (min_le_right _ _) (min_le_right _ _))) (by positivity)
      _ = g / 2 := by field_simp; norm_num
  have heps' : ∀ v, v < c.nvoi → (eps v).val = e v := fun v hv => heps v (n6 ▸ hv)
  let R : PlRun c V e := ⟨fp, heta, c', hcomp, u, vo, hh, u, eps, heps', x0, fun q hq _ => hbd q hq, 2 * D,
    by linarith, fun q hq => by
      rw [hbd q hq]
      exact HD ⟨fp, heta, c', hcomp.toComputed, eps, heps', x0⟩ hDu1 q hq (hall q hq)⟩
  obtain ⟨ex, ey, ez⟩ := x
  have hxyz := hx
  rw [Cfg.fe_3 hd, Fe.mem_elems] at hxyz
  obtain ⟨hex, hey, hez⟩ := hxyz
  have hnx := hcomp.toComputed.nx
  have hny := hcomp.toComputed.ny
  have eel : c'.el ex ey ez = gloElem3D c.nx c.ny ex ey ez := by unfold Cfg.el; rw [hnx, hny]
  let k0 := if c.elemType.val (c.el ex ey ez) = 0 then 0 else 1
  have hk0 : k0 < 2 := by show (if _ then _ else _) < 2; split <;> omega
  have m2 : c.matAt (ex, ey, ez) = c.mats k0 := rfl
  have m1 : matOf c' (c'.el ex ey ez) = c'.mats k0 := by
    unfold matOf
    rw [eel, hcomp.toComputed.elem ex ey ez hex hey (fun h => by omega) fun _ => hez]
  have hpc : (c'.mats k0).plasticity = true := by
    rw [hcomp.toComputed.plast hd k0 hk0, ← m2]; exact hp
  have h1 := (abs_le.mp (H R hKu1 (ex, ey, ez) hx gp hgp k0 hk0)).1
  have es : stressNorm (sigTrial (c.mats k0) (strain3 c R.y ex ey ez gp)
      (epsPAt V (gloElem3D c.nx c.ny ex ey ez) gp))
      = stressNorm (sigTrial (c.mats k0) e (epsPAt V (gloElem3D c.nx c.ny ex ey ez) gp)) := by
    refine stressNorm_congr fun v hv => sigTrial_congr6 (fun v hv => ?_) hv
    have hv' : v < c.fe.nvoi := by rw [e6]; exact hv
    have hy : ∀ r, r < c.fe.nn * c.fe.dim → R.y r = c.fe.affine (c.fe.symGrad e) (fun _ => 0) r := fun r hr =>
      if_pos (hall r (by rw [← hN]; exact hr))
    rw [strain3_eq _ hgp hv, ← Cfg.fe_3 hd, Fe.strain_congr hF hy hx gp hv', Fe.strain_affine hF _ _ hx gp hv',
      Fe.voigt_symGrad hF e hv']
  unfold gpNl nl3
  show (if (matOf c' (c'.el ex ey ez)).plasticity = true then _ else _) = true
  rw [m1, if_pos hpc, plasticStep_nl_fl]
  show 0 < (fTrial (c'.mats k0) (strain3 c' u ex ey ez gp) (epsPAt vo (c'.el ex ey ez) gp)
    (alphaAt vo (c'.el ex ey ez) gp)).val
  rw [eel]
  rw [m2] at hgdef
  have h1 : -(K * fp.u * (2 * D)) ≤ (fTrial (c'.mats k0) (strain3 c' u ex ey ez gp)
      (epsPAt vo (gloElem3D c.nx c.ny ex ey ez) gp) (alphaAt vo (gloElem3D c.nx c.ny ex ey ez) gp)).val
    - (stressNorm (sigTrial (c.mats k0) (strain3 c R.y ex ey ez gp)
        (epsPAt V (gloElem3D c.nx c.ny ex ey ez) gp))
      - yieldRadius (c.mats k0).Sy (c.mats k0).Ka (alphaAt V (gloElem3D c.nx c.ny ex ey ez) gp)) := h1
  rw [es, ← hgdef] at h1
  linarith

theorem over_eq (hd : c.dim = 3) {w : Work ℝ} {x : Nat × Nat × Nat} {gp : Nat} (hg : gp < 8) :
    c.over w.varsOld w.u.val x gp = stressNorm (c.trial w x gp)
      - yieldRadius (c.matAt x).Sy (c.matAt x).Ka
        (w.varsOld.val (intvarIx (gloElem3D c.nx c.ny x.1 x.2.1 x.2.2) gp 6)) := by
  unfold Cfg.over
  have e : stressNorm (sigTrial (c.matAt x) (strain3 c w.u.val x.1 x.2.1 x.2.2 gp)
      (epsPAt w.varsOld (gloElem3D c.nx c.ny x.1 x.2.1 x.2.2) gp)) = stressNorm (c.trial w x gp) := by
    refine stressNorm_congr fun v hv => ?_
    rw [sigTrial_hooke]
    unfold Cfg.trial
    refine dev_congr (fun v hv => ?_) hv
    have hs : ∀ v, v < 6 → strain3 c w.u.val x.1 x.2.1 x.2.2 gp v
        - epsPAt w.varsOld (gloElem3D c.nx c.ny x.1 x.2.1 x.2.2) gp v
        = c.fe.strain w.u.val x gp v
          - w.varsOld.val (intvarIx (gloElem3D c.nx c.ny x.1 x.2.1 x.2.2) gp v) := by
      intro v hv
      rw [Cfg.fe_3 hd, strain3_eq _ hg hv]
      unfold epsPAt
      rw [if_pos hv]
    simp only [hooke, tr]
    rw [hs 0 (by omega), hs 1 (by omega), hs 2 (by omega), hs v hv]
  rw [e]
  rfl

section
variable {α : Type} [Scalar α]

/-- The evaluation of one Gauss point: the error it stores, and the internal variables according to the
flag of the same solve. -/
theorem solveGp_flag {env : Env α} {c : Cfg α} {gp : Gp α} {w : Work α} {s : GpWork α}
    (h : solveGp env c gp w = .ok s) :
    ∃ (w1 : Work α) (r : NrOut α) (a : AveState α), setDispl c w gp.macroStrain = .ok w1 ∧
      newtonRaphson env c w1 = .ok r ∧ calcAveStress c r.work = .ok a ∧ s.gp.nrErr 0 = r.err ∧
      (r.nl = false → s.gp.intVarsN = gp.intVarsN ∧ s.gp.intVarsK = gp.intVarsK) ∧
      (r.nl = true → ∃ n k, s.gp.intVarsN = some n ∧ s.gp.intVarsK = some k) := by
  unfold solveGp at h
  simp only [bind_ok_iff] at h
  obtain ⟨r, hr, g1, hg, hl⟩ := h
  obtain ⟨-, -, -, -, -, -, hs1, hs2⟩ := storeVars_inv hg
  have key := loop_ok_inv (fun _ (s : GpWork α) => s.gp.intVarsN = g1.intVarsN ∧
      s.gp.intVarsK = g1.intVarsK ∧ s.gp.nrErr 0 = r.nr.err) hl
    ⟨rfl, rfl, by simp⟩ (by
      rintro i s s' _ ⟨a, b, d⟩ hs
      obtain ⟨-, -, a', b', -⟩ := ctanGp_inv hs
      refine ⟨a'.trans a, b'.trans b, ?_⟩
      unfold ctanGp at hs
      simp only [bind_ok_iff, pure_ok_iff] at hs
      obtain ⟨r', -, rfl⟩ := hs
      simp only; rw [if_neg (by omega)]; exact d)
  obtain ⟨k1, k2, k3⟩ := key
  unfold solveStrain at hr
  simp only [bind_ok_iff, pure_ok_iff] at hr
  obtain ⟨w1, e1, r1, e2, a, e3, rfl⟩ := hr
  refine ⟨w1, r1, a, e1, e2, e3, k3, fun hn => ?_, fun hn => ?_⟩
  · rw [k1, k2, hs1 hn]; exact ⟨rfl, rfl⟩
  · obtain ⟨n, k, a1, a2, -⟩ := hs2 hn
    exact ⟨n, k, k1.trans a1, k2.trans a2⟩

end

end Verif
