import Verif.Lemmas.FeMat
import Verif.Spec.Cell

/-! # The cell problem of an object, 2D and 3D together -/

namespace Verif
open Spec Finset

/-- The stress field of a displacement, any material. -/
noncomputable def Cfg.sig (c : Cfg ℝ) (u : Nat → ℝ) (vo : Buf ℝ) (e : Nat × Nat × Nat) (gp v : Nat) :
    ℝ := if c.dim = 2 then c.sigF2 u e gp v else c.sigF3 u vo e gp v

variable {c : Cfg ℝ}

theorem Cfg.fe_2 (hd : c.dim = 2) : c.fe = c.F2 := by unfold Cfg.fe; rw [if_pos hd]

theorem Cfg.fe_3 (hd : c.dim = 3) : c.fe = c.F3 := by unfold Cfg.fe; rw [if_neg (by omega)]

theorem Cfg.fe_dim (hc : c.Ok) : c.fe.dim = c.dim := by
  rcases hc.dim with h | h
  · rw [Cfg.fe_2 h, h]; rfl
  · rw [Cfg.fe_3 h, h]; rfl

theorem Cfg.fe_nvoi : c.fe.nvoi = c.nvoi := by
  unfold Cfg.fe Cfg.nvoi; split <;> rfl

theorem Cfg.fe_npe : c.fe.npe = c.npe := by
  unfold Cfg.fe Cfg.npe; split <;> rfl

theorem Cfg.fe_nn (hc : c.Ok) : c.fe.nn * c.fe.dim = c.nn * c.dim := by
  rcases hc.dim with h | h
  · rw [Cfg.fe_2 h, F2_nn, hc.nn2 h, h]
  · rw [Cfg.fe_3 h, F3_nn (hc.nz3 h), h]; rfl

theorem Cfg.Geom.dx_pos (hc : c.Ok) (hg : c.Geom) : 0 < c.dx := by
  have h := hg.lx
  rw [← hg.dx] at h
  have : (0 : ℝ) < ((c.nx - 1 : Nat) : ℝ) := by
    have := hc.nx; exact_mod_cast (by omega : 0 < c.nx - 1)
  exact pos_of_mul_pos_left h this.le

theorem Cfg.Geom.dy_pos (hc : c.Ok) (hg : c.Geom) : 0 < c.dy := by
  have h := hg.ly
  rw [← hg.dy] at h
  have : (0 : ℝ) < ((c.ny - 1 : Nat) : ℝ) := by
    have := hc.ny; exact_mod_cast (by omega : 0 < c.ny - 1)
  exact pos_of_mul_pos_left h this.le

theorem Cfg.Geom.dz_pos (hc : c.Ok) (hg : c.Geom) (hd : c.dim = 3) : 0 < c.dz := by
  have h := hg.lz hd
  rw [← hg.dz hd] at h
  have : (0 : ℝ) < ((c.nz - 1 : Nat) : ℝ) := by
    have := hc.nz3 hd; exact_mod_cast (by omega : 0 < c.nz - 1)
  exact pos_of_mul_pos_left h this.le

theorem Cfg.good (hc : c.Ok) (hg : c.Geom) : c.fe.Good := by
  rcases hc.dim with h | h
  · rw [Cfg.fe_2 h]; exact Fe.good_fe2 hc.nx hc.ny (hg.dx_pos hc) (hg.dy_pos hc)
  · rw [Cfg.fe_3 h]
    exact Fe.good_fe3 hc.nx hc.ny (hc.nz3 h) (hg.dx_pos hc) (hg.dy_pos hc) (hg.dz_pos hc h)

theorem Cfg.vol_eq (hc : c.Ok) (hg : c.Geom) :
    c.fe.vol = c.lx * c.ly * (if c.dim = 2 then 1 else c.lz) := by
  rcases hc.dim with h | h
  · rw [Cfg.fe_2 h, if_pos h, ← hg.dx, ← hg.dy]
    simp only [Fe.vol, Fe.cell, fe2, prod_range_succ, prod_range_zero]
    push_cast; norm_num; ring
  · rw [Cfg.fe_3 h, if_neg (by omega), ← hg.dx, ← hg.dy, ← hg.dz h]
    simp only [Fe.vol, Fe.cell, fe3, prod_range_succ, prod_range_zero]
    norm_num; ring

/-! ## The elastic laws -/

theorem Cfg.Elastic.at (he : c.Elastic) (e : Nat × Nat × Nat) : (c.matAt e).Admissible := by
  unfold Cfg.matAt; split <;> exact he.mats _ (by omega)

variable {m : Material ℝ}

theorem Material.Admissible.mu_pos (h : m.Admissible) : 0 < m.mu := by
  rw [h.mu]; exact div_pos h.E (by linarith [h.lo])

theorem Material.Lame.eqs (h : m.Lame) :
    m.lambda + 2 * m.mu = m.E / ((1 + m.nu) * (1 - 2 * m.nu)) * (1 - m.nu) ∧
    m.lambda = m.E / ((1 + m.nu) * (1 - 2 * m.nu)) * m.nu ∧
    m.mu = m.E / ((1 + m.nu) * (1 - 2 * m.nu)) * ((1 - 2 * m.nu) / 2) := by
  have h1' := h.ne1
  have h2' := h.ne2
  have h3' : 1 - m.nu * 2 ≠ 0 := by rw [mul_comm]; exact h2'
  rw [h.mu, h.lambda]
  exact ⟨by field_simp; ring, by field_simp, by field_simp⟩

theorem Material.Admissible.bulk_pos (h : m.Admissible) : 0 < 3 * m.lambda + 2 * m.mu := by
  have e : 3 * m.lambda + 2 * m.mu = m.E / (1 - 2 * m.nu) := by
    have h1 : 0 < 1 + m.nu := by linarith [h.lo]
    have h2 : 0 < 1 - 2 * m.nu := by linarith [h.hi]
    have h1' := h1.ne'
    have h2' := h2.ne'
    have h3' : 1 - m.nu * 2 ≠ 0 := by rw [mul_comm]; exact h2'
    rw [h.mu, h.lambda]; field_simp; ring
  rw [e]; exact div_pos h.E (by linarith [h.hi])

theorem sq3 {a b c : ℝ} (h : a ^ 2 + b ^ 2 + c ^ 2 = 0) : a = 0 ∧ b = 0 ∧ c = 0 := by
  have ha := sq_nonneg a
  have hb := sq_nonneg b
  have hc := sq_nonneg c
  exact ⟨pow_eq_zero_iff (two_ne_zero) |>.mp (by linarith),
    pow_eq_zero_iff (two_ne_zero) |>.mp (by linarith),
    pow_eq_zero_iff (two_ne_zero) |>.mp (by linarith)⟩

theorem hooke_pos {l mu : ℝ} (hm : 0 < mu) (hk : 0 < 3 * l + 2 * mu) {x : Nat → ℝ}
    (hx : ∃ v, v < 6 ∧ x v ≠ 0) : 0 < ∑ v ∈ range 6, hooke l mu x v * x v := by
  have e : ∑ v ∈ range 6, hooke l mu x v * x v
      = (3 * l + 2 * mu) / 3 * (x 0 + x 1 + x 2) ^ 2
        + 2 * mu / 3 * ((x 0 - x 1) ^ 2 + (x 1 - x 2) ^ 2 + (x 0 - x 2) ^ 2)
        + mu * (x 3 ^ 2 + x 4 ^ 2 + x 5 ^ 2) := by
    simp only [sum_range_succ, sum_range_zero, hooke, tr]; norm_num; ring
  rw [e]
  have h1 : 0 ≤ (3 * l + 2 * mu) / 3 * (x 0 + x 1 + x 2) ^ 2 := by positivity
  have h2 : 0 ≤ 2 * mu / 3 * ((x 0 - x 1) ^ 2 + (x 1 - x 2) ^ 2 + (x 0 - x 2) ^ 2) := by positivity
  have h3 : 0 ≤ mu * (x 3 ^ 2 + x 4 ^ 2 + x 5 ^ 2) := by positivity
  by_contra hn
  have e1 : (3 * l + 2 * mu) / 3 * (x 0 + x 1 + x 2) ^ 2 = 0 := by linarith
  have e2 : 2 * mu / 3 * ((x 0 - x 1) ^ 2 + (x 1 - x 2) ^ 2 + (x 0 - x 2) ^ 2) = 0 := by linarith
  have e3 : mu * (x 3 ^ 2 + x 4 ^ 2 + x 5 ^ 2) = 0 := by linarith
  have f1 := (mul_eq_zero.mp e1).resolve_left (by positivity)
  have f2 := (mul_eq_zero.mp e2).resolve_left (by positivity)
  have f3 := (mul_eq_zero.mp e3).resolve_left (by positivity)
  have g1 : x 0 + x 1 + x 2 = 0 := by simpa using f1
  obtain ⟨g2, g3, -⟩ := sq3 f2
  obtain ⟨g4, g5, g6⟩ := sq3 f3
  obtain ⟨v, hv, hne⟩ := hx
  apply hne
  interval_cases v <;> linarith

theorem sum_planeStrain (l mu : ℝ) (x y : Nat → ℝ) :
    ∑ v ∈ range 3, planeStrain l mu x v * y v
      = ∑ v ∈ range 6, hooke l mu (inPlane x) v * inPlane y v := by
  simp only [sum_range_succ, sum_range_zero, planeStrain, hooke, inPlane, tr]; norm_num

theorem hooke_sym (l mu : ℝ) (x y : Nat → ℝ) :
    ∑ v ∈ range 6, hooke l mu x v * y v = ∑ v ∈ range 6, hooke l mu y v * x v := by
  simp only [sum_range_succ, sum_range_zero, hooke, tr]; norm_num; ring

theorem Cfg.law_ok (hc : c.Ok) (he : c.Elastic) : c.fe.Law c.law := by
  rcases hc.dim with hd | hd
  · have e : c.law = fun e => planeStrain (c.matAt e).lambda (c.matAt e).mu := by
      funext e x v; unfold Cfg.law; rw [if_pos hd]
    rw [Cfg.fe_2 hd, e]
    refine ⟨?_, ?_, ?_, ?_⟩
    · intro e _ x y h v hv
      have h0 := h 0 (show 0 < 3 by omega); have h1 := h 1 (show 1 < 3 by omega)
      have h2 := h 2 (show 2 < 3 by omega)
      simp only [planeStrain, hooke, inPlane, tr, h0, h1, h2]
    · intro e _ x y a b v hv
      have hv : v < 3 := hv
      interval_cases v <;> simp [planeStrain, hooke, inPlane, tr] <;> ring
    · intro e _ x y
      show ∑ v ∈ range 3, _ = ∑ v ∈ range 3, _
      rw [sum_planeStrain, sum_planeStrain, hooke_sym]
    · intro e _ x hx
      show 0 < ∑ v ∈ range 3, _
      rw [sum_planeStrain]
      obtain ⟨v, hv, hne⟩ := hx
      refine hooke_pos (he.at e).mu_pos (he.at e).bulk_pos ⟨if v = 2 then 3 else v, ?_, ?_⟩
      · have : v < 3 := hv
        split <;> omega
      · have : v < 3 := hv
        interval_cases v <;> simpa [inPlane] using hne
  · have e : c.law = fun e => hooke (c.matAt e).lambda (c.matAt e).mu := by
      funext e x v; unfold Cfg.law; rw [if_neg (by omega)]
    rw [Cfg.fe_3 hd, e]
    refine ⟨?_, ?_, ?_, ?_⟩
    · intro e _ x y h v hv
      have h0 := h 0 (show 0 < 6 by omega); have h1 := h 1 (show 1 < 6 by omega)
      have h2 := h 2 (show 2 < 6 by omega)
      simp only [hooke, tr, h0, h1, h2, h v hv]
    · intro e _ x y a b v hv
      have hv : v < 6 := hv
      interval_cases v <;> simp [hooke, tr] <;> ring
    · intro e _ x y
      exact hooke_sym _ _ x y
    · intro e _ x hx
      exact hooke_pos (he.at e).mu_pos (he.at e).bulk_pos hx

/-! ## Stresses as computed -/

theorem elasticStress3D_hooke (m : Material ℝ) (eps : Nat → ℝ) :
    elasticStress3D m eps = hooke m.lambda m.mu eps := by
  funext i; unfold elasticStress3D hooke tr; push_cast; rfl

theorem Material.Admissible.toLame (h : m.Admissible) : m.Lame :=
  ⟨by have := h.lo; exact (by linarith : (0:ℝ) < 1 + m.nu).ne',
   by have := h.hi; exact (by linarith : (0:ℝ) < 1 - 2 * m.nu).ne', h.mu, h.lambda⟩

theorem ctan2D_planeStrain (h : m.Lame) (eps : Nat → ℝ) {i : Nat} (hi : i < 3) :
    ∑ j ∈ range 3, ctan2D m i j * eps j = planeStrain m.lambda m.mu eps i := by
  obtain ⟨h1, h2, h3⟩ := h.eqs
  interval_cases i <;> simp only [sum_range_succ, sum_range_zero, ctan2D, planeStrain, hooke,
    inPlane, tr] <;> norm_num
  · linear_combination (-eps 0) * h1 - eps 1 * h2
  · linear_combination (-eps 1) * h1 - eps 0 * h2
  · left; linear_combination -h3

theorem ctan3D_hooke (m : Material ℝ) (eps : Nat → ℝ) {i : Nat} (hi : i < 6) :
    ∑ j ∈ range 6, ctan3D m i j * eps j = hooke m.lambda m.mu eps i := by
  interval_cases i <;> simp [sum_range_succ, ctan3D, hooke, tr] <;> ring

theorem sig2_sum (m : Material ℝ) (eps : Nat → ℝ) (i : Nat) :
    sig2 m eps i = ∑ j ∈ range 3, ctan2D m i j * eps j := by
  unfold sig2; rw [accum_sum, zero_add]

theorem Cfg.mem_elems (hc : c.Ok) {e : Nat × Nat × Nat} (he : e ∈ c.fe.elems) :
    e.1 < c.nx - 1 ∧ e.2.1 < c.ny - 1 ∧ (c.dim = 2 → e.2.2 = 0) ∧ (c.dim = 3 → e.2.2 < c.nz - 1) := by
  have h := Fe.mem_elems.mp he
  rcases hc.dim with hd | hd
  · rw [Cfg.fe_2 hd] at h
    obtain ⟨h1, h2, h3⟩ := h
    have h3 : e.2.2 < 1 := h3
    exact ⟨h1, h2, fun _ => by omega, fun h => by omega⟩
  · rw [Cfg.fe_3 hd] at h
    obtain ⟨h1, h2, h3⟩ := h
    exact ⟨h1, h2, fun h => by omega, fun _ => h3⟩

/-- Tangent of an element with a linear material. -/
noncomputable def Cfg.tan (c : Cfg ℝ) (e : Nat × Nat × Nat) (k l : Nat) : ℝ :=
  if c.dim = 2 then ctan2D (c.matAt e) k l else ctan3D (c.matAt e) k l

/-- The computed linear law. -/
noncomputable def Cfg.linLaw (c : Cfg ℝ) (e : Nat × Nat × Nat) (x : Nat → ℝ) (k : Nat) : ℝ :=
  ∑ l ∈ range c.fe.nvoi, c.tan e k l * x l

theorem Cfg.Linear.plast (he : c.Linear) (hd : c.dim = 3) (e : Nat × Nat × Nat) :
    (c.matAt e).plasticity = false := by
  unfold Cfg.matAt; split <;> exact he hd _ (by omega)

theorem Cfg.linLaw_law (hc : c.Ok) {e : Nat × Nat × Nat} (hm : (c.matAt e).Lame) (x : Nat → ℝ)
    {v : Nat} (hv : v < c.fe.nvoi) : c.linLaw e x v = c.law e x v := by
  unfold Cfg.linLaw Cfg.law Cfg.tan
  rcases hc.dim with hd | hd
  · simp only [hd, if_true]
    rw [Cfg.fe_2 hd] at hv ⊢
    exact ctan2D_planeStrain hm x hv
  · simp only [hd, Nat.reduceEqDiff, if_false]
    rw [Cfg.fe_3 hd] at hv ⊢
    exact ctan3D_hooke _ x hv

/-- For linear materials the computed stress is the computed law. -/
theorem Cfg.sig_linear (hc : c.Ok) (he : c.Linear) (u : Nat → ℝ) (vo : Buf ℝ)
    {e : Nat × Nat × Nat} (hm : e ∈ c.fe.elems) {gp v : Nat} (hg : gp < c.fe.npe)
    (hv : v < c.fe.nvoi) : c.sig u vo e gp v = c.fe.stress c.linLaw u e gp v := by
  obtain ⟨h1, h2, h3, h4⟩ := c.mem_elems hc hm
  unfold Cfg.sig Fe.stress Cfg.linLaw Cfg.tan
  rcases hc.dim with hd | hd
  · simp only [hd, if_true]
    rw [Cfg.fe_2 hd] at hg hv ⊢
    obtain ⟨ex, ey, ez⟩ := e
    obtain rfl := h3 hd
    unfold Cfg.sigF2
    rw [sig2_sum]
    refine sum_congr rfl fun j hj => ?_
    rw [strain2_eq u hg (mem_range.mp hj)]
    rfl
  · simp only [hd, Nat.reduceEqDiff, if_false]
    rw [Cfg.fe_3 hd] at hg hv ⊢
    have hp : (matOf c (c.el e.1 e.2.1 e.2.2)).plasticity = false := he.plast hd e
    unfold Cfg.sigF3 gpSig sig3
    rw [if_neg (by rw [hp]; decide), elasticStress3D_hooke]
    have hs : ∀ v, v < 6 → strain3 c u e.1 e.2.1 e.2.2 gp v = c.F3.strain u e gp v :=
      fun v hv => strain3_eq u hg hv
    have e6 : c.F3.nvoi = 6 := rfl
    rw [e6, ctan3D_hooke _ _ hv]
    unfold hooke tr
    rw [hs 0 (by omega), hs 1 (by omega), hs 2 (by omega), hs v hv]
    rfl

theorem Cfg.force_linear (hc : c.Ok) (he : c.Linear) (u : Nat → ℝ) (vo : Buf ℝ) (r : Nat) :
    c.fe.force (c.sig u vo) r = c.fe.force (c.fe.stress c.linLaw u) r := by
  unfold Fe.force
  refine Fe.integral_congr fun e hm gp hg => ?_
  unfold Fe.pair
  refine sum_congr rfl fun v hv => ?_
  rw [Cfg.sig_linear hc he u vo hm hg (mem_range.mp hv)]

/-- For elastic materials the computed stress is the law of the element. -/
theorem Cfg.sig_elastic (hc : c.Ok) (he : c.Elastic) (u : Nat → ℝ) (vo : Buf ℝ)
    {e : Nat × Nat × Nat} (hm : e ∈ c.fe.elems) {gp v : Nat} (hg : gp < c.fe.npe)
    (hv : v < c.fe.nvoi) : c.sig u vo e gp v = c.fe.stress c.law u e gp v := by
  rw [Cfg.sig_linear hc he.noPlast u vo hm hg hv]
  exact c.linLaw_law hc (he.at e).toLame _ hv

theorem Cfg.force_elastic (hc : c.Ok) (he : c.Elastic) (u : Nat → ℝ) (vo : Buf ℝ) (r : Nat) :
    c.fe.force (c.sig u vo) r = c.fe.force (c.fe.stress c.law u) r := by
  unfold Fe.force
  refine Fe.integral_congr fun e hm gp hg => ?_
  unfold Fe.pair
  refine sum_congr rfl fun v hv => ?_
  rw [Cfg.sig_elastic hc he u vo hm hg (mem_range.mp hv)]

/-! ## The fields of an object -/

theorem GpField.spec (hc : c.Ok) {w : Work ℝ} (hw : w.Ok c)
    {eps sig : Nat × Nat × Nat → Nat → Nat → ℝ} (h : GpField c w eps sig) {e : Nat × Nat × Nat}
    (hm : e ∈ c.fe.elems) {gp v : Nat} (hg : gp < c.fe.npe) (hv : v < c.fe.nvoi) :
    eps e gp v = c.fe.strain w.u.val e gp v ∧ sig e gp v = c.sig w.u.val w.varsOld e gp v := by
  obtain ⟨h1, h2, h3, h4⟩ := c.mem_elems hc hm
  obtain ⟨ex, ey, ez⟩ := e
  rcases hc.dim with hd | hd
  · have a := h.strain2 hd _ hm gp (by rw [Cfg.fe_2 hd] at hg; exact hg)
    have b := h.stress2 hd _ hm gp (by rw [Cfg.fe_2 hd] at hg; exact hg)
    rw [getStrain2D_eq (hw.u2 hc hd) h1 h2] at a
    rw [getStress2D_pure hc hd h1 h2] at b
    injection a with a
    injection b with b
    obtain rfl := h3 hd
    unfold Cfg.sig Cfg.sigF2
    rw [if_pos hd, ← b, ← a]
    rw [Cfg.fe_2 hd] at hg hv ⊢
    exact ⟨strain2_eq _ hg hv, rfl⟩
  · have a := h.strain3 hd _ hm gp (by rw [Cfg.fe_3 hd] at hg; exact hg)
    obtain ⟨r, b, b'⟩ := h.stress3 hd _ hm gp (by rw [Cfg.fe_3 hd] at hg; exact hg)
    have h4 := h4 hd
    have hg8 : gp < 8 := by rw [Cfg.fe_3 hd] at hg; exact hg
    rw [getStrain3D_eq (hw.u3 hd) h1 h2 h4] at a
    rw [getStress3D_pure hc hd h1 h2 h4 hg8 hw.varsOld hw.varsNew] at b
    injection a with a
    injection b with b
    unfold Cfg.sig Cfg.sigF3 gpSig
    rw [if_neg (by omega), ← b', ← b, ← a]
    rw [Cfg.fe_3 hd] at hg hv ⊢
    exact ⟨strain3_eq _ hg hv, rfl⟩

/-- An object has Gauss-point fields. -/
theorem GpField.exists (hc : c.Ok) {w : Work ℝ} (hw : w.Ok c) : ∃ eps sig, GpField c w eps sig := by
  refine ⟨fun e gp => if c.dim = 2 then Verif.strain2 c w.u.val e.1 e.2.1 gp
      else Verif.strain3 c w.u.val e.1 e.2.1 e.2.2 gp,
    fun e gp => if c.dim = 2 then sig2 (matOf c (c.el e.1 e.2.1 0)) (Verif.strain2 c w.u.val e.1 e.2.1 gp)
      else gpSig c w.u.val w.varsOld e.1 e.2.1 e.2.2 gp, ?_, ?_, ?_, ?_⟩
  · intro hd e he gp hg
    obtain ⟨h1, h2, h3, h4⟩ := c.mem_elems hc he
    simp only [hd, if_true]
    exact getStrain2D_eq (hw.u2 hc hd) h1 h2
  · intro hd e he gp hg
    obtain ⟨h1, h2, h3, h4⟩ := c.mem_elems hc he
    simp only [hd, Nat.reduceEqDiff, if_false]
    exact getStrain3D_eq (hw.u3 hd) h1 h2 (h4 hd)
  · intro hd e he gp hg
    obtain ⟨h1, h2, h3, h4⟩ := c.mem_elems hc he
    simp only [hd, if_true]
    exact getStress2D_pure hc hd h1 h2
  · intro hd e he gp hg
    obtain ⟨h1, h2, h3, h4⟩ := c.mem_elems hc he
    simp only [hd, Nat.reduceEqDiff, if_false]
    exact ⟨_, getStress3D_pure hc hd h1 h2 (h4 hd) hg hw.varsOld hw.varsNew, rfl⟩

/-! ## Evaluations -/

theorem allPut_same {c : Cfg ℝ} (hd : c.dim = 3) (u : Nat → ℝ) (vo v : Buf ℝ) :
    SameElastic c v (allPut c u vo v) := fun k hk => (allPut_puts hd v k).2 hk

theorem assemblyRhs_real (hc : c.Ok) {w : Work ℝ} (hw : w.Ok c) :
    ∃ f vn nl, assemblyRhs c w = .ok
        { work := { w with b := ⟨c.nn * c.dim, f⟩, varsNew := vn }
          norm := norm2 (c.nn * c.dim) f, nl := nl } ∧
      vn.size = c.numIntVars ∧ SameElastic c w.varsNew vn ∧
      ∀ q, q < c.nn * c.dim → f q = if c.fe.Bd q then 0 else -c.fe.force (c.sig w.u.val w.varsOld) q := by
  rcases hc.dim with hd | hd
  · have hN : c.nn * c.dim = c.nx * c.ny * 2 := by rw [hc.nn2 hd, hd]
    refine ⟨resid2 c w.u.val w.b.val, w.varsNew, false, ?_, hw.varsNew, SameElastic.rfl', ?_⟩
    · rw [assemblyRhs2_eq hc hd (hw.u2 hc hd) (by rw [hw.b, hN]), normOf_real, hN]
    · intro q hq
      rw [hN] at hq
      have e : c.sig w.u.val w.varsOld = c.sigF2 w.u.val := by
        funext e gp v; unfold Cfg.sig; rw [if_pos hd]
      rw [e, Cfg.fe_2 hd]
      exact resid2_eq _ _ hq
  · have hN : c.nn * c.dim = c.nx * c.ny * c.nz * 3 := by rw [hd]; rfl
    refine ⟨resid3 c w.u.val w.varsOld w.b.val, _, rhsNl c w.u.val w.varsOld, ?_, ?_, allPut_same hd w.u.val w.varsOld w.varsNew, ?_⟩
    · rw [assemblyRhs3_eq hc hd (hw.u3 hd) (by rw [hw.b, hN]) hw.varsOld hw.varsNew, normOf_real, hN]
    · simpa using hw.varsNew
    · intro q hq
      rw [hN] at hq
      have e : c.sig w.u.val w.varsOld = c.sigF3 w.u.val w.varsOld := by
        funext e gp v; unfold Cfg.sig; rw [if_neg (by omega)]
      rw [e, Cfg.fe_3 hd]
      exact resid3_eq (hc.nz3 hd) _ _ _ hq

theorem calcAveStress_real (hc : c.Ok) {w : Work ℝ} (hw : w.Ok c) :
    ∃ vn, calcAveStress c w = .ok
        { ave := fun v => c.fe.integral (fun e gp => c.sig w.u.val w.varsOld e gp v) / (c.lx * c.ly)
          varsNew := vn } ∧ vn.size = c.numIntVars ∧ SameElastic c w.varsNew vn := by
  rcases hc.dim with hd | hd
  · refine ⟨w.varsNew, ?_, hw.varsNew, SameElastic.rfl'⟩
    rw [calcAveStress2_eq hc hd (hw.u2 hc hd)]
    have e : c.sig w.u.val w.varsOld = c.sigF2 w.u.val := by
      funext e gp v; unfold Cfg.sig; rw [if_pos hd]
    simp only [aveSig2_eq, e, Cfg.fe_2 hd]
  · refine ⟨_, ?_, ?_, allPut_same hd w.u.val w.varsOld w.varsNew⟩
    · rw [calcAveStress3_eq hc hd (hw.u3 hd) hw.varsOld hw.varsNew]
      have e : c.sig w.u.val w.varsOld = c.sigF3 w.u.val w.varsOld := by
        funext e gp v; unfold Cfg.sig; rw [if_neg (by omega)]
      simp only [aveSig3_eq, e, Cfg.fe_3 hd]
    · simpa using hw.varsNew

theorem calcAveStrain_real (hc : c.Ok) {u : Buf ℝ} (hu : u.size = c.nn * c.dim) :
    ∃ f, calcAveStrain c u = .ok f ∧ ∀ v, v < c.nvoi →
      f v = c.fe.integral (fun e gp => c.fe.strain u.val e gp v) / (c.lx * c.ly) := by
  rcases hc.dim with hd | hd
  · refine ⟨_, calcAveStrain2_eq hd (by rw [hu, hc.nn2 hd, hd]), fun v hv => ?_⟩
    have hv : v < 3 := by unfold Cfg.nvoi at hv; rw [if_pos hd] at hv; exact hv
    rw [aveEps2_eq _ hv, Cfg.fe_2 hd]
  · refine ⟨_, calcAveStrain3_eq hd (by rw [hu, hd]; rfl), fun v hv => ?_⟩
    have hv : v < 6 := by unfold Cfg.nvoi at hv; rw [if_neg (by omega)] at hv; exact hv
    rw [aveEps3_eq _ hv, Cfg.fe_3 hd]

/-! ## Prescribed displacements -/

theorem displVal3_real (hg : c.Divided) (hd : c.dim = 3) (hz : 2 ≤ c.nz) (eps : Nat → ℝ) {i j k d : Nat}
    (hi : i < c.nx) (hj : j < c.ny) (hk : k < c.nz) (hd3 : d < 3)
    (hb : i = 0 ∨ i + 1 = c.nx ∨ j = 0 ∨ j + 1 = c.ny ∨ k = 0 ∨ k + 1 = c.nz) :
    displVal3 c eps i j k d = affine3 eps (i * c.dx) (j * c.dy) (k * c.dz) d := by
  have ex : i + 1 = c.nx → c.lx = i * c.dx := fun h => by
    rw [← hg.dx, ← h]; push_cast; ring
  have ey : j + 1 = c.ny → c.ly = j * c.dy := fun h => by
    rw [← hg.dy, ← h]; push_cast; ring
  have ez : k + 1 = c.nz → c.lz = k * c.dz := fun h => by
    rw [← hg.dz hd, ← h]; push_cast; ring
  unfold displVal3
  split_ifs with h1 h2 h3 h4 h5
  · subst h1; simp
  · rw [ez h2]
  · subst h3; simp
  · rw [ey h4]
  · subst h5; simp
  · rw [ex (by omega)]

theorem displVal2_real (hg : c.Divided) (eps : Nat → ℝ) {i j d : Nat}
    (hi : i < c.nx) (hj : j < c.ny) (hd2 : d < 2)
    (hb : i = 0 ∨ i + 1 = c.nx ∨ j = 0 ∨ j + 1 = c.ny) :
    displVal2 c eps i j d = affine2 eps (i * c.dx) (j * c.dy) d := by
  have ex : i + 1 = c.nx → c.lx = i * c.dx := fun h => by
    rw [← hg.dx, ← h]; push_cast; ring
  have ey : j + 1 = c.ny → c.ly = j * c.dy := fun h => by
    rw [← hg.dy, ← h]; push_cast; ring
  unfold displVal2
  split_ifs with h1 h2 h3
  · subst h1; simp
  · rw [ey h2]
  · subst h3; simp
  · rw [ex (by omega)]

theorem affine3_real (eps : Nat → ℝ) {i j k d : Nat} (hi : i < c.nx) (hj : j < c.ny) (hd : d < 3) :
    c.F3.affine (c.F3.symGrad eps) (fun _ => 0) (node3 c.nx c.ny i j k * 3 + d)
      = affine3 eps (i * c.dx) (j * c.dy) (k * c.dz) d := by
  obtain ⟨h1, h2, h3⟩ := node3_decode (k := k) hi hj
  unfold Fe.affine Fe.coord
  simp only [fe3]
  rw [mul_add_mod' hd, mul_add_div' hd, h1, h2, h3]
  interval_cases d <;> simp [sum_range_succ, Fe.symGrad, affine3] <;> ring

theorem affine2_real (eps : Nat → ℝ) {i j d : Nat} (hi : i < c.nx) (hj : j < c.ny) (hd : d < 2) :
    c.F2.affine (c.F2.symGrad eps) (fun _ => 0) (node2 c.nx i j * 2 + d)
      = affine2 eps (i * c.dx) (j * c.dy) d := by
  obtain ⟨h1, h2⟩ := node2_decode (j := j) hi
  unfold Fe.affine Fe.coord
  simp only [fe2]
  rw [mul_add_mod' hd, mul_add_div' hd, h1, h2]
  have : j % c.ny = j := Nat.mod_eq_of_lt hj
  interval_cases d <;> simp [sum_range_succ, Fe.symGrad, affine2, this] <;> left <;> ring

theorem setDispl_real (hc : c.Ok) (hg : c.Divided) {w : Work ℝ} (hu : w.u.size = c.nn * c.dim)
    (eps : Nat → ℝ) :
    ∃ u, setDispl c w eps = .ok { w with u := u } ∧ u.size = c.nn * c.dim ∧
      c.fe.OnBd eps u.val ∧
      (∀ q, ¬ (q < c.nn * c.dim ∧ c.fe.Bd q) → u.val q = w.u.val q) := by
  rcases hc.dim with hd | hd
  · have hN : c.nn * c.dim = c.nx * c.ny * 2 := by rw [hc.nn2 hd, hd]
    rw [hN] at hu ⊢
    refine ⟨_, setDispl2_eq hc hd hu, rfl, ?_, ?_⟩
    · intro r hr hb
      rw [Cfg.fe_2 hd, F2_nn] at hr
      rw [Cfg.fe_2 hd] at hb ⊢
      have hb' := (F2_Bd r).mp hb
      simp only [displ2]
      rw [if_pos ⟨hr, hb'⟩]
      obtain ⟨i, j, d, hi, hj, hd2, rfl⟩ := dof_surj2 hr
      rw [affine2_real eps hi hj hd2, atDof2_node _ hi hd2]
      refine displVal2_real hg eps hi hj hd2 ?_
      obtain ⟨e1, e2⟩ := node2_decode (j := j) hi
      unfold BdryDof2 at hb'
      rw [mul_add_div' hd2, e1, e2] at hb'
      exact hb'
    · intro q hq
      rw [Cfg.fe_2 hd] at hq
      simp only [displ2]
      rw [if_neg (fun h => hq ⟨h.1, (F2_Bd q).mpr h.2⟩)]
  · have hN : c.nn * c.dim = c.nx * c.ny * c.nz * 3 := by rw [hd]; rfl
    have hz := hc.nz3 hd
    rw [hN] at hu ⊢
    refine ⟨_, setDispl3_eq hc hd hu, rfl, ?_, ?_⟩
    · intro r hr hb
      rw [Cfg.fe_3 hd, F3_nn hz] at hr
      rw [Cfg.fe_3 hd] at hb ⊢
      have hb' := (F3_Bd hz r).mp hb
      simp only [displ3]
      rw [if_pos ⟨hr, hb'⟩]
      obtain ⟨i, j, k, d, hi, hj, hk, hd3, rfl⟩ := dof_surj3 hr
      rw [affine3_real eps hi hj hd3, atDof3_node _ hi hj hd3]
      refine displVal3_real hg hd hz eps hi hj hk hd3 ?_
      obtain ⟨e1, e2, e3⟩ := node3_decode (k := k) hi hj
      unfold BdryDof3 at hb'
      rw [mul_add_div' hd3, e1, e2, e3] at hb'
      exact hb'
    · intro q hq
      rw [Cfg.fe_3 hd] at hq
      simp only [displ3]
      rw [if_neg (fun h => hq ⟨h.1, (F3_Bd hz q).mpr h.2⟩)]

end Verif
