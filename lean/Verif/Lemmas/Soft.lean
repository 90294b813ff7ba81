import Verif.Lemmas.Accuracy
import Verif.Lemmas.Built
import Verif.Props.Newton
import Verif.Props.Macro
import Verif.Props.History

/-!
# A soft elastic cell of two layers

Four elements, one interior node.  The moduli are so small that the residual of every perturbed
evaluation is below the tolerance of `newton_raphson`.
-/

namespace Verif
open Spec Finset Props

/-- An evaluation whose first residual is below the tolerance leaves the interior displacements. -/
theorem solveStrain_small {c : Cfg ℝ} {w : Work ℝ} {env : Env ℝ} (hc : c.Ok) (hg : c.Geom)
    (he : c.Elastic) (hw : w.Ok c) (hf : 1 ≤ env.fuel) {eps u : Nat → ℝ} (hb : c.fe.OnBd eps u)
    (hi : ∀ q, q < c.nn * c.dim → ¬ c.fe.Bd q → u q = w.u.val q)
    (hs : norm2 (c.nn * c.dim) (c.fe.innerForce (c.fe.stress c.law u)) < 1e-5) :
    ∃ r, solveStrain env c w eps = .ok r ∧ r.nr.work.Ok c ∧
      (∀ q, q < c.nn * c.dim → r.nr.work.u.val q = u q) ∧
      ∀ v, v < c.nvoi → r.sig v = c.thick * c.fe.aveStress (c.fe.stress c.law u) v := by
  have hF := c.good hc hg
  have hL := c.law_ok hc he
  obtain ⟨u1, h1, h2, h3, h4⟩ := setDispl_real hc hg.toDivided hw.u eps
  have hw1 : Work.Ok c { w with u := u1 } := Work.Ok.setU hw h2
  have hu : ∀ q, q < c.nn * c.dim → u1.val q = u q := by
    intro q hq
    by_cases hq' : c.fe.Bd q
    · rw [h3 q (by rw [c.fe_nn hc]; exact hq) hq', hb q (by rw [c.fe_nn hc]; exact hq) hq']
    · rw [h4 q (fun h => hq' h.2), hi q hq hq']
  obtain ⟨f, vn, nl, g1, -, -, g2⟩ := assemblyRhs_real hc hw1
  have hnorm : norm2 (c.nn * c.dim) f
      = norm2 (c.nn * c.dim) (c.fe.innerForce (c.fe.stress c.law u)) := by
    unfold norm2 dot
    congr 1
    refine sum_congr rfl fun r hr => ?_
    have hr := mem_range.mp hr
    rw [g2 r hr]
    unfold Fe.innerForce
    split
    · rfl
    · rw [c.force_elastic hc he, Fe.force_congr hF hL (w := u) (fun q hq => by
        rw [c.fe_nn hc] at hq; exact hu q hq)]
      ring
  obtain ⟨out, k1, -, -, -, k2⟩ := C28_partial (env := env) hc hw1 hf g1 (by
    rw [lt_real, nrMaxTol_real]
    refine decide_eq_true ?_
    show norm2 (c.nn * c.dim) f < 1e-5
    rw [hnorm]; exact hs)
  have hout := ((newtonRaphson_safe (env := env) hc hw1).post k1).ok
  obtain ⟨va, i1, i2, -⟩ := calcAveStress_real hc hout
  have hok : Work.Ok c { out.work with varsNew := va } :=
    ⟨hout.u, hout.du, hout.b, hout.elemStress, hout.elemStrain, hout.varsOld, i2, hout.A2, hout.A3⟩
  refine ⟨_, by unfold solveStrain; rw [h1, M_bind_ok', k1, M_bind_ok', i1]; rfl, hok, ?_, ?_⟩
  · intro q hq
    show out.work.u.val q = u q
    rw [k2]; exact hu q hq
  · intro v hv
    have hv' : v < c.fe.nvoi := by rw [c.fe_nvoi]; exact hv
    show c.fe.integral (fun e gp => c.sig out.work.u.val out.work.varsOld e gp v) / (c.lx * c.ly) = _
    rw [div_area hc hg, Fe.integral_congr (g := fun e gp => c.fe.stress c.law out.work.u.val e gp v)
      (fun x hx gp hgp => c.sig_elastic hc he _ _ hx hgp hv')]
    show c.thick * c.fe.aveStress (c.fe.stress c.law out.work.u.val) v = _
    have hk : ∀ q, q < c.fe.nn * c.fe.dim → out.work.u.val q = u q := by
      intro q hq
      rw [c.fe_nn hc] at hq
      rw [k2]; exact hu q hq
    rw [Fe.aveStress_field hF hL hk hv']

/-! ## The cell -/

/-- The grid. -/
noncomputable def gridS : Fe := fe2 3 3 1 1

/-- The law for moduli 1 and 2. -/
noncomputable def lawS (e : Nat × Nat × Nat) (x : Nat → ℝ) (v : Nat) : ℝ :=
  (if e.2.1 = 0 then 2 / 5 else 4 / 5) * planeStrain 1 1 x v

theorem gridS_good : gridS.Good := Fe.good_fe2 (by omega) (by omega) one_pos one_pos

theorem gridS_sum (f : Nat × Nat × Nat → ℝ) :
    ∑ e ∈ gridS.elems, f e = f (0, 0, 0) + f (0, 1, 0) + f (1, 0, 0) + f (1, 1, 0) := by
  have : gridS.elems = {((0 : Nat), (0 : Nat), (0 : Nat)), (0, 1, 0), (1, 0, 0), (1, 1, 0)} := by decide
  rw [this]
  rw [sum_insert (by decide), sum_insert (by decide), sum_insert (by decide), sum_singleton]
  ring

theorem lawS_ok : gridS.Law lawS := by
  have hn : gridS.nvoi = 3 := rfl
  refine ⟨fun e _ x y h v hv => ?_, fun e _ x y a b v hv => ?_, fun e _ x y => ?_, fun e _ x hx => ?_⟩
  · rw [hn] at h hv
    have h0 := h 0 (by omega)
    have h1 := h 1 (by omega)
    have h2 := h 2 (by omega)
    interval_cases v <;> simp [lawS, planeStrain, hooke, inPlane, tr, h0, h1, h2]
  · rw [hn] at hv
    generalize hk : (if e.2.1 = 0 then (2 : ℝ) / 5 else 4 / 5) = k
    interval_cases v <;> simp [lawS, planeStrain, hooke, inPlane, tr, hk] <;> ring
  · unfold Fe.pair
    rw [hn]
    generalize hk : (if e.2.1 = 0 then (2 : ℝ) / 5 else 4 / 5) = k
    simp [sum_range_succ, lawS, planeStrain, hooke, inPlane, tr, hk]
    ring
  · obtain ⟨v, hv, hne⟩ := hx
    rw [hn] at hv
    have hk : (0 : ℝ) < if e.2.1 = 0 then 2 / 5 else 4 / 5 := by split <;> norm_num
    have e1 : gridS.pair (lawS e x) x = (if e.2.1 = 0 then 2 / 5 else 4 / 5)
        * ((x 0 + x 1) ^ 2 + 2 * x 0 ^ 2 + 2 * x 1 ^ 2 + x 2 ^ 2) := by
      unfold Fe.pair
      rw [hn]
      generalize hk : (if e.2.1 = 0 then (2 : ℝ) / 5 else 4 / 5) = k
      simp [sum_range_succ, lawS, planeStrain, hooke, inPlane, tr, hk]
      ring
    rw [e1]
    refine mul_pos hk ?_
    have h0 := sq_nonneg (x 0 + x 1)
    have h1 := sq_nonneg (x 0)
    have h2 := sq_nonneg (x 1)
    have h3 := sq_nonneg (x 2)
    interval_cases v
    · have := pow_pos (abs_pos.mpr hne) 2; rw [sq_abs] at this; linarith
    · have := pow_pos (abs_pos.mpr hne) 2; rw [sq_abs] at this; linarith
    · have := pow_pos (abs_pos.mpr hne) 2; rw [sq_abs] at this; linarith

/-- Displacement of the interior node. -/
noncomputable def midS (p q : ℝ) (r : Nat) : ℝ := if r = 8 then p else if r = 9 then q else 0

theorem gridS_dShape (gp a j : Nat) (hj : j < 2) :
    dShape gridS.dim gridS.h gp a j = sgn j a * ((1 + sgn (1 - j) a * (gaussPoint * sgn (1 - j) gp)) / 2) := by
  unfold dShape
  have : (range gridS.dim).erase j = {1 - j} := by
    have : gridS.dim = 2 := rfl
    rw [this]
    interval_cases j <;> decide
  rw [this, prod_singleton]
  have : gridS.h j = 1 := by unfold gridS fe2; simp
  rw [this, div_one]

/-- Gradient of a displacement of the interior node, by element. -/
theorem midS_grad (p q : ℝ) (ex ey gp i j : Nat) (hx : ex < 2) (hy : ey < 2) (hi : i < 2) (hj : j < 2) :
    gridS.grad (midS p q) (ex, ey, 0) gp i j = (if i = 0 then p else q) *
      (if j = 0 then (if ex = 0 then 1 else -1) * ((1 + (if ey = 0 then 1 else -1) * (gaussPoint * sgn 1 gp)) / 2)
       else (if ey = 0 then 1 else -1) * ((1 + (if ex = 0 then 1 else -1) * (gaussPoint * sgn 0 gp)) / 2)) := by
  unfold Fe.grad
  have hn : gridS.npe = 4 := rfl
  have hd : gridS.dim = 2 := rfl
  rw [hn]
  simp only [sum_range_succ, sum_range_zero, zero_add, gridS_dShape _ _ _ hj]
  have e : ∀ a, gridS.node (ex, ey, 0) a = enode3 3 3 ex ey 0 a := fun _ => rfl
  simp only [e, hd]
  have t0 : sgn 0 0 = -1 := by norm_num [sgn, corner, cornerX, cornerY]
  have t1 : sgn 1 0 = -1 := by norm_num [sgn, corner, cornerX, cornerY]
  have t2 : sgn 0 1 = 1 := by norm_num [sgn, corner, cornerX, cornerY]
  have t3 : sgn 1 1 = -1 := by norm_num [sgn, corner, cornerX, cornerY]
  have t4 : sgn 0 2 = 1 := by norm_num [sgn, corner, cornerX, cornerY]
  have t5 : sgn 1 2 = 1 := by norm_num [sgn, corner, cornerX, cornerY]
  have t6 : sgn 0 3 = -1 := by norm_num [sgn, corner, cornerX, cornerY]
  have t7 : sgn 1 3 = 1 := by norm_num [sgn, corner, cornerX, cornerY]
  generalize h0 : sgn 0 gp = s0
  generalize h1 : sgn 1 gp = s1
  interval_cases ex <;> interval_cases ey <;> interval_cases i <;> interval_cases j <;>
    norm_num [enode3, midS, h0, h1, t0, t1, t2, t3, t4, t5, t6, t7, cornerX, cornerY, cornerZ, node3] <;>
    ring

theorem gridS_integral (f : Nat × Nat × Nat → Nat → ℝ) :
    gridS.integral f = (∑ gp ∈ range 4, f (0, 0, 0) gp + ∑ gp ∈ range 4, f (0, 1, 0) gp
      + ∑ gp ∈ range 4, f (1, 0, 0) gp + ∑ gp ∈ range 4, f (1, 1, 0) gp) / 4 := by
  unfold Fe.integral
  rw [gridS_sum]
  have h1 : gridS.cell = 1 := by simp [Fe.cell, gridS, fe2]
  have h2 : gridS.npe = 4 := rfl
  rw [h1, h2]
  simp only [← sum_mul]
  push_cast
  ring

theorem midS_strain (p q : ℝ) (ex ey gp v : Nat) (hv : v < 3) :
    gridS.strain (midS p q) (ex, ey, 0) gp v =
      if v = 0 then gridS.grad (midS p q) (ex, ey, 0) gp 0 0
      else if v = 1 then gridS.grad (midS p q) (ex, ey, 0) gp 1 1
      else gridS.grad (midS p q) (ex, ey, 0) gp 0 1 + gridS.grad (midS p q) (ex, ey, 0) gp 1 0 := by
  unfold Fe.strain voigt
  have : gridS.dim = 2 := rfl
  rw [this]
  interval_cases v <;> simp

theorem midS_unit : (fun q => if q = 9 then (1 : ℝ) else 0) = midS 0 1 := by
  funext q; unfold midS; split <;> simp_all

theorem gridS_sgn : (sgn 0 0 = -1 ∧ sgn 1 0 = -1) ∧ (sgn 0 1 = 1 ∧ sgn 1 1 = -1) ∧ (sgn 0 2 = 1 ∧ sgn 1 2 = 1) ∧
    sgn 0 3 = -1 ∧ sgn 1 3 = 1 := by
  norm_num [sgn, corner, cornerX, cornerY]

/-- The average normal stress depends on the vertical displacement of the interior node only. -/
theorem midS_ave (p q : ℝ) : gridS.aveStress (gridS.stress lawS (midS p q)) 0 = -(q / 10) := by
  unfold Fe.aveStress
  rw [gridS_integral]
  have hv : gridS.vol = 4 := by simp [Fe.vol, Fe.cell, gridS, fe2]
  rw [hv]
  obtain ⟨⟨t0, t1⟩, ⟨t2, t3⟩, ⟨t4, t5⟩, t6, t7⟩ := gridS_sgn
  simp only [Fe.stress, lawS, planeStrain, hooke, inPlane, tr, sum_range_succ, sum_range_zero]
  norm_num [midS_strain, midS_grad, t0, t1, t2, t3, t4, t5, t6, t7]
  ring

/-- The vertical force on the interior node depends on its vertical displacement only. -/
theorem midS_force (p q : ℝ) : gridS.force (gridS.stress lawS (midS p q)) 9
    = gridS.force (gridS.stress lawS (midS 0 1)) 9 * q := by
  unfold Fe.force
  rw [gridS_integral, gridS_integral, midS_unit]
  have hn : gridS.nvoi = 3 := rfl
  obtain ⟨⟨t0, t1⟩, ⟨t2, t3⟩, ⟨t4, t5⟩, t6, t7⟩ := gridS_sgn
  simp only [Fe.pair, hn, Fe.stress, lawS, planeStrain, hooke, inPlane, tr, sum_range_succ, sum_range_zero]
  norm_num [midS_strain, midS_grad, t0, t1, t2, t3, t4, t5, t6, t7]
  ring

/-- The vertical force of a uniform horizontal strain on the interior node. -/
theorem affS_force (t : ℝ) : gridS.force (gridS.stress lawS (gridS.affine (gridS.symGrad
    fun v => if v = 0 then t else 0) fun _ => 0)) 9 = -(2 / 5 * t) := by
  have h : ∀ e ∈ gridS.elems, ∀ gp v, v < 3 → gridS.strain (gridS.affine (gridS.symGrad
      fun v => if v = 0 then t else 0) fun _ => 0) e gp v = if v = 0 then t else 0 := by
    intro e he gp v hv
    rw [Fe.strain_affine gridS_good _ _ he gp hv]
    unfold voigt Fe.symGrad
    have : gridS.dim = 2 := rfl
    rw [this]
    interval_cases v <;> simp
  have h0 : ∀ e ∈ gridS.elems, ∀ gp v, v < 3 → gridS.stress lawS (gridS.affine (gridS.symGrad
      fun v => if v = 0 then t else 0) fun _ => 0) e gp v = lawS e (fun v => if v = 0 then t else 0) v :=
    fun e he gp v hv => lawS_ok.cong e he _ _ (fun v hv => h e he gp v hv) v hv
  unfold Fe.force
  rw [Fe.integral_congr (g := fun e gp => gridS.pair (lawS e fun v => if v = 0 then t else 0)
    (gridS.strain (midS 0 1) e gp))]
  · rw [gridS_integral]
    have hn : gridS.nvoi = 3 := rfl
    obtain ⟨⟨t0, t1⟩, ⟨t2, t3⟩, ⟨t4, t5⟩, t6, t7⟩ := gridS_sgn
    simp only [Fe.pair, hn, lawS, planeStrain, hooke, inPlane, tr, sum_range_succ, sum_range_zero]
    norm_num [midS_strain, midS_grad, t0, t1, t2, t3, t4, t5, t6, t7]
    ring
  · intro e he gp hg
    unfold Fe.pair
    refine sum_congr rfl fun v hv => ?_
    rw [h0 e he gp v (mem_range.mp hv), midS_unit]

/-- The cell of layers: 2 × 2 with 3 × 3 nodes, Young's modulus `s` below and `2 * s` above. -/
noncomputable def exArgsS (s : ℝ) : Args ℝ where
  dim := 2
  size := fun _ => 3
  microType := 1
  microParams := fun i => if i = 3 then 1 else 2
  matTypes := fun _ => 0
  params := fun i => if i = 0 then 2 * s else if i = 10 then s else 1 / 4

theorem exArgsS_ok (s : ℝ) : (exArgsS s).Ok := by
  refine ⟨Or.inl rfl, Or.inr rfl, ?_, ?_, fun _ => ?_⟩ <;> simp [exArgsS]

theorem exArgsS_geom (s : ℝ) : (exArgsS s).Geom := by
  refine ⟨?_, ?_, fun _ => ?_⟩ <;> norm_num [exArgsS]

theorem exArgsS_elastic {s : ℝ} (hs : 0 < s) : (exArgsS s).Elastic := by
  refine ⟨?_, ?_, ?_, fun _ i _ => Or.inl rfl⟩
  · intro i hi; obtain rfl | rfl : i = 0 ∨ i = 1 := by omega
    all_goals norm_num [exArgsS, hs]
  · intro i hi; obtain rfl | rfl : i = 0 ∨ i = 1 := by omega
    all_goals norm_num [exArgsS]
  · intro i hi; obtain rfl | rfl : i = 0 ∨ i = 1 := by omega
    all_goals norm_num [exArgsS]

/-- The facts about the configuration of such an object. -/
structure IsS (s : ℝ) (c : Cfg ℝ) : Prop where
  ok : c.Ok
  geom : c.Geom
  elastic : c.Elastic
  fe : c.fe = gridS
  dofs : c.nn * c.dim = 18
  nvoi : c.nvoi = 3
  thick : c.thick = 1
  law : ∀ e ∈ gridS.elems, ∀ x v, c.law e x v = s * lawS e x v

theorem planeStrain_scale (k s : ℝ) (x : Nat → ℝ) (v : Nat) :
    planeStrain (k * s) (k * s) x v = s * (k * planeStrain 1 1 x v) := by
  unfold planeStrain hooke
  split <;> split <;> ring

theorem BuiltFrom.isS {s : ℝ} (hs : 0 < s) {j : Junk ℝ} {c : Cfg ℝ} (h : BuiltFrom (exArgsS s) j c) :
    IsS s c := by
  have hg := h.geom (exArgsS_geom s)
  have he := h.elastic (exArgsS_elastic hs)
  have hk := h.ok
  have hel := h.elem
  obtain ⟨et, ct, rfl⟩ := h.eq
  have hd : (Cfg.dim { mkCfg (exArgsS s) j et with ctanLin := ct }) = 2 := rfl
  refine ⟨hk, hg, he, ?_, ?_, ?_, ?_, ?_⟩
  · unfold Cfg.fe
    rw [if_pos hd]
    norm_num [mkCfg, exArgsS, gridS]
  · simp [Cfg.nn, mkCfg, exArgsS]
  · simp [Cfg.nvoi, mkCfg, exArgsS]
  · unfold Cfg.thick
    rw [if_pos hd]
  · intro e he x v
    have hm : e.1 < 2 ∧ e.2.1 < 2 ∧ e.2.2 = 0 := by
      have : e ∈ range 2 ×ˢ range 2 ×ˢ range 1 := he
      simp only [mem_product, mem_range] at this
      omega
    have h0 := hel e.1 e.2.1 e.2.2 (by simpa [mkCfg, exArgsS] using hm.1)
      (by simpa [mkCfg, exArgsS] using hm.2.1) (fun _ => hm.2.2) (fun h => by rw [hd] at h; omega)
    have e1 : elemTypeOf { mkCfg (exArgsS s) j et with ctanLin := ct } e.1 e.2.1 e.2.2
        = if e.2.1 = 0 then 1 else 0 := by
      unfold elemTypeOf getElemType2D
      have := hm.2.1
      interval_cases h : e.2.1 <;> norm_num [mkCfg, exArgsS, lt_real]
    rw [e1] at h0
    unfold Cfg.law Cfg.matAt
    rw [if_pos hd, h0]
    by_cases h2 : e.2.1 = 0
    · have e2 : (Cfg.mats { mkCfg (exArgsS s) j et with ctanLin := ct } 1).lambda = 2 / 5 * s ∧
          (Cfg.mats { mkCfg (exArgsS s) j et with ctanLin := ct } 1).mu = 2 / 5 * s := by
        constructor
        · norm_num [mkCfg, exArgsS, mkMaterial]; ring
        · norm_num [mkCfg, exArgsS, mkMaterial]; ring
      rw [if_pos h2, if_neg (by decide), e2.1, e2.2, planeStrain_scale]
      unfold lawS
      rw [if_pos h2]
    · have e2 : (Cfg.mats { mkCfg (exArgsS s) j et with ctanLin := ct } 0).lambda = 4 / 5 * s ∧
          (Cfg.mats { mkCfg (exArgsS s) j et with ctanLin := ct } 0).mu = 4 / 5 * s := by
        constructor
        · norm_num [mkCfg, exArgsS, mkMaterial]; ring
        · norm_num [mkCfg, exArgsS, mkMaterial]; ring
      rw [if_neg h2, if_pos rfl, e2.1, e2.2, planeStrain_scale]
      unfold lawS
      rw [if_neg h2]

/-- The affine field of strain component `i` on the boundary, `midS 0 t` inside. -/
noncomputable def fieldS (t : ℝ) (i r : Nat) : ℝ :=
  if gridS.Bd r then gridS.affine (gridS.symGrad fun v => if v = i then 0 + 1.0e-8 else 0) (fun _ => 0) r
  else midS 0 t r

/-- The residuals of the fields for moduli 1 and 2. -/
noncomputable def resS : ℝ := ∑ t ∈ range 2, ∑ i ∈ range 3,
  norm2 18 (gridS.innerForce (gridS.stress lawS (fieldS t i)))

/-- The modulus. -/
noncomputable def softS : ℝ := 1e-6 / (resS + 1)

theorem resS_nonneg : 0 ≤ resS := sum_nonneg fun _ _ => sum_nonneg fun _ _ => Real.sqrt_nonneg _

theorem softS_pos : 0 < softS := by
  have := resS_nonneg
  unfold softS
  positivity

theorem gridS_inner : ∀ r, r < 18 → (¬ gridS.Bd r ↔ r = 8 ∨ r = 9) := by decide

theorem scaleS_force {s : ℝ} {c : Cfg ℝ} (h : IsS s c) (u : Nat → ℝ) (r : Nat) :
    gridS.force (gridS.stress c.law u) r = s * gridS.force (gridS.stress lawS u) r := by
  unfold Fe.force
  rw [Fe.integral_congr (g := fun e gp => s * gridS.pair (gridS.stress lawS u e gp)
    (gridS.strain (fun q => if q = r then 1 else 0) e gp))]
  · unfold Fe.integral
    rw [mul_sum]
    refine sum_congr rfl fun e _ => ?_
    rw [mul_sum]
    exact sum_congr rfl fun _ _ => by ring
  · intro e he gp _
    unfold Fe.pair Fe.stress
    rw [mul_sum]
    exact sum_congr rfl fun v _ => by rw [h.law e he]; ring

theorem scaleS_ave {s : ℝ} {c : Cfg ℝ} (h : IsS s c) (u : Nat → ℝ) (v : Nat) :
    gridS.aveStress (gridS.stress c.law u) v = s * gridS.aveStress (gridS.stress lawS u) v := by
  unfold Fe.aveStress
  rw [Fe.integral_congr (g := fun e gp => s * gridS.stress lawS u e gp v)]
  · rw [← mul_div_assoc]
    congr 1
    unfold Fe.integral
    rw [mul_sum]
    refine sum_congr rfl fun e _ => ?_
    rw [mul_sum]
    exact sum_congr rfl fun _ _ => by ring
  · intro e he gp _
    exact h.law e he _ v

theorem scaleS_norm {s : ℝ} (hs : 0 < s) {c : Cfg ℝ} (h : IsS s c) (u : Nat → ℝ) :
    norm2 18 (gridS.innerForce (gridS.stress c.law u))
      = s * norm2 18 (gridS.innerForce (gridS.stress lawS u)) := by
  have : gridS.innerForce (gridS.stress c.law u) = fun r => s * gridS.innerForce (gridS.stress lawS u) r := by
    funext r
    unfold Fe.innerForce
    split
    · ring
    · exact scaleS_force h u r
  rw [this]
  unfold norm2 dot
  rw [show ∑ i ∈ range 18, s * gridS.innerForce (gridS.stress lawS u) i
      * (s * gridS.innerForce (gridS.stress lawS u) i) = s ^ 2 * ∑ i ∈ range 18,
      gridS.innerForce (gridS.stress lawS u) i * gridS.innerForce (gridS.stress lawS u) i by
    rw [mul_sum]; exact sum_congr rfl fun _ _ => by ring]
  rw [Real.sqrt_mul (sq_nonneg s), Real.sqrt_sq hs.le]

theorem fieldS_small {c : Cfg ℝ} (h : IsS softS c) {t i : Nat} (ht : t < 2) (hi : i < 3) :
    norm2 18 (gridS.innerForce (gridS.stress c.law (fieldS t i))) < 1e-5 := by
  rw [scaleS_norm softS_pos h]
  have h1 : norm2 18 (gridS.innerForce (gridS.stress lawS (fieldS t i))) ≤ resS := by
    unfold resS
    refine le_trans ?_ (single_le_sum (f := fun t : Nat => ∑ i ∈ range 3,
      norm2 18 (gridS.innerForce (gridS.stress lawS (fieldS t i))))
      (fun _ _ => sum_nonneg fun _ _ => Real.sqrt_nonneg _) (mem_range.mpr ht))
    exact single_le_sum (f := fun i => norm2 18 (gridS.innerForce (gridS.stress lawS (fieldS t i))))
      (fun _ _ => Real.sqrt_nonneg _) (mem_range.mpr hi)
  have h0 := resS_nonneg
  have h2 : softS * (resS + 1) = 1e-6 := by unfold softS; field_simp
  have h3 := mul_le_mul_of_nonneg_left h1 softS_pos.le
  have h4 := softS_pos
  have h5 : (1e-6 : ℝ) < 1e-5 := by norm_num
  nlinarith

/-- The first field is the affine field plus a displacement of the interior node. -/
theorem fieldS_eq (t : ℝ) : ∀ r, r < 18 → fieldS t 0 r = 1 * gridS.affine (gridS.symGrad
    fun v => if v = 0 then 1.0e-8 else 0) (fun _ => 0) r + 1 * midS (-1.0e-8) t r := by
  intro r hr
  unfold fieldS
  split
  · rename_i hb
    have : midS (-1.0e-8) t r = 0 := by
      unfold midS
      rw [if_neg, if_neg]
      · rintro rfl; exact absurd hb ((gridS_inner 9 (by omega)).mpr (Or.inr rfl))
      · rintro rfl; exact absurd hb ((gridS_inner 8 (by omega)).mpr (Or.inl rfl))
    rw [this]
    simp
  · rename_i hb
    obtain rfl | rfl := (gridS_inner r hr).mp hb
    · norm_num [midS, Fe.affine, Fe.symGrad, Fe.coord, gridS, fe2, sum_range_succ]
    · norm_num [midS, Fe.affine, Fe.symGrad, Fe.coord, gridS, fe2, sum_range_succ]

theorem affS_ave (t : ℝ) : gridS.aveStress (gridS.stress lawS (gridS.affine (gridS.symGrad
    fun v => if v = 0 then t else 0) fun _ => 0)) 0 = 9 / 5 * t := by
  have h : ∀ e ∈ gridS.elems, ∀ gp v, v < 3 → gridS.strain (gridS.affine (gridS.symGrad
      fun v => if v = 0 then t else 0) fun _ => 0) e gp v = if v = 0 then t else 0 := by
    intro e he gp v hv
    rw [Fe.strain_affine gridS_good _ _ he gp hv]
    unfold voigt Fe.symGrad
    have : gridS.dim = 2 := rfl
    rw [this]
    interval_cases v <;> simp
  unfold Fe.aveStress Fe.stress
  rw [Fe.integral_congr (g := fun e gp => lawS e (fun v => if v = 0 then t else 0) 0)
    fun e he gp _ => lawS_ok.cong e he _ _ (fun v hv => h e he gp v hv) 0 (by decide), gridS_integral]
  have hv : gridS.vol = 4 := by simp [Fe.vol, Fe.cell, gridS, fe2]
  rw [hv]
  norm_num [lawS, planeStrain, hooke, inPlane, tr]
  ring

theorem fieldS_ave (t : ℝ) :
    gridS.aveStress (gridS.stress lawS (fieldS t 0)) 0 = 9 / 5 * 1.0e-8 - t / 10 := by
  rw [Fe.aveStress_field gridS_good lawS_ok (fieldS_eq t) (v := 0) (by decide),
    Fe.aveStress_lin lawS_ok _ _ _ _ (by decide), affS_ave, midS_ave]
  ring

theorem fieldS_force (t : ℝ) : gridS.force (gridS.stress lawS (fieldS t 0)) 9
    = -(2 / 5 * 1.0e-8) + gridS.force (gridS.stress lawS (midS 0 1)) 9 * t := by
  rw [Fe.force_congr gridS_good lawS_ok (fieldS_eq t), Fe.force_lin lawS_ok, affS_force, midS_force]
  ring

/-- The memory: `t` is the vertical displacement of the interior node. -/
noncomputable def exJunkS (t : ℝ) : Junk ℝ := { exJunk with u := midS 0 t }

/-- The first entry of the linear tangent of the soft cell, as constructed on that memory. -/
theorem S_ctan {env : Env ℝ} (hf : 1 ≤ env.fuel) {t : Nat} (ht : t < 2) :
    ∃ o, construct env (exArgsS softS) (exJunkS t) = .ok o ∧ IsS softS o.cfg ∧
      o.cfg.ctanLin 0 = softS * (9 / 5 - t * 10 ^ 7) := by
  obtain ⟨et, A, hc, hw, hel, he⟩ := construct_eq env (exArgsS_ok softS) (exJunkS t)
  have hS : IsS softS (mkCfg (exArgsS softS) (exJunkS t) et) :=
    BuiltFrom.isS (j := exJunkS t) softS_pos ⟨hc, ⟨et, _, rfl⟩, fun ex ey ez a b c d => hel ex ey ez a b c d⟩
  have key : ∃ r, calcCtanLin env (mkCfg (exArgsS softS) (exJunkS t) et) (exJunkS t).ctanLin
      (startWork (mkCfg (exArgsS softS) (exJunkS t) et) (exJunkS t) A) = .ok r ∧
      r.ctan 0 = softS * (9 / 5 - t * 10 ^ 7) := by
    revert hS hw
    generalize mkCfg (exArgsS softS) (exJunkS t) et = c
    intro hw hS
    unfold calcCtanLin
    have hl := loop_inv (P := fun i (s : CtanState ℝ) => s.work.Ok c ∧
      (∀ q, q < 18 → ¬ gridS.Bd q → s.work.u.val q = midS 0 t q) ∧
      (0 < i → s.ctan 0 = softS * (9 / 5 - t * 10 ^ 7))) (n := c.nvoi)
      (f := fun i s => do
        let r ← solveStrain env c s.work (fun v => if v = i then 0 + 1.0e-8 else 0)
        pure { ctan := setCol c.nvoi i (fun v => r.sig v / 1.0e-8) s.ctan, work := r.nr.work })
      (s := { ctan := (exJunkS t).ctanLin, work := startWork c (exJunkS t) A })
      ⟨hw, fun _ _ _ => rfl, fun h => absurd h (by omega)⟩ ?_
    · obtain ⟨r, h1, -, -, h2⟩ := hl
      exact ⟨r, h1, h2 (by rw [hS.nvoi]; omega)⟩
    · rintro i s hi ⟨a1, a2, a3⟩
      have hi' : i < 3 := by rw [← hS.nvoi]; exact hi
      obtain ⟨r, b1, b2, b3, b4⟩ := solveStrain_small (env := env) hS.ok hS.geom hS.elastic a1 hf
        (eps := fun v => if v = i then 0 + 1.0e-8 else 0) (u := fieldS t i)
        (fun q _ hb => by rw [hS.fe] at hb ⊢; unfold fieldS; rw [if_pos hb])
        (fun q hq hb => by
          rw [hS.fe] at hb
          rw [hS.dofs] at hq
          rw [a2 q hq hb]
          unfold fieldS
          rw [if_neg hb])
        (by rw [hS.fe, hS.dofs]; exact fieldS_small hS ht hi')
      refine ⟨_, by rw [b1, M_bind_ok', M_pure], b2, fun q hq hb => ?_, fun _ => ?_⟩
      · show r.nr.work.u.val q = _
        rw [b3 q (by rw [hS.dofs]; exact hq)]
        unfold fieldS
        rw [if_neg hb]
      · show setCol c.nvoi i _ s.ctan 0 = _
        have := setCol_at c.nvoi i hi (fun v => r.sig v / 1.0e-8) s.ctan (m := c.nvoi) (v := 0) (q := 0)
          (by rw [hS.nvoi]; omega) (by rw [hS.nvoi]; omega)
        rw [zero_mul, zero_add] at this
        unfold setCol
        rw [this]
        split
        · rename_i h0
          subst h0
          rw [b4 0 (by rw [hS.nvoi]; omega), hS.thick, hS.fe, scaleS_ave hS, fieldS_ave]
          norm_num
          ring
        · exact a3 (by omega)
  obtain ⟨r, h1, h2⟩ := key
  refine ⟨_, by rw [he, h1]; rfl, ?_, h2⟩
  exact BuiltFrom.isS (j := exJunkS t) softS_pos (construct_built (exArgsS_ok softS) (by rw [he, h1]; rfl)).1

end Verif
