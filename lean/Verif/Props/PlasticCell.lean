import Verif.Lemmas.Aging
import Verif.Props.Macro
import Verif.Props.Newton
import Verif.Props.History

/-!
# Cells with plastic elements: properties C74 to C77

Three dimensions (the two-dimensional functions ignore plasticity, /repo/src/assembly.cpp:924-961),
exact arithmetic.  The history `vars_old` is arbitrary, apart from negative hardening variables.
Plastic and elastic elements may be mixed.
-/

namespace Verif.Props
open Verif Spec Finset

variable {c : Cfg ℝ} {w w' : Work ℝ}

/-- A history for the examples: hardening and plastic strain everywhere. -/
noncomputable def exHist : Nat → ℝ := fun k =>
  if k % 7 = 6 then 1 / 10 else if k % 7 = 0 then 1 / 100 else if k % 7 = 1 then -(1 / 100) else 0

/-- Working memory with that history, plastic materials, a layered cell. -/
noncomputable def exW : Work ℝ := { exP.work with varsOld := ⟨exP.cfg.numIntVars, exHist⟩ }

theorem exW_ok : exW.Ok exP.cfg :=
  ⟨exP_work.u, exP_work.du, exP_work.b, exP_work.elemStress, exP_work.elemStrain, rfl,
    exP_work.varsNew, exP_work.A2, exP_work.A3⟩

theorem exW_hard : exP.cfg.Hardened exW.varsOld := by
  intro e _ _ gp _
  show (0 : ℝ) ≤ exHist _
  unfold exHist
  have : intvarIx (gloElem3D exP.cfg.nx exP.cfg.ny e.1 e.2.1 e.2.2) gp 6 % 7 = 6 := by unfold intvarIx; omega
  rw [if_pos this]
  norm_num

theorem exP_plastic (e : Nat × Nat × Nat) : (exP.cfg.matAt e).plasticity = true := by
  obtain ⟨et, ct, h⟩ := exP_built.1.eq
  have h1 : ∀ i, i < 2 → (exP.cfg.mats i).plasticity = true := by
    intro i hi
    rw [h]
    simp only [mkCfg, hi, if_true, mkMaterial]
    rfl
  unfold Cfg.matAt
  split <;> exact h1 _ (by omega)

theorem exArgsT_j2 : exArgsT.J2 := by
  refine ⟨rfl, ?_, ?_, ?_, ?_, ?_, ?_⟩
  all_goals intro i hi; obtain rfl | rfl : i = 0 ∨ i = 1 := by omega
  all_goals norm_num [exArgsT]

/-! ### C74 -/

/-- C74: for every history and every macro strain there is an equilibrium. -/
theorem C74_exists (hc : c.Ok) (hg : c.Geom) (hJ : c.J2) (hw : w.Ok c) (hH : c.Hardened w.varsOld)
    (eps : Nat → ℝ) : ∃ u : Buf ℝ, Equilibrium c { w with u := u } eps := by
  obtain ⟨u, h1, h2⟩ := Fe.pot_exists (c.potential hJ hH) (c.good hc hg)
    (c.fe.affine (c.fe.symGrad eps) fun _ => 0)
  exact ⟨_, equilibrium_of hc hw h1 ((c.equil_potential hc hJ hH u).mpr h2)⟩

example : ∃ u : Buf ℝ, Equilibrium exP.cfg { exW with u := u } fun _ => 1 :=
  C74_exists exP_ok exP_geom exP_j2 exW_ok exW_hard _

theorem calcAveStress_ave (hc : c.Ok) (hg : c.Geom) (hw : w.Ok c) : ∃ r, calcAveStress c w = .ok r ∧
    ∀ v, r.ave v = c.thick / c.fe.vol * c.fe.integral fun e gp => c.sig w.u.val w.varsOld e gp v := by
  obtain ⟨vn, h1, -⟩ := calcAveStress_real hc hw
  refine ⟨_, h1, fun v => ?_⟩
  show _ / (c.lx * c.ly) = _
  rw [div_area hc hg]
  ring

theorem Equilibrium.pot (hc : c.Ok) (hJ : c.J2) (hH : c.Hardened w.varsOld) {eps : Nat → ℝ}
    (h : Equilibrium c w eps) : c.fe.Equil ((c.potential hJ hH).field w.u.val) :=
  (c.equil_potential hc hJ hH _).mp ((zeroResidual_iff hc h.work).mp h.residual)

/-- C74: two equilibria for the same history and macro strain have the same stress at every Gauss
point, and `calc_ave_stress` returns the same for both.  (The displacements may differ: a cell may
slip without a change of stress.) -/
theorem C74_unique (hc : c.Ok) (hg : c.Geom) (hJ : c.J2) (hH : c.Hardened w.varsOld) {eps : Nat → ℝ}
    (hq : Equilibrium c w eps) (hq' : Equilibrium c w' eps) (hv : w'.varsOld = w.varsOld)
    {e s e' s' : Nat × Nat × Nat → Nat → Nat → ℝ} (hf : GpField c w e s) (hf' : GpField c w' e' s') :
    (∀ x ∈ c.fe.elems, ∀ gp, gp < 8 → ∀ v, v < 6 → s' x gp v = s x gp v) ∧
    ∃ r r', calcAveStress c w = .ok r ∧ calcAveStress c w' = .ok r' ∧
      ∀ v, v < 6 → r'.ave v = r.ave v := by
  have hd := hJ.dim
  have hF := c.good hc hg
  have e8 : c.fe.npe = 8 := by rw [Cfg.fe_3 hd]; rfl
  have e6 : c.fe.nvoi = 6 := by rw [Cfg.fe_3 hd]; rfl
  have h1 := hq.pot hc hJ hH
  have h2 : c.fe.Equil ((c.potential hJ hH).field w'.u.val) := by
    rw [← c.equil_potential hc hJ hH, ← hv]
    exact (zeroResidual_iff hc hq'.work).mp hq'.residual
  have h3 := Fe.pot_unique _ hF h1 h2 fun r hr hb => by
    rw [hq'.onBd hc r hr hb, hq.onBd hc r hr hb]
  have h4 : ∀ x ∈ c.fe.elems, ∀ gp, gp < c.fe.npe → ∀ v, v < c.fe.nvoi →
      c.sig w'.u.val w'.varsOld x gp v = c.sig w.u.val w.varsOld x gp v := by
    intro x hx gp hgp v hv'
    rw [hv, c.sig_potential hc hJ hH _ hx hgp hv', c.sig_potential hc hJ hH _ hx hgp hv']
    exact h3 x hx gp hgp v hv'
  refine ⟨fun x hx gp hgp v hv' => ?_, ?_⟩
  · rw [← e8] at hgp
    rw [← e6] at hv'
    rw [(hf.spec hc hq.work hx hgp hv').2, (hf'.spec hc hq'.work hx hgp hv').2]
    exact h4 x hx gp hgp v hv'
  · obtain ⟨r, a1, a2⟩ := calcAveStress_ave hc hg hq.work
    obtain ⟨r', b1, b2⟩ := calcAveStress_ave hc hg hq'.work
    refine ⟨r, r', a1, b1, fun v hv' => ?_⟩
    rw [← e6] at hv'
    rw [a2, b2]
    congr 1
    exact Fe.integral_congr fun x hx gp hgp => h4 x hx gp hgp v hv'

example : ∃ (w w' : Work ℝ) (e s e' s' : Nat × Nat × Nat → Nat → Nat → ℝ),
    Equilibrium exP.cfg w (fun _ => 1) ∧ Equilibrium exP.cfg w' (fun _ => 1) ∧ w'.varsOld = w.varsOld ∧
      w'.varsNew ≠ w.varsNew ∧ GpField exP.cfg w e s ∧ GpField exP.cfg w' e' s' ∧
      ∀ x ∈ exP.cfg.fe.elems, ∀ gp, gp < 8 → ∀ v, v < 6 → s' x gp v = s x gp v := by
  have hok : ∀ a : ℝ, Work.Ok exP.cfg { exW with varsNew := ⟨exP.cfg.numIntVars, fun _ => a⟩ } := fun a =>
    ⟨exW_ok.u, exW_ok.du, exW_ok.b, exW_ok.elemStress, exW_ok.elemStrain, exW_ok.varsOld, rfl, exW_ok.A2,
      exW_ok.A3⟩
  have hH : ∀ a : ℝ, exP.cfg.Hardened
      ({ exW with varsNew := ⟨exP.cfg.numIntVars, fun _ => a⟩ } : Work ℝ).varsOld := fun _ => exW_hard
  obtain ⟨u, hu⟩ := C74_exists exP_ok exP_geom exP_j2 (hok 1) exW_hard fun _ => 1
  obtain ⟨u', hu'⟩ := C74_exists exP_ok exP_geom exP_j2 (hok 2) exW_hard fun _ => 1
  obtain ⟨e, s, hf⟩ := GpField.exists exP_ok hu.work
  obtain ⟨e', s', hf'⟩ := GpField.exists exP_ok hu'.work
  refine ⟨_, _, e, s, e', s', hu, hu', rfl, fun h => ?_, hf, hf',
    (C74_unique exP_ok exP_geom exP_j2 (w := { exW with varsNew := ⟨_, _⟩, u := u }) (hH 1) hu hu' rfl hf hf').1⟩
  have := congrFun (congrArg Buf.val h) 0
  norm_num at this

theorem kap_lower (hc : c.Ok) (hg : c.Geom) (hJ : c.J2) : ∃ k : ℝ, 0 < k ∧
    ∀ (vo : Buf ℝ) (hH : c.Hardened vo), ∀ e ∈ c.fe.elems, ∀ gp, gp < c.fe.npe →
      k ≤ (c.potential hJ hH).kap e gp := by
  obtain ⟨k, hk, h⟩ := Fe.exists_lower c.fe.elems (fun e => 1 / (4 * (c.matAt e).mu + 6 * c.bulk e)) fun e _ => by
    have h1 := (hJ.at e).mu_pos
    have h2 : 0 < c.bulk e := div_pos (hJ.at e).bulk_pos (by norm_num)
    positivity
  exact ⟨k, hk, fun vo hH e he gp _ => h e he⟩

theorem ave_sub (hJ : c.J2) (hc : c.Ok) {vo : Buf ℝ} (hH : c.Hardened vo) (u u' : Nat → ℝ) {v : Nat}
    (hv : v < c.fe.nvoi) :
    c.fe.integral (fun e gp => c.sig u' vo e gp v) - c.fe.integral (fun e gp => c.sig u vo e gp v)
      = c.fe.integral fun e gp => (c.potential hJ hH).field u' e gp v - (c.potential hJ hH).field u e gp v := by
  rw [← Fe.integral_sub]
  refine Fe.integral_congr fun e he gp hgp => ?_
  rw [c.sig_potential hc hJ hH _ he hgp hv, c.sig_potential hc hJ hH _ he hgp hv]

/-- C74: the average stress of a displacement field with the boundary values of the macro strain tends
to that of the equilibrium when the residual norm of `assembly_rhs` tends to zero: the square of the
difference is at most a constant times the norm. -/
theorem C74_close (hc : c.Ok) (hg : c.Geom) (hJ : c.J2) (hH : c.Hardened w.varsOld) {eps : Nat → ℝ}
    (hq : Equilibrium c w eps) :
    ∃ K d : ℝ, 0 < K ∧ 0 < d ∧ ∀ w' : Work ℝ, w'.Ok c → w'.varsOld = w.varsOld →
      (∀ q, q < c.nn * c.dim → c.fe.Bd q → w'.u.val q = w.u.val q) →
      ∃ a r r', assemblyRhs c w' = .ok a ∧ calcAveStress c w = .ok r ∧ calcAveStress c w' = .ok r' ∧
        (a.norm ≤ d → ∀ v, v < 6 → (r'.ave v - r.ave v) ^ 2 ≤ K * a.norm) := by
  have hd := hJ.dim
  have hF := c.good hc hg
  have e6 : c.fe.nvoi = 6 := by rw [Cfg.fe_3 hd]; rfl
  obtain ⟨K, d, hK, hd0, h⟩ := Fe.pot_close (c.potential hJ hH) hF (hq.pot hc hJ hH)
  obtain ⟨k, hk, hle⟩ := kap_lower hc hg hJ
  have ht := thick_pos hc hg
  have hV := Fe.vol_pos hF
  refine ⟨(c.thick / c.fe.vol) ^ 2 * (c.fe.vol / k * K), d, by positivity, hd0, fun w' hw' hv hb => ?_⟩
  obtain ⟨f, vn, nl, a1, -, -, a2⟩ := assemblyRhs_real hc hw'
  obtain ⟨r, b1, b2⟩ := calcAveStress_ave hc hg hq.work
  obtain ⟨r', c1, c2⟩ := calcAveStress_ave hc hg hw'
  refine ⟨_, r, r', a1, b1, c1, fun hn v hv' => ?_⟩
  rw [← e6] at hv'
  have hn0 : 0 ≤ norm2 (c.nn * c.dim) f := Real.sqrt_nonneg _
  have h1 := h w'.u.val (norm2 (c.nn * c.dim) f) hn0 hn (fun q hq hb' => by
    rw [c.fe_nn hc] at hq; exact hb q hq hb') fun q hq hb' => by
      rw [c.fe_nn hc] at hq
      rw [← c.force_potential hc hJ hH, ← hv]
      have h2 := a2 q hq
      rw [if_neg hb'] at h2
      have h3 := Fe.abs_le_norm2 (f := f) hq
      rw [h2, abs_neg] at h3
      exact h3
  have h4 := Fe.pot_ave (c.potential hJ hH) hF hk (hle _ hH) w.u.val w'.u.val
  have h5 := single_le_sum (f := fun v => c.fe.integral (fun e gp => (c.potential hJ hH).field w'.u.val e gp v
    - (c.potential hJ hH).field w.u.val e gp v) ^ 2) (fun v _ => sq_nonneg _) (mem_range.mpr hv')
  beta_reduce at h5
  rw [← ave_sub hJ hc hH _ _ hv'] at h5
  rw [b2, c2, ← mul_sub, mul_pow, hv, mul_assoc]
  refine mul_le_mul_of_nonneg_left ?_ (by positivity)
  refine (h5.trans h4).trans ?_
  rw [mul_assoc]
  exact mul_le_mul_of_nonneg_left h1 (by positivity)

example : ∃ u : Buf ℝ, Equilibrium exP.cfg { exW with u := u } (fun _ => 1) ∧
    ∃ K d : ℝ, 0 < K ∧ 0 < d ∧ ∀ w' : Work ℝ, w'.Ok exP.cfg → w'.varsOld = exW.varsOld →
      (∀ q, q < exP.cfg.nn * exP.cfg.dim → exP.cfg.fe.Bd q → w'.u.val q = u.val q) →
      ∃ a r r', assemblyRhs exP.cfg w' = .ok a ∧ calcAveStress exP.cfg { exW with u := u } = .ok r ∧
        calcAveStress exP.cfg w' = .ok r' ∧
        (a.norm ≤ d → ∀ v, v < 6 → (r'.ave v - r.ave v) ^ 2 ≤ K * a.norm) := by
  obtain ⟨u, hu⟩ := C74_exists exP_ok exP_geom exP_j2 exW_ok exW_hard fun _ => 1
  exact ⟨u, hu, C74_close exP_ok exP_geom exP_j2 (w := { exW with u := u }) exW_hard hu⟩

/-- C74: what `set_displ; newton_raphson; calc_ave_stress` returns.  For every history and macro strain
there is an equilibrium; when the loop ends below its tolerance with a small norm, the stress returned
is close to that of the equilibrium, whatever the memory contained before. -/
theorem C74_solved (hc : c.Ok) (hg : c.Geom) (hJ : c.J2) (hw : w.Ok c) (hH : c.Hardened w.varsOld)
    (eps : Nat → ℝ) : ∃ (u : Buf ℝ) (q : AveState ℝ), Equilibrium c { w with u := u } eps ∧
      calcAveStress c { w with u := u } = .ok q ∧
      ∃ K d : ℝ, 0 < K ∧ 0 < d ∧ ∀ (env : Env ℝ) (w' : Work ℝ) (r : PertOut ℝ), w'.Ok c →
        w'.varsOld = w.varsOld → solveStrain env c w' eps = .ok r →
        r.nr.err < nrMaxTol → r.nr.err ≤ d → ∀ v, v < 6 → (r.sig v - q.ave v) ^ 2 ≤ K * r.nr.err := by
  obtain ⟨u, hq⟩ := C74_exists hc hg hJ hw hH eps
  obtain ⟨q, hq1, -⟩ := calcAveStress_ave hc hg hq.work
  obtain ⟨K, d, hK, hd, h⟩ := C74_close hc hg hJ (w := { w with u := u }) hH hq
  refine ⟨u, q, hq, hq1, K, d, hK, hd, fun env w' r hw' hv hr hlt hle v hv6 => ?_⟩
  obtain ⟨u1, h1, h2, h3, -⟩ := setDispl_real hc hg.toDivided hw'.u eps
  unfold solveStrain at hr
  rw [h1, M_bind_ok'] at hr
  simp only [bind_ok_iff, pure_ok_iff] at hr
  obtain ⟨r1, h4, a, h5, rfl⟩ := hr
  have hw1 : Work.Ok c { w' with u := u1 } := Work.Ok.setU hw' h2
  have hf := (newtonRaphson_safe hc hw1).post h4
  obtain ⟨ar, e1, e2, -⟩ := C27_truthful hc hw1 h4 (by rw [lt_real]; exact decide_eq_true hlt)
  obtain ⟨a', r0, r', k1, k2, k3, k4⟩ := h r1.work hf.ok (hf.varsOld.trans hv) fun p hp hb => by
    rw [C27_boundary hc hg hw1 h4 p hp hb]
    have b1 := h3 p (by rw [c.fe_nn hc]; exact hp) hb
    have b2 := hq.onBd hc p (by rw [c.fe_nn hc]; exact hp) hb
    exact b1.trans b2.symm
  rw [e1] at k1; cases k1
  rw [hq1] at k2; cases k2
  rw [h5] at k3; cases k3
  have := k4 (by rw [e2]; exact hle) v hv6
  rw [e2] at this
  exact this

/-- The hypotheses hold in a solve of the thin cell, one of whose elements is plastic; there the norm is
zero and the stress is that of the equilibrium. -/
example : ∃ (s : ObjFiles ℝ) (r : PertOut ℝ) (u : Buf ℝ) (q : AveState ℝ), Reach exEnv exArgsT exJunkT [] s ∧
    solveStrain exEnv s.obj.cfg s.obj.work exShear = .ok r ∧
    Equilibrium s.obj.cfg { s.obj.work with u := u } exShear ∧
    calcAveStress s.obj.cfg { s.obj.work with u := u } = .ok q ∧ ∀ v, v < 6 → r.sig v = q.ave v := by
  obtain ⟨s, hs⟩ := reach_exists exEnv_quick exArgsT_ok exJunkT []
  have hb := reach_built exArgsT_ok hs
  have hT := hb.1.isT
  have hH : s.obj.cfg.Hardened s.obj.work.varsOld := by
    obtain ⟨f, h⟩ := hs
    simp only [bind_ok_iff, constructF, pure_ok_iff, run] at h
    obtain ⟨s0, ⟨o, h1, rfl⟩, rfl⟩ := h
    obtain ⟨et, A, hc, hw, -, h2⟩ := construct_eq exEnv exArgsT_ok exJunkT
    rw [h2] at h1
    cases hr : calcCtanLin exEnv (mkCfg exArgsT exJunkT et) exJunkT.ctanLin
        (startWork (mkCfg exArgsT exJunkT et) exJunkT A) with
    | error e => rw [hr] at h1; cases h1
    | ok r =>
      rw [hr] at h1
      cases h1
      have hv := ((calcCtanLin_safe hc hw exJunkT.ctanLin).post hr).varsOld
      intro e _ _ gp _
      show (0 : ℝ) ≤ r.work.varsOld.val _
      rw [hv]
      exact le_rfl
  obtain ⟨r, hr, ho⟩ := solveStrain_thin (env := exEnv) hT.ok hT.geom hT.dim hT.nx hb.2.work (by decide) exShear
  obtain ⟨u, q, h1, h2, K, d, hK, hd, h3⟩ := C74_solved hT.ok hT.geom (hb.1.j2 exArgsT_j2) hb.2.work hH exShear
  refine ⟨s, r, u, q, hs, hr, h1, h2, fun v hv => ?_⟩
  have := h3 exEnv s.obj.work r hb.2.work rfl hr (by rw [ho.err]; unfold nrMaxTol; norm_num)
    (by rw [ho.err]; exact hd.le) v hv
  rw [ho.err, mul_zero] at this
  have h0 := pow_eq_zero_iff (two_ne_zero) |>.mp (le_antisymm this (sq_nonneg _))
  linarith

/-! ### C75 -/

/-- C75: at a fixed history the macro response is monotone: an increment of the macro strain and the
increment of the average stress never have a negative product.  In particular an increment of one
component never decreases the conjugate stress. -/
theorem C75_monotone (hc : c.Ok) (hg : c.Geom) (hJ : c.J2) (hH : c.Hardened w.varsOld) {eps eps' : Nat → ℝ}
    (hq : Equilibrium c w eps) (hq' : Equilibrium c w' eps') (hv : w'.varsOld = w.varsOld) :
    ∃ r r', calcAveStress c w = .ok r ∧ calcAveStress c w' = .ok r' ∧
      0 ≤ ∑ v ∈ range 6, (r'.ave v - r.ave v) * (eps' v - eps v) := by
  have hd := hJ.dim
  have hF := c.good hc hg
  have e6 : c.fe.nvoi = 6 := by rw [Cfg.fe_3 hd]; rfl
  have h2 : c.fe.Equil ((c.potential hJ hH).field w'.u.val) := by
    rw [← c.equil_potential hc hJ hH, ← hv]
    exact (zeroResidual_iff hc hq'.work).mp hq'.residual
  obtain ⟨r, a1, a2⟩ := calcAveStress_ave hc hg hq.work
  obtain ⟨r', b1, b2⟩ := calcAveStress_ave hc hg hq'.work
  refine ⟨r, r', a1, b1, ?_⟩
  have h3 := Fe.pot_work (c.potential hJ hH) hF (hq.pot hc hJ hH) h2 (hq.onBd hc) (hq'.onBd hc)
  have h4 := Fe.gap_nonneg (c.potential hJ hH) hF w.u.val w'.u.val
  have h5 := Fe.gap_nonneg (c.potential hJ hH) hF w'.u.val w.u.val
  have ht := thick_pos hc hg
  have hV := Fe.vol_pos hF
  have e : ∑ v ∈ range 6, (r'.ave v - r.ave v) * (eps' v - eps v)
      = c.thick / c.fe.vol * c.fe.pair (fun v => c.fe.integral fun e gp =>
        (c.potential hJ hH).field w'.u.val e gp v - (c.potential hJ hH).field w.u.val e gp v)
          (fun v => eps' v - eps v) := by
    unfold Fe.pair
    rw [mul_sum, e6]
    refine sum_congr rfl fun v hv' => ?_
    rw [a2, b2, ← mul_sub, hv, ave_sub hJ hc hH _ _ (by rw [e6]; exact mem_range.mp hv')]
    ring
  rw [e]
  exact mul_nonneg (by positivity) (by linarith)

example : ∃ (u u' : Buf ℝ), Equilibrium exP.cfg { exW with u := u } (fun _ => 1) ∧
    Equilibrium exP.cfg { exW with u := u' } (fun v => v) ∧
    ∃ r r', calcAveStress exP.cfg { exW with u := u } = .ok r ∧
      calcAveStress exP.cfg { exW with u := u' } = .ok r' ∧
      0 ≤ ∑ v ∈ range 6, (r'.ave v - r.ave v) * ((v : ℝ) - 1) := by
  obtain ⟨u, hu⟩ := C74_exists exP_ok exP_geom exP_j2 exW_ok exW_hard fun _ => 1
  obtain ⟨u', hu'⟩ := C74_exists exP_ok exP_geom exP_j2 exW_ok exW_hard fun v => v
  exact ⟨u, u', hu, hu', C75_monotone exP_ok exP_geom exP_j2 (w := { exW with u := u }) exW_hard hu hu' rfl⟩

/-- C75: the macro response is Lipschitz continuous in the macro strain, with a constant that depends
neither on the history nor on the strain: no jumps. -/
theorem C75_lipschitz (hc : c.Ok) (hg : c.Geom) (hJ : c.J2) : ∃ L : ℝ, 0 < L ∧
    ∀ (w w' : Work ℝ) (eps eps' : Nat → ℝ), c.Hardened w.varsOld → w'.varsOld = w.varsOld →
      Equilibrium c w eps → Equilibrium c w' eps' →
      ∃ r r', calcAveStress c w = .ok r ∧ calcAveStress c w' = .ok r' ∧
        ∑ v ∈ range 6, (r'.ave v - r.ave v) ^ 2 ≤ L * ∑ v ∈ range 6, (eps' v - eps v) ^ 2 := by
  have hd := hJ.dim
  have hF := c.good hc hg
  have e6 : c.fe.nvoi = 6 := by rw [Cfg.fe_3 hd]; rfl
  obtain ⟨k, hk, hle⟩ := kap_lower hc hg hJ
  have ht := thick_pos hc hg
  have hV := Fe.vol_pos hF
  refine ⟨(c.thick / c.fe.vol) ^ 2 * (c.fe.vol / k) ^ 2, by positivity, fun w w' eps eps' hH hv hq hq' => ?_⟩
  have h2 : c.fe.Equil ((c.potential hJ hH).field w'.u.val) := by
    rw [← c.equil_potential hc hJ hH, ← hv]
    exact (zeroResidual_iff hc hq'.work).mp hq'.residual
  obtain ⟨r, a1, a2⟩ := calcAveStress_ave hc hg hq.work
  obtain ⟨r', b1, b2⟩ := calcAveStress_ave hc hg hq'.work
  refine ⟨r, r', a1, b1, ?_⟩
  have h3 := Fe.pot_lip (c.potential hJ hH) hF hk (hle _ hH) (hq.pot hc hJ hH) h2 (hq.onBd hc) (hq'.onBd hc)
  rw [e6] at h3
  have e : ∑ v ∈ range 6, (r'.ave v - r.ave v) ^ 2
      = (c.thick / c.fe.vol) ^ 2 * ∑ v ∈ range 6, c.fe.integral (fun e gp =>
        (c.potential hJ hH).field w'.u.val e gp v - (c.potential hJ hH).field w.u.val e gp v) ^ 2 := by
    rw [mul_sum]
    refine sum_congr rfl fun v hv' => ?_
    rw [a2, b2, ← mul_sub, hv, ave_sub hJ hc hH _ _ (by rw [e6]; exact mem_range.mp hv'), mul_pow]
  rw [e, mul_assoc]
  exact mul_le_mul_of_nonneg_left h3 (by positivity)

example : ∃ L : ℝ, 0 < L ∧ ∃ (u u' : Buf ℝ), Equilibrium exP.cfg { exW with u := u } (fun _ => 1) ∧
    Equilibrium exP.cfg { exW with u := u' } (fun v => v) ∧
    ∃ r r', calcAveStress exP.cfg { exW with u := u } = .ok r ∧
      calcAveStress exP.cfg { exW with u := u' } = .ok r' ∧
      ∑ v ∈ range 6, (r'.ave v - r.ave v) ^ 2 ≤ L * ∑ v ∈ range 6, ((v : ℝ) - 1) ^ 2 := by
  obtain ⟨u, hu⟩ := C74_exists exP_ok exP_geom exP_j2 exW_ok exW_hard fun _ => 1
  obtain ⟨u', hu'⟩ := C74_exists exP_ok exP_geom exP_j2 exW_ok exW_hard fun v => v
  obtain ⟨L, hL, h⟩ := C75_lipschitz exP_ok exP_geom exP_j2
  exact ⟨L, hL, u, u', hu, hu', h _ _ _ _ exW_hard rfl hu hu'⟩

/-! ### C76 -/

theorem sdot_integral (F : Fe) (t : Nat → ℝ) (s : Nat × Nat × Nat → Nat → Nat → ℝ) :
    sdot t (fun v => F.integral fun e gp => s e gp v) = F.integral fun e gp => sdot t (s e gp) := by
  unfold sdot
  have h := fun (a b : ℝ) (f g : Nat × Nat × Nat → Nat → ℝ) => Fe.integral_lin (F := F) f g a b
  have e : (fun e gp => t 0 * s e gp 0 + t 1 * s e gp 1 + t 2 * s e gp 2
      + 2 * (t 3 * s e gp 3 + t 4 * s e gp 4 + t 5 * s e gp 5))
      = fun e gp => 1 * (1 * (t 0 * s e gp 0 + t 1 * s e gp 1) + t 2 * s e gp 2)
        + 2 * (1 * (t 3 * s e gp 3 + t 4 * s e gp 4) + t 5 * s e gp 5) := by
    funext e gp; ring
  rw [e, h, h 1 (t 2), h 1 (t 5), h (t 0) (t 1), h (t 3) (t 4)]
  ring

theorem dev_integral (F : Fe) (s : Nat × Nat × Nat → Nat → Nat → ℝ) (i : Nat) :
    dev (fun v => F.integral fun e gp => s e gp v) i = F.integral fun e gp => dev (s e gp) i := by
  unfold dev tr
  by_cases h : i < 3
  · simp only [h, if_true]
    have h := fun (a b : ℝ) (f g : Nat × Nat × Nat → Nat → ℝ) => Fe.integral_lin (F := F) f g a b
    have e : (fun e gp => s e gp i - (s e gp 0 + s e gp 1 + s e gp 2) / 3)
        = fun e gp => 1 * s e gp i + (-(1 / 3)) * (1 * (1 * s e gp 0 + 1 * s e gp 1) + 1 * s e gp 2) := by
      funext e gp; ring
    rw [e, h, h 1 1, h 1 1]
    ring
  · simp only [h, if_false]

/-- The norm of an integral is at most the integral of the norm. -/
theorem stressNorm_integral {F : Fe} (hF : F.Good) {s : Nat × Nat × Nat → Nat → Nat → ℝ}
    {R : Nat × Nat × Nat → Nat → ℝ} (h : ∀ e ∈ F.elems, ∀ gp, gp < F.npe → stressNorm (s e gp) ≤ R e gp) :
    stressNorm (fun v => F.integral fun e gp => s e gp v) ≤ F.integral R := by
  let T : Nat → ℝ := fun v => F.integral fun e gp => s e gp v
  show stressNorm T ≤ _
  have hT := stressNorm_nonneg T
  rcases hT.eq_or_lt with h0 | h0
  · rw [← h0]
    exact Fe.integral_nonneg hF fun e he gp hg => (stressNorm_nonneg _).trans (h e he gp hg)
  · have h1 : stressNorm T ^ 2 = sdot T T := by rw [stressNorm_sq]; unfold sdot; ring
    have h2 : sdot T T = F.integral fun e gp => sdot T (s e gp) := sdot_integral F T s
    have h3 : (F.integral fun e gp => sdot T (s e gp)) ≤ F.integral fun e gp => stressNorm T * R e gp :=
      Fe.integral_mono hF fun e he gp hg => (sdot_le _ _).trans
        (mul_le_mul_of_nonneg_left (h e he gp hg) hT)
    rw [Fe.integral_smul, ← h2, ← h1, sq] at h3
    exact le_of_mul_le_mul_left h3 h0

/-- C76: in a cell whose elements are all plastic the deviator of the average stress is at most the
volume average of the yield radii (times the factor `lz` of C29), whatever the displacements are: also
for large strains and for a solve that did not converge. -/
theorem C76_limit (hc : c.Ok) (hg : c.Geom) (hJ : c.J2) (hw : w.Ok c) (hH : c.Hardened w.varsOld)
    (hp : ∀ e ∈ c.fe.elems, (c.matAt e).plasticity = true) :
    ∃ r, calcAveStress c w = .ok r ∧
      stressNorm (dev r.ave) ≤ c.thick * (c.fe.integral (c.radius w.varsOld) / c.fe.vol) := by
  have hd := hJ.dim
  have hF := c.good hc hg
  have e8 : c.fe.npe = 8 := by rw [Cfg.fe_3 hd]; rfl
  have e6 : c.fe.nvoi = 6 := by rw [Cfg.fe_3 hd]; rfl
  have ht := thick_pos hc hg
  have hV := Fe.vol_pos hF
  obtain ⟨r, a1, a2⟩ := calcAveStress_ave hc hg hw
  refine ⟨r, a1, ?_⟩
  have e1 : ∀ i, dev r.ave i = c.thick / c.fe.vol
      * c.fe.integral fun e gp => dev (c.sig w.u.val w.varsOld e gp) i := by
    intro i
    rw [← dev_integral]
    unfold dev tr
    simp only [a2]
    split <;> ring
  have e2 : dev r.ave = fun i => c.thick / c.fe.vol
      * c.fe.integral fun e gp => dev (c.sig w.u.val w.varsOld e gp) i := funext e1
  rw [e2, stressNorm_smul, abs_of_pos (by positivity)]
  have h1 := stressNorm_integral hF (s := fun e gp => dev (c.sig w.u.val w.varsOld e gp))
    (R := c.radius w.varsOld) fun e he gp hgp => by
      have hgp8 := hgp
      rw [e8] at hgp8
      have hR := (c.radius_pos hJ hH he (hp e he) hgp8).le
      have e3 : c.sig w.u.val w.varsOld e gp = (plasticStep (c.matAt e)
          (strain3 c w.u.val e.1 e.2.1 e.2.2 gp) (epsPAt w.varsOld (c.el e.1 e.2.1 e.2.2) gp)
          (alphaAt w.varsOld (c.el e.1 e.2.1 e.2.2) gp)).stress := by
        funext v
        unfold Cfg.sig
        rw [if_neg (by omega)]
        unfold Cfg.sigF3 gpSig sig3
        have em : matOf c (c.el e.1 e.2.1 e.2.2) = c.matAt e := rfl
        rw [em, if_pos (hp e he)]
      have h3 := plasticStep_norm (c.matAt e) (strain3 c w.u.val e.1 e.2.1 e.2.2 gp)
        (epsPAt w.varsOld (c.el e.1 e.2.1 e.2.2) gp) (alphaAt w.varsOld (c.el e.1 e.2.1 e.2.2) gp)
        (hJ.at e).mu_pos.ne' hR
      rw [e3]
      refine h3.trans_le ?_
      split
      · exact le_rfl
      · rename_i h; exact not_lt.mp h
  calc c.thick / c.fe.vol * _ ≤ c.thick / c.fe.vol * c.fe.integral (c.radius w.varsOld) :=
        mul_le_mul_of_nonneg_left h1 (by positivity)
    _ = _ := by ring

example : ∃ r, calcAveStress exP.cfg exW = .ok r ∧ stressNorm (dev r.ave)
    ≤ exP.cfg.thick * (exP.cfg.fe.integral (exP.cfg.radius exW.varsOld) / exP.cfg.fe.vol) :=
  C76_limit exP_ok exP_geom exP_j2 exW_ok exW_hard fun e _ => exP_plastic e

/-! ### C77 -/

theorem intvarIx_pt (e gp i : Nat) : intvarIx e gp i = (e * 8 + gp) * 7 + i := by unfold intvarIx; omega

theorem plasticPt_elem (hd : c.dim = 3) {x : Nat × Nat × Nat} (hx : x ∈ c.fe.elems)
    (hp : (c.matAt x).plasticity = true) {gp : Nat} (hg : gp < 8) :
    PlasticPt c (gloElem3D c.nx c.ny x.1 x.2.1 x.2.2 * 8 + gp) := by
  have hx' := hx
  rw [Cfg.fe_3 hd, Fe.mem_elems] at hx'
  obtain ⟨h1, h2, h3⟩ := hx'
  have hlt : gloElem3D c.nx c.ny x.1 x.2.1 x.2.2 < c.nelem := by
    rw [nelem3 hd]
    exact gloElem3D_lt h1 h2 h3
  refine ⟨by omega, ?_⟩
  rw [show (gloElem3D c.nx c.ny x.1 x.2.1 x.2.2 * 8 + gp) / 8 = gloElem3D c.nx c.ny x.1 x.2.1 x.2.2 by omega]
  exact hp

/-- C77: in every state reached from the constructor, the committed hardening of a plastic element is
not negative, the committed plastic strain has no trace. -/
theorem C77_history {env : Env ℝ} {a : Args ℝ} (ha : a.Ok) (hJ : a.J2) {j : Junk ℝ}
    {calls : List (Call ℝ)} {s : ObjFiles ℝ} (h : Reach env a j calls s) {id : Int} {n : Buf ℝ}
    (hn : committed s id = some n) : ∀ x ∈ s.obj.cfg.fe.elems, (s.obj.cfg.matAt x).plasticity = true →
      ∀ gp, gp < 8 →
        0 ≤ n.val (intvarIx (gloElem3D s.obj.cfg.nx s.obj.cfg.ny x.1 x.2.1 x.2.2) gp 6) ∧
        ∑ i ∈ range 3, n.val (intvarIx (gloElem3D s.obj.cfg.nx s.obj.cfg.ny x.1 x.2.1 x.2.2) gp i) = 0 := by
  intro x hx hp gp hg
  have hag := reach_aged ha hJ h
  have hd := ((reach_built ha h).1.j2 hJ).dim
  unfold committed at hn
  cases hf : findGp id s.obj.gauss with
  | none => rw [hf] at hn; cases hn
  | some g =>
    rw [hf] at hn
    have h1 := (hag g (findGp_mem' hf)).comm n hn _ (plasticPt_elem hd hx hp hg)
    unfold trAt at h1
    simp only [sum_range_succ, sum_range_zero, zero_add, intvarIx_pt]
    exact h1

/-- A plastic element: number 0 of the thin cell. -/
theorem exT_elem {s : ObjFiles ℝ} {j : Junk ℝ} {calls : List (Call ℝ)} (h : Reach exEnv exArgsT j calls s) :
    (0, 0, 0) ∈ s.obj.cfg.fe.elems ∧ (s.obj.cfg.matAt (0, 0, 0)).plasticity = true ∧
      gloElem3D s.obj.cfg.nx s.obj.cfg.ny 0 0 0 = 0 := by
  have hT := (reach_built exArgsT_ok h).1.isT
  have e : gloElem3D s.obj.cfg.nx s.obj.cfg.ny 0 0 0 = 0 := by unfold gloElem3D; simp
  refine ⟨?_, ?_, e⟩
  · rw [Cfg.fe_3 hT.dim, Fe.mem_elems]
    simp [fe3, hT.nx, hT.ny, hT.nz]
  · have : s.obj.cfg.matAt (0, 0, 0) = matOf s.obj.cfg 0 := by
      unfold Cfg.matAt matOf
      rw [e]
    rw [this, hT.low]

/-- An object that has yielded, its history committed: the hypotheses of C77 hold with variables that
are not zero. -/
example : ∃ (s s' : ObjFiles ℝ) (n n' : Buf ℝ),
    Reach exEnv exArgsT exJunkT [.setStrain 0 exShear, .homogenize] s ∧
    run exEnv [.updateVars] s = .ok s' ∧ committed s 0 = some n ∧ committed s' 0 = some n' ∧
    n.val 3 = 0 ∧ n'.val 3 ≠ 0 ∧ 0 ≤ n'.val 6 ∧ n'.val 0 + n'.val 1 + n'.val 2 = 0 := by
  obtain ⟨s', hs'⟩ := reach_exists exEnv_quick exArgsT_ok exJunkT
    ([.setStrain 0 exShear, .homogenize] ++ [.updateVars])
  obtain ⟨s, r, hs, hu, rfl⟩ := reach_snoc.mp hs'
  obtain ⟨g, n, b, a1, a2, a3, a4, a5, a6, -⟩ := T_first hs
  have hn : committed s 0 = some n := by
    unfold committed; rw [a1]; unfold findGp; rw [if_pos a2]; exact a3
  have hf := updateList_forall (step_gauss hu)
  rw [a1] at hf
  generalize hr : r.state.obj.gauss = l at hf
  cases hf with
  | cons h1 h2 =>
    cases h2
    rename_i g'
    obtain ⟨n', c1, -, c2⟩ := h1.vars n a3
    have hT := (reach_built exArgsT_ok hs).1.isT
    have hn' : committed r.state 0 = some n' := by
      unfold committed; rw [hr]; unfold findGp; rw [if_pos (h1.id.trans a2)]; exact c1
    have h3 := c2 b a5 3 (by rw [hT.num]; omega)
    obtain ⟨e1, e2, e3⟩ := exT_elem hs'
    have h4 := C77_history exArgsT_ok exArgsT_j2 hs' hn' _ e1 e2 0 (by omega)
    simp only [e3] at h4
    refine ⟨s, r.state, n, n', hs, ?_, hn, hn', a4 3 (by omega), by rw [h3]; exact a6, ?_, ?_⟩
    · simp only [run, hu]; rfl
    · simpa [intvarIx] using h4.1
    · simpa [intvarIx, sum_range_succ] using h4.2

/-- C77: along every run from a reached state the committed hardening never decreases. -/
theorem C77_monotone {env : Env ℝ} {a : Args ℝ} (ha : a.Ok) (hJ : a.J2) {j : Junk ℝ}
    {before calls : List (Call ℝ)} {s s' : ObjFiles ℝ} (h : Reach env a j before s)
    (hr : run env calls s = .ok s') {id : Int} {n : Buf ℝ} (hn : committed s id = some n) :
    ∃ n', committed s' id = some n' ∧ ∀ x ∈ s.obj.cfg.fe.elems,
      (s.obj.cfg.matAt x).plasticity = true → ∀ gp, gp < 8 →
        n.val (intvarIx (gloElem3D s.obj.cfg.nx s.obj.cfg.ny x.1 x.2.1 x.2.2) gp 6)
          ≤ n'.val (intvarIx (gloElem3D s.obj.cfg.nx s.obj.cfg.ny x.1 x.2.1 x.2.2) gp 6) := by
  have hb := reach_built ha h
  have hJc := hb.1.j2 hJ
  have hag := reach_aged ha hJ h
  have hok := hb.2
  clear hb h
  induction calls generalizing s n with
  | nil =>
    simp only [run, pure_ok_iff] at hr; subst hr
    exact ⟨n, hn, fun _ _ _ _ _ => le_rfl⟩
  | cons k l ih =>
    simp only [run, bind_ok_iff] at hr
    obtain ⟨r, h1, h2⟩ := hr
    have hcfg := step_cfg h1
    have step1 : ∃ n1, committed r.state id = some n1 ∧ ∀ q, PlasticPt s.obj.cfg q →
        n.val (q * 7 + 6) ≤ n1.val (q * 7 + 6) := by
      by_cases hk : k = .updateVars
      · subst hk
        have hf := updateList_forall (step_gauss h1)
        unfold committed at hn ⊢
        rcases find_forall₂ hf (fun a b hab => hab.id) id with ⟨e1, -⟩ | ⟨g, g', e1, e2, hab⟩
        · rw [e1] at hn; cases hn
        · rw [e1] at hn
          have hm := findGp_mem' e1
          obtain ⟨n1, e3, e4⟩ := (updateGp_older (hok.gauss g hm) (hag g hm) hab).2 n hn
          rw [e2]
          exact ⟨n1, e3, e4⟩
      · obtain ⟨n1, e1, e2⟩ := (committed_step env s k r h1 id).1 n hn
        rw [e2 hk] at e1
        exact ⟨n, e1, fun _ _ => le_rfl⟩
    obtain ⟨n1, e1, e2⟩ := step1
    obtain ⟨n', e3, e4⟩ := ih h2 e1 (by rw [hcfg]; exact hJc) (step_aged hok hJc hag h1)
      ((step_sane hok k).post h1)
    refine ⟨n', e3, fun x hx hp gp hg => ?_⟩
    rw [hcfg] at e4
    have e5 := e4 x hx hp gp hg
    rw [intvarIx_pt] at e5 ⊢
    exact (e2 _ (plasticPt_elem hJc.dim hx hp hg)).trans e5

/-- After the load is committed, two more steps with other strains. -/
example : ∃ (s s' : ObjFiles ℝ) (n n' : Buf ℝ),
    Reach exEnv exArgsT exJunkT [.setStrain 0 exShear, .homogenize] s ∧
    run exEnv [.updateVars, .setStrain 0 (fun _ => 2), .homogenize, .updateVars] s = .ok s' ∧
    committed s 0 = some n ∧ committed s' 0 = some n' ∧ n.val 6 ≤ n'.val 6 := by
  obtain ⟨s, hs⟩ := reach_exists exEnv_quick exArgsT_ok exJunkT [.setStrain 0 exShear, .homogenize]
  obtain ⟨s', hr, -⟩ := (run_sane (env := exEnv) [.updateVars, .setStrain 0 (fun _ => 2), .homogenize, .updateVars]
    (reach_built exArgsT_ok hs).2).returns exEnv_quick
  obtain ⟨g, n, b, a1, a2, a3, -⟩ := T_first hs
  have hn : committed s 0 = some n := by
    unfold committed; rw [a1]; unfold findGp; rw [if_pos a2]; exact a3
  obtain ⟨n', h1, h2⟩ := C77_monotone exArgsT_ok exArgsT_j2 hs hr hn
  obtain ⟨e1, e2, e3⟩ := exT_elem hs
  have h3 := h2 _ e1 e2 0 (by omega)
  simp only [e3] at h3
  exact ⟨s, s', n, n', hs, hr, hn, h1, by simpa [intvarIx] using h3⟩

/-- C77: the history that `homogenize` and `output` load for a Gauss point of a reached object meets the
hypothesis of C74 to C76, so these hold for every problem the object solves. -/
theorem C77_loaded {env : Env ℝ} {a : Args ℝ} (ha : a.Ok) (hJ : a.J2) {j : Junk ℝ}
    {calls : List (Call ℝ)} {s : ObjFiles ℝ} (h : Reach env a j calls s) {g : Gp ℝ}
    (hg : g ∈ s.obj.gauss) {old b : Buf ℝ} (ho : old.size = s.obj.cfg.numIntVars)
    (hb : loadVars s.obj.cfg g.intVarsN old = .ok b) : s.obj.cfg.Hardened b := by
  have hB := reach_built ha h
  have hd := (hB.1.j2 hJ).dim
  have hag := reach_aged ha hJ h g hg
  intro x hx hp gp hgp
  have hq := plasticPt_elem hd hx hp hgp
  have hlt := hq.lt (i := 6) (by omega)
  rw [intvarIx_pt]
  unfold loadVars at hb
  split at hb
  · rw [zeroInto_eq (by rw [ho])] at hb
    cases hb
    show (0 : ℝ) ≤ if _ then _ else _
    rw [if_pos (by exact hlt)]
  · rename_i n hn
    rw [copyInto_eq (by rw [(hB.2.gauss g hg).n _ hn]) (by rw [ho])] at hb
    cases hb
    show (0 : ℝ) ≤ if _ then _ else _
    rw [if_pos (by exact hlt)]
    exact (hag.comm n hn _ hq).1

example : ∃ (s : ObjFiles ℝ) (g : Gp ℝ) (b : Buf ℝ), Reach exEnv exArgsT exJunkT [.setStrain 0 exShear, .homogenize] s ∧ g ∈ s.obj.gauss ∧
    loadVars s.obj.cfg g.intVarsN s.obj.work.varsOld = .ok b ∧ s.obj.cfg.Hardened b ∧
    ∀ eps, ∃ u : Buf ℝ, Equilibrium s.obj.cfg { s.obj.work with varsOld := b, u := u } eps := by
  obtain ⟨s, hs⟩ := reach_exists exEnv_quick exArgsT_ok exJunkT [.setStrain 0 exShear, .homogenize]
  have hb := reach_built exArgsT_ok hs
  obtain ⟨g, -, -, hg, -⟩ := T_first hs
  replace hg : g ∈ s.obj.gauss := by rw [hg]; simp
  obtain ⟨b, h1, h2⟩ := loadVars_ok (hb.2.gauss g hg) hb.2.work.varsOld
  have hH := C77_loaded exArgsT_ok exArgsT_j2 hs hg hb.2.work.varsOld h1
  refine ⟨s, g, b, hs, hg, h1, hH, fun eps => ?_⟩
  have hw : Work.Ok s.obj.cfg { s.obj.work with varsOld := b } :=
    ⟨hb.2.work.u, hb.2.work.du, hb.2.work.b, hb.2.work.elemStress, hb.2.work.elemStrain, h2,
      hb.2.work.varsNew, hb.2.work.A2, hb.2.work.A3⟩
  exact C74_exists hb.1.ok (hb.1.geom exArgsT_geom) (hb.1.j2 exArgsT_j2) hw hH eps

end Verif.Props
