import Verif.Props.Fem

/-!
# Averages and homogenisation: properties C21, C22, C29, C30, C31

Exact arithmetic.  `calc_ave_strain` and `calc_ave_stress` divide the integral over the cell by
`lx * ly`, also in three dimensions (/repo/src/assembly.cpp:787, 843).  What they return is therefore
`c.thick` times the average, and `c.thick` is `lz` in three dimensions.  C21, C22, C29 and C31 fail for
`lz ≠ 1`: the `_fails` theorems give objects reached by public calls, the `_partial` theorems the exact
factor.
-/

namespace Verif.Props
open Verif Spec Finset

variable {c : Cfg ℝ} {w : Work ℝ}

theorem thick_vol (hc : c.Ok) (hg : c.Geom) : c.fe.vol = c.lx * c.ly * c.thick := c.vol_eq hc hg

theorem thick_pos (hc : c.Ok) (hg : c.Geom) : 0 < c.thick := by
  unfold Cfg.thick
  split
  · exact one_pos
  · exact hg.lz (hc.dim.resolve_left (by assumption))

theorem thick_one (h : c.dim = 2 ∨ c.lz = 1) : c.thick = 1 := by
  unfold Cfg.thick
  split
  · rfl
  · exact h.resolve_left (by assumption)

theorem div_area (hc : c.Ok) (hg : c.Geom) (x : ℝ) : x / (c.lx * c.ly) = c.thick * (x / c.fe.vol) := by
  rw [thick_vol hc hg]
  have h1 := hg.lx.ne'
  have h2 := hg.ly.ne'
  have h3 := (thick_pos hc hg).ne'
  field_simp

theorem nvoi_pos (hc : c.Ok) : 0 < c.nvoi := by unfold Cfg.nvoi; split <;> omega

/-! ### C21 -/

/-- C21, up to the missing factor: after `set_displ(eps)`, whatever the interior displacements are,
`calc_ave_strain` returns `eps` in two dimensions and `lz * eps` in three; it returns `eps` if
`lz = 1`. -/
theorem C21_partial (hc : c.Ok) (hg : c.Geom) (hw : w.Ok c) {eps : Nat → ℝ} {w' : Work ℝ}
    (hs : setDispl c w eps = .ok w') {u : Buf ℝ} (hu : u.size = c.nn * c.dim)
    (hb : ∀ q, q < c.nn * c.dim → c.fe.Bd q → u.val q = w'.u.val q) :
    ∃ f, calcAveStrain c u = .ok f ∧ (∀ v, v < c.nvoi → f v = c.thick * eps v) ∧
      (c.dim = 2 ∨ c.lz = 1 → ∀ v, v < c.nvoi → f v = eps v) := by
  obtain ⟨u', h1, -, h2, -⟩ := setDispl_real hc hg.toDivided hw.u eps
  rw [hs] at h1
  cases h1
  obtain ⟨f, h3, h4⟩ := calcAveStrain_real hc hu
  have h5 : ∀ v, v < c.nvoi → f v = c.thick * eps v := by
    intro v hv
    have hF := c.good hc hg
    have hO : c.fe.OnBd eps u.val := fun r hr hr' => by
      rw [← h2 r hr hr']; rw [c.fe_nn hc] at hr; exact hb r hr hr'
    rw [h4 v hv, Fe.integral_strain hF hO (by rw [c.fe_nvoi]; exact hv), div_area hc hg,
      mul_div_cancel_left₀ _ (Fe.vol_pos hF).ne']
  refine ⟨f, h3, h5, fun h v hv => ?_⟩
  rw [h5 v hv, thick_one h, one_mul]

example (eps : Nat → ℝ) : ∃ w' f, setDispl ex3.cfg ex3.work eps = .ok w' ∧
    calcAveStrain ex3.cfg w'.u = .ok f ∧ ∀ v, v < ex3.cfg.nvoi → f v = ex3.cfg.thick * eps v := by
  obtain ⟨u, h1, h2, -⟩ := C19_displ ex3_ok ex3_geom.toDivided ex3_work.u eps
  obtain ⟨f, h3, h4, -⟩ := C21_partial ex3_ok ex3_geom ex3_work h1 h2 fun _ _ _ => rfl
  exact ⟨_, f, h1, h3, h4⟩

/-- C21 fails: an object reached by public calls for which the average strain is not the prescribed
one. -/
theorem C21_fails : ∃ (a : Args ℝ) (j : Junk ℝ) (calls : List (Call ℝ)) (s : ObjFiles ℝ) (w' : Work ℝ)
    (f : Nat → ℝ), a.Ok ∧ a.Geom ∧ a.Elastic ∧ Reach exEnv a j calls s ∧
      setDispl s.obj.cfg s.obj.work (fun _ => 1) = .ok w' ∧ calcAveStrain s.obj.cfg w'.u = .ok f ∧
      f 0 = 5 := by
  obtain ⟨u, h1, h2, -⟩ := C19_displ ex3_ok ex3_geom.toDivided ex3_work.u fun _ => 1
  obtain ⟨f, h3, h4, -⟩ := C21_partial ex3_ok ex3_geom ex3_work h1 h2 fun _ _ _ => rfl
  refine ⟨_, _, _, _, _, f, exArgs3_ok, exArgs3_geom, exArgs3_elastic,
    Classical.choose_spec (reach_exists exEnv_quick exArgs3_ok exJunk exCalls), h1, h3, ?_⟩
  rw [h4 0 (nvoi_pos ex3_ok), Cfg.thick, if_neg (by rw [ex3_dim]; decide), ex3_lz]
  norm_num

/-! ### C22 -/

/-- C22, up to the missing factor: if all elements have the same linear material and the displacement
is affine, `calc_ave_stress` returns the material law applied to the strain, times `lz` in three
dimensions. -/
theorem C22_partial (hc : c.Ok) (hg : c.Geom) (hl : c.Linear) (hw : w.Ok c) {m : Material ℝ}
    (hm : m.Lame) (hu : ∀ e ∈ c.fe.elems, c.matAt e = m) (G : Nat → Nat → ℝ) (t : Nat → ℝ)
    (h : ∀ q, q < c.nn * c.dim → w.u.val q =
      t (q % c.dim) + ∑ k ∈ range c.dim, G (q % c.dim) k * c.fe.coord (q / c.dim) k) :
    ∃ r, calcAveStress c w = .ok r ∧
      (∀ v, v < c.nvoi → r.ave v = c.thick * isoLaw c.dim m.lambda m.mu (voigt c.dim G) v) ∧
      (c.dim = 2 ∨ c.lz = 1 → ∀ v, v < c.nvoi →
        r.ave v = isoLaw c.dim m.lambda m.mu (voigt c.dim G) v) := by
  obtain ⟨vn, h1, -⟩ := calcAveStress_real hc hw
  have hF := c.good hc hg
  have h2 : ∀ v, v < c.nvoi →
      c.fe.integral (fun e gp => c.sig w.u.val w.varsOld e gp v) / (c.lx * c.ly)
        = c.thick * isoLaw c.dim m.lambda m.mu (voigt c.dim G) v := by
    intro v hv
    have hv' : v < c.fe.nvoi := by rw [c.fe_nvoi]; exact hv
    rw [Fe.integral_congr (g := fun _ _ => isoLaw c.dim m.lambda m.mu (voigt c.dim G) v),
      Fe.integral_const hF, div_area hc hg, mul_div_cancel_left₀ _ (Fe.vol_pos hF).ne']
    intro e he gp hgp
    rw [c.sig_linear hc hl _ _ he hgp hv']
    have h3 : c.fe.stress c.linLaw w.u.val e gp v = c.linLaw e (voigt c.dim G) v := by
      unfold Fe.stress Cfg.linLaw
      refine sum_congr rfl fun j hj => ?_
      have hj : j < c.fe.nvoi := mem_range.mp hj
      rw [Fe.strain_congr hF (w := c.fe.affine G t) _ he gp hj, Fe.strain_affine hF G t he gp hj,
        c.fe_dim hc]
      intro r hr
      rw [c.fe_nn hc] at hr
      rw [h r hr]
      unfold Fe.affine
      rw [c.fe_dim hc]
    rw [h3, c.linLaw_law hc (by rw [hu e he]; exact hm) _ hv']
    unfold Cfg.law isoLaw
    rw [hu e he]
  refine ⟨_, h1, h2, fun h v hv => ?_⟩
  show c.fe.integral (fun e gp => c.sig w.u.val w.varsOld e gp v) / (c.lx * c.ly) = _
  rw [h2 v hv, thick_one h, one_mul]

theorem exU_matAt (e : Nat × Nat × Nat) : exU.cfg.matAt e = exU.cfg.mats 0 := by
  unfold Cfg.matAt; split
  · rfl
  · exact exU_mats

/-- `exU` with an affine displacement. -/
noncomputable def exUWork (G : Nat → Nat → ℝ) (t : Nat → ℝ) : Work ℝ :=
  { exU.work with u := ⟨exU.cfg.nn * exU.cfg.dim, fun q => t (q % exU.cfg.dim) +
    ∑ k ∈ range exU.cfg.dim, G (q % exU.cfg.dim) k * exU.cfg.fe.coord (q / exU.cfg.dim) k⟩ }

theorem exUWork_ok (G : Nat → Nat → ℝ) (t : Nat → ℝ) : (exUWork G t).Ok exU.cfg := Work.Ok.setU exU_work rfl

example (G : Nat → Nat → ℝ) (t : Nat → ℝ) :=
  C22_partial exU_ok exU_geom exU_elastic.noPlast (exUWork_ok G t)
    (exU_elastic.mats 0 (by decide)).toLame (fun e _ => exU_matAt e) G t fun _ _ => rfl

/-- C22 fails: one object, all elements of the same material with positive shear modulus, uniform
shear strain 1, and an average stress that is five times the law. -/
theorem C22_fails : ∃ (c : Cfg ℝ) (w : Work ℝ) (m : Material ℝ) (G : Nat → Nat → ℝ) (r : AveState ℝ),
    c.Ok ∧ c.Geom ∧ c.Linear ∧ w.Ok c ∧ m.Admissible ∧ (∀ e ∈ c.fe.elems, c.matAt e = m) ∧
      (∀ q, q < c.nn * c.dim → w.u.val q =
        ∑ k ∈ range c.dim, G (q % c.dim) k * c.fe.coord (q / c.dim) k) ∧
      calcAveStress c w = .ok r ∧
      r.ave 3 = 5 * isoLaw c.dim m.lambda m.mu (voigt c.dim G) 3 ∧
      r.ave 3 ≠ isoLaw c.dim m.lambda m.mu (voigt c.dim G) 3 := by
  have hm := exU_elastic.mats 0 (by decide)
  let G : Nat → Nat → ℝ := fun i j => if i = 0 ∧ j = 1 then 1 else 0
  obtain ⟨r, h1, h2, -⟩ := C22_partial exU_ok exU_geom exU_elastic.noPlast (exUWork_ok G fun _ => 0)
    hm.toLame (fun e _ => exU_matAt e) G (fun _ => 0) fun _ _ => rfl
  have h3 := h2 3 (by unfold Cfg.nvoi; rw [exU_dim]; decide)
  rw [Cfg.thick, if_neg (by rw [exU_dim]; decide), exU_lz] at h3
  refine ⟨_, _, _, G, r, exU_ok, exU_geom, exU_elastic.noPlast, exUWork_ok G fun _ => 0, hm,
    fun e _ => exU_matAt e, fun q _ => ?_, h1, h3, ?_⟩
  · show 0 + _ = _
    exact zero_add _
  · rw [h3, exU_dim]
    have hmu : 0 < (exU.cfg.mats 0).mu := by
      rw [hm.mu]; exact div_pos hm.E (by have := hm.lo; linarith)
    have h4 : isoLaw 3 (exU.cfg.mats 0).lambda (exU.cfg.mats 0).mu (voigt 3 G) 3 = (exU.cfg.mats 0).mu := by
      simp [isoLaw, hooke, voigt, G]
    rw [h4]
    intro h
    linarith

/-! ### C29 -/

/-- The displacement field has the boundary values of the macro strain and no residual. -/
structure Equilibrium (c : Cfg ℝ) (w : Work ℝ) (eps : Nat → ℝ) : Prop where
  work : w.Ok c
  boundary : ∀ q, q < c.nn * c.dim → c.fe.Bd q → w.u.val q =
    ∑ k ∈ range c.dim, c.fe.symGrad eps (q % c.dim) k * c.fe.coord (q / c.dim) k
  residual : ZeroResidual c w

theorem Equilibrium.onBd (hc : c.Ok) {eps : Nat → ℝ} (h : Equilibrium c w eps) :
    c.fe.OnBd eps w.u.val := by
  intro r hr hb
  rw [c.fe_nn hc] at hr
  rw [h.boundary r hr hb]
  unfold Fe.affine
  rw [c.fe_dim hc, zero_add]

theorem equilibrium_of (hc : c.Ok) (hw : w.Ok c) {eps u : Nat → ℝ} (hb : c.fe.OnBd eps u)
    (hq : c.fe.Equil (c.sig u w.varsOld)) :
    Equilibrium c { w with u := ⟨c.nn * c.dim, u⟩ } eps := by
  have hw' := Work.Ok.setU (u := ⟨c.nn * c.dim, u⟩) hw rfl
  refine ⟨hw', fun q hq' hb' => ?_, (zeroResidual_iff hc hw').mpr hq⟩
  have := hb q (by rw [c.fe_nn hc]; exact hq') hb'
  unfold Fe.affine at this
  rw [c.fe_dim hc, zero_add] at this
  exact this

/-- Equilibrium exists for every macro strain of an elastic object. -/
theorem equilibrium_exists (hc : c.Ok) (hg : c.Geom) (he : c.Elastic) (hw : w.Ok c) (eps : Nat → ℝ) :
    ∃ u : Buf ℝ, Equilibrium c { w with u := u } eps := by
  obtain ⟨u, h1, h2⟩ := Fe.exists_sol (c.good hc hg) (c.law_ok hc he)
    (c.fe.affine (c.fe.symGrad eps) fun _ => 0) fun _ => 0
  exact ⟨_, equilibrium_of hc hw h1 ((equil_law hc he u w.varsOld).mpr h2)⟩

/-- C29: at equilibrium the average of stress · strain is the product of the average stress with the
macro strain, for the stresses and strains the code computes at the Gauss points.  Any material,
plastic ones included, and any history. -/
theorem C29_hill_mandel (hc : c.Ok) (hg : c.Geom) {eps : Nat → ℝ} (hq : Equilibrium c w eps)
    {e s : Nat × Nat × Nat → Nat → Nat → ℝ} (hf : GpField c w e s) :
    c.fe.integral (fun x gp => c.fe.pair (s x gp) (e x gp)) / c.fe.vol
      = c.fe.pair (fun v => c.fe.integral (fun x gp => s x gp v) / c.fe.vol) eps := by
  have hF := c.good hc hg
  have h1 := Fe.hill_mandel hF ((zeroResidual_iff hc hq.work).mp hq.residual) (hq.onBd hc)
  rw [Fe.integral_congr (g := fun x gp => c.fe.pair (c.sig w.u.val w.varsOld x gp)
    (c.fe.strain w.u.val x gp)) fun x hx gp hgp => Fe.pair_congr
      (fun v hv => (hf.spec hc hq.work hx hgp hv).2) (fun v hv => (hf.spec hc hq.work hx hgp hv).1), h1]
  unfold Fe.pair
  rw [div_eq_mul_inv, sum_mul]
  refine sum_congr rfl fun v hv => ?_
  beta_reduce
  rw [Fe.integral_congr (f := fun x gp => s x gp v) (g := fun x gp => c.sig w.u.val w.varsOld x gp v)
    fun x hx gp hgp => (hf.spec hc hq.work hx hgp (mem_range.mp hv)).2]
  ring

example (eps : Nat → ℝ) : ∃ u : Buf ℝ, Equilibrium ex3.cfg { ex3.work with u := u } eps ∧
    ∃ e s, GpField ex3.cfg { ex3.work with u := u } e s := by
  obtain ⟨u, hq⟩ := equilibrium_exists ex3_ok ex3_geom ex3_elastic ex3_work eps
  exact ⟨u, hq, GpField.exists ex3_ok hq.work⟩

/-- C29 for the value of `calc_ave_stress`, up to the missing factor. -/
theorem C29_partial (hc : c.Ok) (hg : c.Geom) {eps : Nat → ℝ} (hq : Equilibrium c w eps)
    {e s : Nat × Nat × Nat → Nat → Nat → ℝ} (hf : GpField c w e s) :
    ∃ r, calcAveStress c w = .ok r ∧
      c.fe.pair r.ave eps
        = c.thick * (c.fe.integral (fun x gp => c.fe.pair (s x gp) (e x gp)) / c.fe.vol) ∧
      (c.dim = 2 ∨ c.lz = 1 → c.fe.pair r.ave eps
        = c.fe.integral (fun x gp => c.fe.pair (s x gp) (e x gp)) / c.fe.vol) := by
  obtain ⟨vn, h1, -⟩ := calcAveStress_real hc hq.work
  have h2 : c.fe.pair (fun v => c.fe.integral (fun e gp => c.sig w.u.val w.varsOld e gp v) / (c.lx * c.ly)) eps
      = c.thick * (c.fe.integral (fun x gp => c.fe.pair (s x gp) (e x gp)) / c.fe.vol) := by
    rw [C29_hill_mandel hc hg hq hf]
    unfold Fe.pair
    rw [mul_sum]
    refine sum_congr rfl fun v hv => ?_
    beta_reduce
    rw [div_area hc hg, Fe.integral_congr (f := fun x gp => s x gp v)
      (g := fun x gp => c.sig w.u.val w.varsOld x gp v)
      fun x hx gp hgp => (hf.spec hc hq.work hx hgp (mem_range.mp hv)).2]
    ring
  refine ⟨_, h1, h2, fun h => ?_⟩
  show c.fe.pair (fun v => c.fe.integral (fun e gp => c.sig w.u.val w.varsOld e gp v) / (c.lx * c.ly)) eps = _
  rw [h2, thick_one h, one_mul]

example (eps : Nat → ℝ) : ∃ (u : Buf ℝ) (e s : Nat × Nat × Nat → Nat → Nat → ℝ) (r : AveState ℝ),
    GpField ex3.cfg { ex3.work with u := u } e s ∧ calcAveStress ex3.cfg { ex3.work with u := u } = .ok r ∧
    ex3.cfg.fe.pair r.ave eps = ex3.cfg.thick *
      (ex3.cfg.fe.integral (fun x gp => ex3.cfg.fe.pair (s x gp) (e x gp)) / ex3.cfg.fe.vol) := by
  obtain ⟨u, hq⟩ := equilibrium_exists ex3_ok ex3_geom ex3_elastic ex3_work eps
  obtain ⟨e, s, hf⟩ := GpField.exists ex3_ok hq.work
  obtain ⟨r, h1, h2, -⟩ := C29_partial ex3_ok ex3_geom hq hf
  exact ⟨u, e, s, r, hf, h1, h2⟩

/-- C29 fails for the value of `calc_ave_stress`: an elastic object at equilibrium under a non-zero
macro strain. -/
theorem C29_fails : ∃ (c : Cfg ℝ) (w : Work ℝ) (eps : Nat → ℝ)
    (e s : Nat × Nat × Nat → Nat → Nat → ℝ) (r : AveState ℝ),
    c.Ok ∧ c.Geom ∧ c.Elastic ∧ Equilibrium c w eps ∧ GpField c w e s ∧ calcAveStress c w = .ok r ∧
      c.fe.pair r.ave eps ≠ c.fe.integral (fun x gp => c.fe.pair (s x gp) (e x gp)) / c.fe.vol := by
  obtain ⟨u, hq⟩ := equilibrium_exists ex3_ok ex3_geom ex3_elastic ex3_work fun _ => 1
  obtain ⟨e, s, hf⟩ := GpField.exists ex3_ok hq.work
  obtain ⟨r, h1, h2, -⟩ := C29_partial ex3_ok ex3_geom hq hf
  refine ⟨_, _, _, e, s, r, ex3_ok, ex3_geom, ex3_elastic, hq, hf, h1, ?_⟩
  rw [h2, Cfg.thick, if_neg (by rw [ex3_dim]; decide), ex3_lz]
  have hF := ex3.cfg.good ex3_ok ex3_geom
  have hL := ex3.cfg.law_ok ex3_ok ex3_elastic
  have h3 := (equil_law ex3_ok ex3_elastic _ _).mp ((zeroResidual_iff ex3_ok hq.work).mp hq.residual)
  have h4 := Fe.macro_pos hF hL (hq.onBd ex3_ok) h3
    ⟨0, by rw [ex3.cfg.fe_nvoi]; exact nvoi_pos ex3_ok, one_ne_zero⟩
  have h5 : ex3.cfg.fe.pair (ex3.cfg.fe.aveStress (ex3.cfg.fe.stress ex3.cfg.law u.val)) (fun _ => 1)
      = ex3.cfg.fe.integral (fun x gp => ex3.cfg.fe.pair (s x gp) (e x gp)) / ex3.cfg.fe.vol := by
    rw [C29_hill_mandel ex3_ok ex3_geom hq hf]
    unfold Fe.pair
    refine sum_congr rfl fun v hv => ?_
    congr 1
    unfold Fe.aveStress
    congr 1
    refine Fe.integral_congr fun x hx gp hgp => ?_
    rw [(hf.spec ex3_ok hq.work hx hgp (mem_range.mp hv)).2,
      ex3.cfg.sig_elastic ex3_ok ex3_elastic _ _ hx hgp (mem_range.mp hv)]
  rw [h5] at h4
  intro h
  linarith

/-! ### C30 -/

/-- C30: for admissible elastic materials equilibrium exists for every macro strain, and the value of
`calc_ave_stress` at equilibrium is a linear function of the macro strain with a symmetric positive
definite matrix, which does not depend on the displacements or the history.  (In three dimensions the
matrix is `lz` times the homogenised stiffness: see C29.) -/
theorem C30_stiffness (hc : c.Ok) (hg : c.Geom) (he : c.Elastic) :
    (∀ w : Work ℝ, w.Ok c → ∀ eps, ∃ u : Buf ℝ, Equilibrium c { w with u := u } eps) ∧
    ∃ C : Nat → Nat → ℝ,
      (∀ i j, i < c.nvoi → j < c.nvoi → C i j = C j i) ∧
      (∀ eps : Nat → ℝ, (∃ v, v < c.nvoi ∧ eps v ≠ 0) →
        0 < ∑ i ∈ range c.nvoi, ∑ j ∈ range c.nvoi, eps i * C i j * eps j) ∧
      ∀ w eps, Equilibrium c w eps → ∃ r, calcAveStress c w = .ok r ∧
        ∀ v, v < c.nvoi → r.ave v = ∑ j ∈ range c.nvoi, C v j * eps j := by
  refine ⟨fun w hw eps => equilibrium_exists hc hg he hw eps, ?_⟩
  have hF := c.good hc hg
  have hL := c.law_ok hc he
  obtain ⟨C, h1, h2, h3⟩ := Fe.macro_tensor hF hL
  rw [c.fe_nvoi] at h1 h2 h3
  have ht := thick_pos hc hg
  refine ⟨fun i j => c.thick * C i j, fun i j hi hj => by beta_reduce; rw [h1 i j hi hj], fun eps hne => ?_,
    fun w eps hq => ?_⟩
  · have := mul_pos ht (h2 eps hne)
    rw [mul_sum] at this
    refine lt_of_lt_of_eq this ?_
    refine sum_congr rfl fun i _ => ?_
    rw [mul_sum]
    exact sum_congr rfl fun j _ => by ring
  · obtain ⟨vn, h4, -⟩ := calcAveStress_real hc hq.work
    refine ⟨_, h4, fun v hv => ?_⟩
    have h5 := (equil_law hc he _ _).mp ((zeroResidual_iff hc hq.work).mp hq.residual)
    have h6 := h3 eps _ (hq.onBd hc) h5 v hv
    show c.fe.integral (fun e gp => c.sig w.u.val w.varsOld e gp v) / (c.lx * c.ly) = _
    rw [div_area hc hg, Fe.integral_congr (g := fun e gp => c.fe.stress c.law w.u.val e gp v)
      (fun x hx gp hgp => c.sig_elastic hc he _ _ hx hgp (by rw [c.fe_nvoi]; exact hv))]
    unfold Fe.aveStress at h6
    rw [h6, mul_sum]
    exact sum_congr rfl fun j _ => by ring

example := C30_stiffness ex3_ok ex3_geom ex3_elastic
example := C30_stiffness ex2_ok ex2_geom ex2_elastic

/-! ### C31 -/

/-- C31, up to the missing factor: if all elements have the same admissible material, the equilibrated
displacements under macro strain `eps` are exactly the affine ones, and `calc_ave_stress` returns the
law applied to `eps`, times `lz` in three dimensions. -/
theorem C31_partial (hc : c.Ok) (hg : c.Geom) (he : c.Elastic) (hw : w.Ok c) {m : Material ℝ}
    (hu : ∀ e ∈ c.fe.elems, c.matAt e = m) (eps : Nat → ℝ) :
    (Equilibrium c w eps ↔ ∀ q, q < c.nn * c.dim → w.u.val q =
      ∑ k ∈ range c.dim, c.fe.symGrad eps (q % c.dim) k * c.fe.coord (q / c.dim) k) ∧
    (Equilibrium c w eps → ∃ r, calcAveStress c w = .ok r ∧
      (∀ v, v < c.nvoi → r.ave v = c.thick * isoLaw c.dim m.lambda m.mu eps v) ∧
      (c.dim = 2 ∨ c.lz = 1 → ∀ v, v < c.nvoi → r.ave v = isoLaw c.dim m.lambda m.mu eps v)) := by
  have hF := c.good hc hg
  have hL := c.law_ok hc he
  have h0 : ∀ e ∈ c.fe.elems, ∀ x v, v < c.fe.nvoi → c.law e x v = isoLaw c.dim m.lambda m.mu x v := by
    intro e hm x v _
    unfold Cfg.law isoLaw
    rw [hu e hm]
  obtain ⟨-, h2, h3⟩ := Fe.homogeneous hF hL h0 (c.fe.symGrad eps) (fun _ => 0)
    (eps := eps) fun v hv => Fe.voigt_symGrad hF eps hv
  have haff : ∀ q, c.fe.affine (c.fe.symGrad eps) (fun _ => 0) q
      = ∑ k ∈ range c.dim, c.fe.symGrad eps (q % c.dim) k * c.fe.coord (q / c.dim) k := by
    intro q
    unfold Fe.affine
    rw [c.fe_dim hc, zero_add]
  have hiff : Equilibrium c w eps ↔ ∀ q, q < c.nn * c.dim → w.u.val q =
      ∑ k ∈ range c.dim, c.fe.symGrad eps (q % c.dim) k * c.fe.coord (q / c.dim) k := by
    constructor
    · intro hq q hq'
      have h5 := (equil_law hc he _ _).mp ((zeroResidual_iff hc hq.work).mp hq.residual)
      rw [← haff]
      exact Fe.unique hF hL (hq.onBd hc) h5 h2 q (by rw [c.fe_nn hc]; exact hq')
    · intro h
      refine ⟨hw, fun q hq _ => h q hq, (zeroResidual_iff hc hw).mpr ((equil_law hc he _ _).mpr ?_)⟩
      intro r hr hb
      rw [Fe.force_congr hF hL (w := c.fe.affine (c.fe.symGrad eps) fun _ => 0) (fun q hq => by
        rw [c.fe_nn hc] at hq
        rw [h q hq, haff])]
      exact h2 r hr hb
  refine ⟨hiff, fun hq => ?_⟩
  obtain ⟨vn, h4, -⟩ := calcAveStress_real hc hq.work
  have hval : ∀ v, v < c.nvoi →
      c.fe.integral (fun e gp => c.sig w.u.val w.varsOld e gp v) / (c.lx * c.ly)
        = c.thick * isoLaw c.dim m.lambda m.mu eps v := by
    intro v hv
    have hv' : v < c.fe.nvoi := by rw [c.fe_nvoi]; exact hv
    rw [← h3 v hv', div_area hc hg]
    unfold Fe.aveStress
    congr 2
    refine Fe.integral_congr fun x hx gp hgp => ?_
    rw [c.sig_elastic hc he _ _ hx hgp hv']
    unfold Fe.stress
    refine hL.cong x hx _ _ (fun v hv => Fe.strain_congr hF (fun q hq' => ?_) hx gp hv) v hv'
    rw [c.fe_nn hc] at hq'
    rw [hiff.mp hq q hq', haff]
  refine ⟨_, h4, hval, fun h v hv => ?_⟩
  show c.fe.integral (fun e gp => c.sig w.u.val w.varsOld e gp v) / (c.lx * c.ly) = _
  rw [hval v hv, thick_one h, one_mul]

example (eps : Nat → ℝ) :=
  C31_partial exU_ok exU_geom exU_elastic (exUWork_ok (exU.cfg.fe.symGrad eps) fun _ => 0)
    (fun e _ => exU_matAt e) eps

/-- C31 fails for the stress: a homogeneous object at equilibrium whose computed macro stress is five
times the law. -/
theorem C31_fails : ∃ (c : Cfg ℝ) (w : Work ℝ) (m : Material ℝ) (eps : Nat → ℝ) (r : AveState ℝ),
    c.Ok ∧ c.Geom ∧ c.Elastic ∧ (∀ e ∈ c.fe.elems, c.matAt e = m) ∧ Equilibrium c w eps ∧
      calcAveStress c w = .ok r ∧ r.ave 3 = 5 * isoLaw c.dim m.lambda m.mu eps 3 ∧
      r.ave 3 ≠ isoLaw c.dim m.lambda m.mu eps 3 := by
  have hm := exU_elastic.mats 0 (by decide)
  obtain ⟨u, hq⟩ := equilibrium_exists exU_ok exU_geom exU_elastic exU_work fun _ => 1
  obtain ⟨r, h1, h2, -⟩ := (C31_partial exU_ok exU_geom exU_elastic hq.work (fun e _ => exU_matAt e) _).2 hq
  have h3 := h2 3 (by unfold Cfg.nvoi; rw [exU_dim]; decide)
  rw [Cfg.thick, if_neg (by rw [exU_dim]; decide), exU_lz] at h3
  refine ⟨_, _, _, _, r, exU_ok, exU_geom, exU_elastic, fun e _ => exU_matAt e, hq, h1, h3, ?_⟩
  rw [h3, exU_dim]
  have hmu : 0 < (exU.cfg.mats 0).mu := by
    rw [hm.mu]; exact div_pos hm.E (by have := hm.lo; linarith)
  have h4 : isoLaw 3 (exU.cfg.mats 0).lambda (exU.cfg.mats 0).mu (fun _ => 1) 3 = (exU.cfg.mats 0).mu := by
    simp [isoLaw, hooke]
  rw [h4]
  intro h
  linarith

end Verif.Props
