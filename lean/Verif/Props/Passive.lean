import Verif.Spec.Work
import Verif.Lemmas.PassiveCell
import Verif.Props.Plastic
import Verif.Props.PlasticCell

/-!
# Work along a strain path: property C105

Three dimensions, exact arithmetic.  The work of an increment is taken with the stress at its end, as
the implicit scheme of `plastic_step` suggests (/repo/src/assembly.cpp:1007-1062).
-/

namespace Verif.Props
open Verif Spec Finset

variable {c : Cfg ℝ} {w : Work ℝ}

/-! ### One point -/

/-- The strains of a path with the stresses `plastic_step` returns, each evaluated with the internal
variables left by the previous one. -/
noncomputable def response (m : Material ℝ) : List (Nat → ℝ) → (Nat → ℝ) × ℝ → List ((Nat → ℝ) × (Nat → ℝ))
  | [], _ => []
  | e :: es, s => (e, (plasticStep m e s.1 s.2).stress)
    :: response m es ((plasticStep m e s.1 s.2).epsP, (plasticStep m e s.1 s.2).alpha)

theorem response_stored {m : Material ℝ} (hJ : m.J2) (hK : m.Ka = 0) (es : List (Nat → ℝ)) (x p : Nat → ℝ) {a : ℝ}
    (ha : 0 ≤ a) : -stored m x (p, a) ≤ workAlong x (response m es (p, a)) := by
  induction es generalizing x p a with
  | nil => simpa [response, workAlong] using stored_nonneg hJ ha x p
  | cons y es ih =>
    have h1 := stored_work hJ ha x y p
    have h2 := stored_commit hJ hK a y p
    have h3 := ih y (plasticStep m y p a).epsP (ha.trans (plasticStep_alpha_le m y p a hJ.mu_pos))
    simp only [response, workAlong]
    linarith

theorem response_stored_axial {m : Material ℝ} (hJ : m.J2) (es : List (Nat → ℝ)) (x p : Nat → ℝ) {a : ℝ}
    (ha : 0 ≤ a) (hp : ∀ i, 3 ≤ i → i < 6 → p i = 0) (hs : ∀ y ∈ es, ∀ i, 3 ≤ i → i < 6 → y i = 0) :
    -stored m x (p, a) ≤ workAlong x (response m es (p, a)) := by
  induction es generalizing x p a with
  | nil => simpa [response, workAlong] using stored_nonneg hJ ha x p
  | cons y es ih =>
    have hy := hs y (by simp)
    have h1 := stored_work hJ ha x y p
    have h2 := stored_commit_axial hJ ha y p fun i h3 h6 => by rw [hy i h3 h6, hp i h3 h6]
    have h4 : ∀ i, 3 ≤ i → i < 6 → (plasticStep m y p a).epsP i = 0 := by
      intro i h3 h6
      by_cases h : 0 < fTrial m y p a
      · rw [plasticStep_flow m y p a h]
        simp only
        have : sigTrial m y p i = 0 := by
          rw [sigTrial_real, if_neg (by omega)]
          simp only [dev, show ¬ i < 3 by omega, if_false]
          rw [hy i h3 h6, hp i h3 h6]; ring
        rw [this, hp i h3 h6]; ring
      · rw [plasticStep_elastic m y p a h]; exact hp i h3 h6
    have h3 := ih y (plasticStep m y p a).epsP (ha.trans (plasticStep_alpha_le m y p a hJ.mu_pos)) h4
      fun z hz => hs z (by simp [hz])
    simp only [response, workAlong]
    linarith

/-- C105 for one point, what holds: without hardening, and with hardening along paths without shear,
the work supplied from the unloaded virgin state is never negative, whatever the path and the size of
its steps.  Missing: hardening with shear, see `C105_point_fails`. -/
theorem C105_point_partial {m : Material ℝ} (hJ : m.J2) (es : List (Nat → ℝ))
    (h : m.Ka = 0 ∨ ∀ y ∈ es, y 3 = 0 ∧ y 4 = 0 ∧ y 5 = 0) :
    0 ≤ workAlong (fun _ => 0) (response m es (fun _ => 0, 0)) := by
  have h0 := stored_virgin m (x := fun _ => 0) (fun _ _ => rfl) (hJ.radius_pos le_rfl).le
  rcases h with h | h
  · have := response_stored hJ h es (fun _ => 0) (fun _ => 0) le_rfl
    linarith
  · have := response_stored_axial hJ es (fun _ => 0) (fun _ => 0) le_rfl (fun _ _ _ => rfl) fun y hy i h3 h6 => by
      obtain ⟨a, b, d⟩ := h y hy
      obtain rfl | rfl | rfl : i = 3 ∨ i = 4 ∨ i = 5 := by omega
      exacts [a, b, d]
    linarith

theorem exMat_j2 {Sy Ka : ℝ} (hS : 0 < Sy) (hK : 0 ≤ Ka) (pl : Bool) : (exMat Sy Ka pl).J2 := by
  refine ⟨⟨?_, ?_, ?_, ?_, ?_⟩, ?_, hS, hK⟩ <;> norm_num [exMat]

example : 0 ≤ workAlong (fun _ => 0) (response (exMat 1 0 true) [exStrain 3, exStrain 0, exStrain (-1)] (fun _ => 0, 0)) :=
  C105_point_partial (exMat_j2 one_pos le_rfl _) _ (Or.inl rfl)

example : 0 ≤ workAlong (fun _ => 0) (response (exMat 1 2 true) [exStrain 0, fun _ => 0] (fun _ => 0, 0)) :=
  C105_point_partial (exMat_j2 one_pos (by norm_num) _) _ (Or.inr (by simp [exStrain]))

/-- C105 for one point fails: for every material with hardening there is a path of two strains, loading
and unloading in shear, along which more work is returned than was supplied. -/
theorem C105_point_fails {m : Material ℝ} (hJ : m.J2) (hK : 0 < m.Ka) :
    ∃ es : List (Nat → ℝ), workAlong (fun _ => 0) (response m es (fun _ => 0, 0)) < 0 := by
  obtain ⟨p, a, h1, h2, h3⟩ := shear_cycle hJ hK
  refine ⟨[shear (cycle1 m), shear (cycle2 m)], ?_⟩
  have e0 : (fun _ => 0 : Nat → ℝ) = shear 0 := by funext i; simp [shear]
  rw [e0]
  simp only [response, workAlong, power_shear, h1, h2]
  linarith

example : ∃ es : List (Nat → ℝ), workAlong (fun _ => 0) (response (exMat 1 1 true) es (fun _ => 0, 0)) < 0 :=
  C105_point_fails (exMat_j2 one_pos (by norm_num) _) (by norm_num [exMat])

/-! ### A cell -/

/-- The macro strains of a loading with the average stresses `calc_ave_stress` returns: every strain is
solved exactly, and the variables `calc_ave_stress` leaves are the history of the next one
(`update_vars`, /repo/src/homogenize.cpp:211-217). -/
inductive Loading (c : Cfg ℝ) : Buf ℝ → List ((Nat → ℝ) × (Nat → ℝ)) → Prop
  | done (vo : Buf ℝ) : Loading c vo []
  | next {vo vo' : Buf ℝ} {w : Work ℝ} {eps : Nat → ℝ} {r : AveState ℝ} {l : List ((Nat → ℝ) × (Nat → ℝ))}
      (hv : w.varsOld = vo) (hq : Equilibrium c w eps) (hr : calcAveStress c w = .ok r)
      (hn : ∀ k, k < c.numIntVars → vo'.val k = r.varsNew.val k) (hl : Loading c vo' l) :
      Loading c vo ((eps, r.ave) :: l)

theorem loading_stored (hc : c.Ok) (hg : c.Geom) (hJ : c.J2)
    (hK : ∀ i, i < 2 → (c.mats i).plasticity = true → (c.mats i).Ka = 0) {vo : Buf ℝ}
    {l : List ((Nat → ℝ) × (Nat → ℝ))} (h : Loading c vo l) (hH : c.Hardened vo) {eps u : Nat → ℝ} (hu : c.fe.OnBd eps u) :
    -(c.thick / c.fe.vol * c.fe.integral fun e gp => (c.potential hJ hH).W e gp (c.fe.strain u e gp))
      ≤ workAlong eps l := by
  have hd := hJ.dim
  have hF := c.good hc hg
  have ht := thick_pos hc hg
  have hV := Fe.vol_pos hF
  have e6 : c.fe.nvoi = 6 := by rw [Cfg.fe_3 hd]; rfl
  induction h generalizing eps u with
  | done vo =>
    have := Fe.integral_nonneg hF (f := fun e gp => (c.potential hJ hH).W e gp (c.fe.strain u e gp))
      fun e he gp hgp => pot_nonneg hJ hH he (by rw [Cfg.fe_3 hd] at hgp; exact hgp) _
    simp only [workAlong]
    have : 0 ≤ c.thick / c.fe.vol * c.fe.integral fun e gp => (c.potential hJ hH).W e gp (c.fe.strain u e gp) := by
      positivity
    linarith
  | @next vo vo' w eps' r l hv hq hr hn hl ih =>
    subst hv
    have hH' := commits_hardened hc hJ hq.work hH hr hn
    have h1 := ih hH' (hq.onBd hc)
    have h2 := commits_stored hc hg hJ hK hq.work hH hr hn hH'
    have h3 := Fe.pot_rise (c.potential hJ hH) hF (hq.pot hc hJ hH) hu (hq.onBd hc)
    obtain ⟨r', hr', ha⟩ := calcAveStress_ave hc hg hq.work
    rw [hr] at hr'
    cases hr'
    have e : power r.ave (fun i => eps' i - eps i) = c.thick / c.fe.vol
        * c.fe.pair (fun v => c.fe.integral fun e gp => (c.potential hJ hH).field w.u.val e gp v)
          (fun v => eps' v - eps v) := by
      rw [power_sum]
      unfold Fe.pair
      rw [mul_sum, e6]
      refine sum_congr rfl fun v hv' => ?_
      rw [ha, Fe.integral_congr (g := fun e gp => (c.potential hJ hH).field w.u.val e gp v) fun e he gp hgp =>
        Cfg.sig_potential hc hJ hH w.u.val he hgp (by rw [e6]; exact mem_range.mp hv')]
      ring
    simp only [workAlong]
    rw [e]
    have hp : 0 < c.thick / c.fe.vol := by positivity
    have h4 := mul_le_mul_of_nonneg_left h2 hp.le
    have h5 := mul_le_mul_of_nonneg_left h3 hp.le
    rw [mul_sub] at h5
    linarith

/-- C105 for a cell, what holds: elastic elements and plastic elements without hardening in any
arrangement, any loading of exactly solved macro strains from the unloaded virgin state.  Missing:
hardening, see `C105_cell_fails`. -/
theorem C105_cell_partial (hc : c.Ok) (hg : c.Geom) (hJ : c.J2)
    (hK : ∀ i, i < 2 → (c.mats i).plasticity = true → (c.mats i).Ka = 0) {vo : Buf ℝ}
    (h0 : ∀ k, k < c.numIntVars → vo.val k = 0) {l : List ((Nat → ℝ) × (Nat → ℝ))} (h : Loading c vo l) :
    0 ≤ workAlong (fun _ => 0) l := by
  have hd := hJ.dim
  have hF := c.good hc hg
  have hk : ∀ e ∈ c.fe.elems, ∀ gp, gp < 8 → ∀ i, i < 7 → vo.val (intvarIx (c.el e.1 e.2.1 e.2.2) gp i) = 0 := by
    intro e he gp hgp i hi
    obtain ⟨h1, h2, -, h3⟩ := c.mem_elems hc he
    have hlt : c.el e.1 e.2.1 e.2.2 < (c.nx - 1) * (c.ny - 1) * (c.nz - 1) := gloElem3D_lt h1 h2 (h3 hd)
    refine h0 _ ?_
    rw [numIntVars3 hd]
    unfold intvarIx
    omega
  have hH : c.Hardened vo := fun e he _ gp hgp => (hk e he gp hgp 6 (by omega)).ge
  have hs : ∀ e gp v, c.fe.strain (fun _ => 0) e gp v = 0 := by
    intro e gp v
    have := Fe.strain_sub (F := c.fe) (fun _ => 0) (fun _ => 0) e gp v
    simp only [sub_self] at this
    exact this
  have hu : c.fe.OnBd (fun _ => 0) fun _ => 0 := by
    intro r _ _
    unfold Fe.affine Fe.symGrad
    simp
  have h1 := loading_stored hc hg hJ hK h hH hu
  have h2 : c.fe.integral (fun e gp => (c.potential hJ hH).W e gp (c.fe.strain (fun _ => 0) e gp)) = 0 := by
    have : c.fe.integral (fun e gp => (c.potential hJ hH).W e gp (c.fe.strain (fun _ => 0) e gp))
        = c.fe.integral fun _ _ => 0 := by
      refine Fe.integral_congr fun e he gp hgp => ?_
      have hg8 : gp < 8 := by rw [Cfg.fe_3 hd] at hgp; exact hgp
      by_cases hp : (c.matAt e).plasticity = true
      · rw [pot_plastic hJ hH hp, stored_congr (p := epsPAt vo (c.el e.1 e.2.1 e.2.2) gp) (q := fun _ => 0)
          (a := alphaAt vo (c.el e.1 e.2.1 e.2.2) gp) (b := 0) (fun i hi => by
          unfold epsPAt; rw [if_pos hi]; exact hk e he gp hg8 i (by omega)) (hk e he gp hg8 6 (by omega))]
        exact stored_virgin _ (fun i _ => hs e gp i) ((hJ.atP hp).radius_pos le_rfl).le
      · rw [pot_elastic hJ hH hp]
        have : stressNorm (sigTrial (c.matAt e) (c.fe.strain (fun _ => 0) e gp) fun _ => 0) = 0 := by
          have : stressNorm (sigTrial (c.matAt e) (c.fe.strain (fun _ => 0) e gp) fun _ => 0) = stressNorm fun _ => 0 :=
            stressNorm_congr fun i _ => by
              rw [sigTrial_real]
              simp [dev, tr, hs]
          rw [this]; simp [stressNorm]
        unfold radPot
        simp [this, tr, hs]
    rw [this, Fe.integral_const hF, mul_zero]
  rw [h2] at h1
  linarith

/-- A cell without hardening: as `exArgsP`, hardening moduli zero. -/
noncomputable def exArgsK : Args ℝ := { exArgsP with params := fun i => if i % 10 = 3 then 0 else exArgs3.params i }

/-- A cell of one material with hardening. -/
noncomputable def exArgsH : Args ℝ := { exArgsU with matTypes := fun _ => 1 }

theorem exArgsK_ok : exArgsK.Ok := by
  refine ⟨Or.inr rfl, Or.inr rfl, ?_, ?_, fun _ => ?_⟩ <;> simp [exArgsK, exArgsP, exArgs3]

theorem exArgsK_geom : exArgsK.Geom := by
  refine ⟨?_, ?_, fun _ => ?_⟩ <;> norm_num [exArgsK, exArgsP, exArgs3]

theorem exArgsK_j2 : exArgsK.J2 := by
  refine ⟨rfl, ?_, ?_, ?_, fun _ _ => Or.inr (Or.inl rfl), ?_, ?_⟩
  all_goals intro i hi; obtain rfl | rfl : i = 0 ∨ i = 1 := by omega
  all_goals norm_num [exArgsK, exArgs3]

theorem exArgsH_ok : exArgsH.Ok := by
  refine ⟨Or.inr rfl, Or.inr rfl, ?_, ?_, fun _ => ?_⟩ <;> simp [exArgsH, exArgsU, exArgs3]

theorem exArgsH_geom : exArgsH.Geom := by
  refine ⟨?_, ?_, fun _ => ?_⟩ <;> norm_num [exArgsH, exArgsU, exArgs3]

theorem exArgsH_j2 : exArgsH.J2 := by
  refine ⟨rfl, ?_, ?_, ?_, fun _ _ => Or.inr (Or.inl rfl), ?_, ?_⟩
  all_goals intro i hi; obtain rfl | rfl : i = 0 ∨ i = 1 := by omega
  all_goals norm_num [exArgsH, exArgsU, exArgs3]

noncomputable def exK : Obj ℝ := (Classical.choose (reach_exists exEnv_quick exArgsK_ok exJunk exCalls)).obj
noncomputable def exH : Obj ℝ := (Classical.choose (reach_exists exEnv_quick exArgsH_ok exJunk exCalls)).obj

theorem exK_built : BuiltFrom exArgsK exJunk exK.cfg ∧ exK.Ok :=
  reach_built exArgsK_ok (Classical.choose_spec (reach_exists exEnv_quick exArgsK_ok exJunk exCalls))

theorem exH_built : BuiltFrom exArgsH exJunk exH.cfg ∧ exH.Ok :=
  reach_built exArgsH_ok (Classical.choose_spec (reach_exists exEnv_quick exArgsH_ok exJunk exCalls))

theorem exK_perfect : ∀ i, i < 2 → (exK.cfg.mats i).Ka = 0 := by
  obtain ⟨et, ct, h⟩ := exK_built.1.eq
  intro i hi
  rw [h]
  obtain rfl | rfl : i = 0 ∨ i = 1 := by omega
  all_goals simp [mkCfg, mkMaterial, exArgsK]

/-- A loading of two strains exists for the example. -/
example : ∃ (vo : Buf ℝ) (s s' : Nat → ℝ), (∀ k, k < exK.cfg.numIntVars → vo.val k = 0) ∧
    Loading exK.cfg vo [(fun _ => 1, s), (fun v => -v, s')] ∧
    0 ≤ workAlong (fun _ => 0) [(fun _ => 1, s), (fun v => -v, s')] := by
  have hc := exK_built.1.ok
  have hg := exK_built.1.geom exArgsK_geom
  have hJ := exK_built.1.j2 exArgsK_j2
  have hw := exK_built.2.work
  let w0 : Work ℝ := { exK.work with varsOld := ⟨exK.cfg.numIntVars, fun _ => 0⟩ }
  have hw0 : w0.Ok exK.cfg :=
    ⟨hw.u, hw.du, hw.b, hw.elemStress, hw.elemStrain, rfl, hw.varsNew, hw.A2, hw.A3⟩
  have hH : exK.cfg.Hardened w0.varsOld := fun _ _ _ _ _ => le_rfl
  obtain ⟨u, hu⟩ := C74_exists hc hg hJ hw0 hH fun _ => 1
  obtain ⟨vn, hr, hs, -⟩ := calcAveStress_real hc hu.work
  let w1 : Work ℝ := { w0 with varsOld := vn }
  have hw1 : w1.Ok exK.cfg :=
    ⟨hw.u, hw.du, hw.b, hw.elemStress, hw.elemStrain, hs, hw.varsNew, hw.A2, hw.A3⟩
  have hH1 : exK.cfg.Hardened w1.varsOld := commits_hardened (w := { w0 with u := u }) hc hJ hu.work hH hr fun _ _ => rfl
  obtain ⟨u1, hu1⟩ := C74_exists hc hg hJ hw1 hH1 fun v => -v
  obtain ⟨vn1, hr1, -, -⟩ := calcAveStress_real hc hu1.work
  have hl : Loading exK.cfg w0.varsOld [_, _] :=
    .next (w := { w0 with u := u }) rfl hu hr (vo' := vn) (fun _ _ => rfl)
      (.next (w := { w1 with u := u1 }) rfl hu1 hr1 (vo' := vn1) (fun _ _ => rfl) (.done _))
  exact ⟨_, _, _, fun _ _ => rfl, hl, C105_cell_partial hc hg hJ (fun i hi _ => exK_perfect i hi) (fun _ _ => rfl) hl⟩

/-- The same history at all points. -/
structure Uniform (c : Cfg ℝ) (vo : Buf ℝ) (p : Nat → ℝ) (a : ℝ) : Prop where
  size : vo.size = c.numIntVars
  epsP : ∀ e ∈ c.fe.elems, ∀ gp, gp < 8 → ∀ i, i < 6 → epsPAt vo (c.el e.1 e.2.1 e.2.2) gp i = p i
  alpha : ∀ e ∈ c.fe.elems, ∀ gp, gp < 8 → alphaAt vo (c.el e.1 e.2.1 e.2.2) gp = a

/-- A cell of one plastic material with a uniform history follows the law of the point, times the factor
of C22. -/
theorem uniform_step (hc : c.Ok) (hg : c.Geom) (hJ : c.J2) {m : Material ℝ} (hm : ∀ e ∈ c.fe.elems, c.matAt e = m)
    (hp : m.plasticity = true) {w0 : Work ℝ} (hw : w0.Ok c) {vo : Buf ℝ} {p : Nat → ℝ} {a : ℝ} (hv : Uniform c vo p a)
    (eps : Nat → ℝ) : ∃ (w : Work ℝ) (r : AveState ℝ), w.varsOld = vo ∧ Equilibrium c w eps ∧
      calcAveStress c w = .ok r ∧ (∀ v, v < 6 → r.ave v = c.thick * (plasticStep m eps p a).stress v) ∧
      Uniform c r.varsNew (plasticStep m eps p a).epsP (plasticStep m eps p a).alpha := by
  have hd := hJ.dim
  have hF := c.good hc hg
  have e6 : c.fe.nvoi = 6 := by rw [Cfg.fe_3 hd]; rfl
  have e8 : c.fe.npe = 8 := by rw [Cfg.fe_3 hd]; rfl
  let w1 : Work ℝ := { w0 with varsOld := vo }
  have hw1 : w1.Ok c :=
    ⟨hw.u, hw.du, hw.b, hw.elemStress, hw.elemStrain, hv.size, hw.varsNew, hw.A2, hw.A3⟩
  let u := c.fe.affine (c.fe.symGrad eps) fun _ => 0
  have hstr : ∀ e ∈ c.fe.elems, ∀ gp, ∀ v, v < 6 → c.fe.strain u e gp v = eps v := by
    intro e he gp v hv
    rw [← e6] at hv
    rw [Fe.strain_affine hF _ _ he gp hv, Fe.voigt_symGrad hF eps hv]
  have hst : ∀ e ∈ c.fe.elems, ∀ gp, gp < 8 → ∀ v, v < 6 → c.sig u vo e gp v = (plasticStep m eps p a).stress v := by
    intro e he gp hgp v hv6
    unfold Cfg.sig
    rw [if_neg (by omega)]
    unfold Cfg.sigF3 gpSig sig3
    have em : matOf c (c.el e.1 e.2.1 e.2.2) = m := hm e he
    rw [em, if_pos hp, hv.alpha e he gp hgp]
    refine ((plasticStep_congr (fun v hv => ?_) (hv.epsP e he gp hgp) a).2.2 v hv6).2
    rw [← hstr e he gp v hv, Cfg.fe_3 hd]
    exact strain3_eq _ hgp hv
  have hq : Equilibrium c { w1 with u := ⟨c.nn * c.dim, u⟩ } eps :=
    equilibrium_of hc hw1 (fun r _ _ => rfl) (Fe.equil_const hF (s0 := (plasticStep m eps p a).stress)
      fun e he gp hgp v hv => hst e he gp (by omega) v (by omega))
  obtain ⟨r, hr, ha⟩ := calcAveStress_ave hc hg hq.work
  obtain ⟨vn, hr', hs, -⟩ := calcAveStress_real hc hq.work
  refine ⟨_, r, rfl, hq, hr, fun v hv6 => ?_, ?_, ?_, ?_⟩
  · rw [ha, Fe.integral_congr (g := fun _ _ => (plasticStep m eps p a).stress v) fun e he gp hgp =>
      hst e he gp (by omega) v hv6, Fe.integral_const hF]
    have := (Fe.vol_pos hF).ne'
    field_simp
  · rw [hr] at hr'; cases hr'; exact hs
  · intro e he gp hgp i hi
    have h := (commits_point hc hd hq.work hr (vo := r.varsNew) (fun _ _ => rfl) he (by rw [hm e he]; exact hp) hgp).1 i hi
    rw [h, hm e he]
    show (plasticStep m (c.fe.strain u e gp) (epsPAt vo _ gp) (alphaAt vo _ gp)).epsP i = _
    rw [hv.alpha e he gp hgp]
    exact ((plasticStep_congr (hstr e he gp) (hv.epsP e he gp hgp) a).2.2 i hi).1
  · intro e he gp hgp
    have h := (commits_point hc hd hq.work hr (vo := r.varsNew) (fun _ _ => rfl) he (by rw [hm e he]; exact hp) hgp).2
    rw [h, hm e he]
    show (plasticStep m (c.fe.strain u e gp) (epsPAt vo _ gp) (alphaAt vo _ gp)).alpha = _
    rw [hv.alpha e he gp hgp]
    exact (plasticStep_congr (hstr e he gp) (hv.epsP e he gp hgp) a).2.1

/-- C105 for a cell fails: in every cell of one material with hardening there is a loading of two macro
strains from the unloaded virgin state, exactly solved, that returns more work than it was supplied. -/
theorem C105_cell_fails (hc : c.Ok) (hg : c.Geom) (hJ : c.J2) {m : Material ℝ} (hm : ∀ e ∈ c.fe.elems, c.matAt e = m)
    (hp : m.plasticity = true) (hmJ : m.J2) (hK : 0 < m.Ka) {w0 : Work ℝ} (hw : w0.Ok c) {vo : Buf ℝ}
    (hs : vo.size = c.numIntVars) (h0 : ∀ k, k < c.numIntVars → vo.val k = 0) :
    ∃ l, Loading c vo l ∧ workAlong (fun _ => 0) l < 0 := by
  have hd := hJ.dim
  obtain ⟨p, a, h1, h2, h3⟩ := shear_cycle hmJ hK
  have e0 : (fun _ => 0 : Nat → ℝ) = shear 0 := by funext i; simp [shear]
  have hk : ∀ e ∈ c.fe.elems, ∀ gp, gp < 8 → ∀ i, i < 7 → vo.val (intvarIx (c.el e.1 e.2.1 e.2.2) gp i) = 0 := by
    intro e he gp hgp i hi
    obtain ⟨h1, h2, -, h3⟩ := c.mem_elems hc he
    have hlt : c.el e.1 e.2.1 e.2.2 < (c.nx - 1) * (c.ny - 1) * (c.nz - 1) := gloElem3D_lt h1 h2 (h3 hd)
    refine h0 _ ?_
    rw [numIntVars3 hd]
    unfold intvarIx
    omega
  have hv : Uniform c vo (shear 0) 0 := by
    refine ⟨hs, fun e he gp hgp i hi => ?_, fun e he gp hgp => hk e he gp hgp 6 (by omega)⟩
    unfold epsPAt
    rw [if_pos hi, ← e0]
    exact hk e he gp hgp i (by omega)
  obtain ⟨w1, r1, a1, a2, a3, a4, a5⟩ := uniform_step hc hg hJ hm hp hw hv (shear (cycle1 m))
  rw [h1, h2] at a5
  obtain ⟨w2, r2, b1, b2, b3, b4, -⟩ := uniform_step hc hg hJ hm hp hw a5 (shear (cycle2 m))
  refine ⟨_, .next a1 a2 a3 (vo' := r1.varsNew) (fun _ _ => rfl) (.next b1 b2 b3 (vo' := r2.varsNew) (fun _ _ => rfl) (.done _)), ?_⟩
  rw [e0]
  simp only [workAlong, power_shear, a4 3 (by omega), b4 3 (by omega)]
  have := mul_neg_of_pos_of_neg (thick_pos hc hg) h3
  linarith

example : ∃ l, Loading exH.cfg ⟨exH.cfg.numIntVars, fun _ => 0⟩ l ∧ workAlong (fun _ => 0) l < 0 := by
  have hJ := exH_built.1.j2 exArgsH_j2
  have he : exH.cfg.mats 1 = exH.cfg.mats 0 ∧ (exH.cfg.mats 0).plasticity = true ∧ 0 < (exH.cfg.mats 0).Ka := by
    obtain ⟨et, ct, h⟩ := exH_built.1.eq
    rw [h]
    norm_num [mkCfg, exArgsH, exArgsU, exArgs3, mkMaterial]
  refine C105_cell_fails exH_built.1.ok (exH_built.1.geom exArgsH_geom) hJ (m := exH.cfg.mats 0) (fun e _ => ?_) he.2.1
    (hJ.plastic 0 (by omega) he.2.1) he.2.2 exH_built.2.work rfl fun _ _ => rfl
  unfold Cfg.matAt
  split
  · rfl
  · exact he.1

end Verif.Props
