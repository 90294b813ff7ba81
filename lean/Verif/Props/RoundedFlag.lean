import Verif.Lemmas.FpFlag
import Verif.Props.RoundedPlastic

/-!
# Loads below yield in rounded arithmetic: property C90
-/

namespace Verif.Props
open Verif Spec Finset

variable {c : Cfg ℝ} {w : Work ℝ}

/-- Every Gauss point of every plastic element is inside its yield surface. -/
def BelowYield (c : Cfg ℝ) (w : Work ℝ) : Prop :=
  ∀ x ∈ c.fe.elems, (c.matAt x).plasticity = true → ∀ gp, gp < 8 →
    stressNorm (c.trial w x gp) < yieldRadius (c.matAt x).Sy (c.matAt x).Ka
      (w.varsOld.val (intvarIx (gloElem3D c.nx c.ny x.1 x.2.1 x.2.2) gp 6))

/-- C90 for one solve: in an exact equilibrium all Gauss points are inside their yield surfaces.  Then
there are `d` and a precision `u0` such that in every arithmetic at least that precise `newton_raphson`,
for the same cell, history and strain, does not report yielding, when it ends with an error below
`NR_MAX_TOL`, with displacements of the interior nodes at most `M`, and `err + u * M ≤ d`. -/
theorem C90_solved (hc : c.Ok) (hg : c.Geom) (hJ : c.J2) (hH : c.Hardened w.varsOld) {eps : Nat → ℝ}
    (hq : Equilibrium c w eps) (hy : BelowYield c w) :
    ∃ d u0 : ℝ, 0 < d ∧ 0 < u0 ∧ ∀ (fp : Fp), fp.u ≤ u0 → fp.eta ≤ fp.u ^ 2 →
      ∀ (c' : Cfg (Fl fp)), ComputedJ2 c' c → ∀ (env : Env (Fl fp)) (w0 w1 : Work (Fl fp)) (eps' : Nat → Fl fp)
        (o : NrOut (Fl fp)), w0.Ok c' → SameHistory c w0.varsOld w.varsOld →
      (∀ v, v < 6 → (eps' v).val = eps v) → setDispl c' w0 eps' = .ok w1 → newtonRaphson env c' w1 = .ok o →
      o.err.val < fp.rnd 1e-5 → ∀ M, 1 ≤ M →
      (∀ p, p < c.nn * c.dim → ¬ c.fe.Bd p → |(o.work.u.val p).val| ≤ M) → o.err.val + fp.u * M ≤ d →
      o.nl = false := by
  have hd := hJ.dim
  obtain ⟨d, u0, hd0, hu0, H⟩ := plastic_quiet hc hg hJ hH (hq.onBd hc)
    ((zeroResidual_iff hc hq.work).mp hq.residual) (fun x hx hp gp hgp => by
      rw [over_eq hd hgp]
      have := hy x hx hp gp hgp
      linarith)
  refine ⟨d / 3, min u0 (1 / 8), by positivity, by positivity, ?_⟩
  intro fp hu heta c' hcomp env w0 w1 eps' o hw0 hh heps h1 h2 hlt M hM hU hM2
  have hfu := fp.u_nonneg
  have hu8 : fp.u ≤ 1 / 8 := le_trans hu (min_le_right _ _)
  have hok := hcomp.toComputed.ok hc
  have hw1 := setDispl_gen hok hw0.u h1
  have hw1ok : w1.Ok c' := by
    rw [hw1]
    exact ⟨rfl, hw0.du, hw0.b, hw0.elemStress, hw0.elemStrain, hw0.varsOld, hw0.varsNew, hw0.A2, hw0.A3⟩
  have hf := (newtonRaphson_safe (env := env) hok hw1ok).post h2
  obtain ⟨r, r1, r2, r0⟩ := C27_truthful hok hw1ok h2 (by rw [Fl.lt_iff, nrMaxTol_fl]; exact hlt)
  have r3 := assemblyRhs_gen hok hf.ok r1
  rw [r2] at r3
  have he0 : 0 ≤ o.err.val := by
    rw [r3]
    exact Fl.rnd_nonneg (Real.sqrt_nonneg _)
  have hvo : o.work.varsOld = w0.varsOld := by rw [hf.varsOld, hw1]
  have hM0 : fp.u ≤ fp.u * M := le_mul_of_one_le_right hfu hM
  have key := H fp (le_trans hu (min_le_left _ _)) heta c' hcomp o.work.u.val eps' w0.u.val o.work.varsOld
    o.work.b.val (2 * (o.err.val + fp.u)) M (hvo ▸ hh) heps (by positivity) hM hU (by linarith)
    (fun r hr hb => by
      have hr' : r < c'.nn * c'.dim := by rw [hcomp.toComputed.dofs]; exact hr
      rw [newtonRaphson_bdry hok hw1ok h2 hr' ((hcomp.toComputed.onBdry r).mpr ((onBdry_iff hc r).mpr hb)), hw1])
    (fun r hr => norm_small hu8 heta he0 (by rw [← r3, fp.fix _ o.err.mem])
      (by rw [hcomp.toComputed.dofs]; exact hr))
  have hd' : c'.dim = 3 := hcomp.toComputed.dim.trans hd
  have hN : c'.nn * c'.dim = c'.nx * c'.ny * c'.nz * 3 := by rw [hd']; rfl
  rw [assemblyRhs3_eq hok hd' (hf.ok.u3 hd') (by rw [hf.ok.b, hN]) hf.ok.varsOld hf.ok.varsNew] at r1
  cases r1
  rw [← r0]
  show rhsNl c' o.work.u.val o.work.varsOld = false
  rw [Bool.eq_false_iff]
  intro h
  obtain ⟨ex, hex, ey, hey, ez, hez, h⟩ := rhsNl_iff.mp h
  rw [hcomp.toComputed.nx] at hex
  rw [hcomp.toComputed.ny] at hey
  rw [hcomp.toComputed.nz] at hez
  rw [key ex ey ez 7 hex hey hez (by omega)] at h
  cases h

/-- **C90**: take arguments that describe a cell some of whose elements may be plastic, with no element
centre on the interface; a history without negative hardening; a macro strain; and suppose that in an exact
equilibrium for them every Gauss point is inside its yield surface.  There are `d` and a precision `u0` such
that in every arithmetic at least that precise that represents the arguments, whatever the memory, the
calls and the environment, for every Gauss point with that history and strain for which `homogenize` solves
and reports an error below `NR_MAX_TOL`: there is a field `U`, the displacements of that solve, for which, if
they are at most `M` at the interior nodes and `err + u * M ≤ d`, the Gauss point keeps its internal
variables; in particular a Gauss point without history stays without history. -/
theorem C90_history {a : Args ℝ} (ha : a.Ok) (hg : a.Geom) (hJ : a.J2) (ht : NoTie a)
    {env0 : Env ℝ} {j0 : Junk ℝ} {calls0 : List (Call ℝ)} {s0 : ObjFiles ℝ}
    (hs0 : Reach env0 a j0 calls0 s0) (hH : s0.obj.cfg.Hardened w.varsOld) {eps : Nat → ℝ}
    (hq : Equilibrium s0.obj.cfg w eps) (hy : BelowYield s0.obj.cfg w) :
    ∃ d u0 : ℝ, 0 < d ∧ 0 < u0 ∧ ∀ (fp : Fp), fp.u ≤ u0 → fp.eta ≤ fp.u ^ 2 →
      ∀ (env : Env (Fl fp)) (a' : Args (Fl fp)) (j : Junk (Fl fp)) (calls : List (Call (Fl fp)))
        (s : ObjFiles (Fl fp)) (r : Stepped (Fl fp)),
      SameArgs a' a → Reach env a' j calls s → step env s .homogenize = .ok r →
      List.Forall₂ (fun g g' => ¬ TakesLinearPath s.obj.cfg g → (g'.nrErr 0).val < fp.rnd 1e-5 →
        (∀ k, k < s0.obj.cfg.numIntVars → (histVar g k).val = w.varsOld.val k) →
        (∀ v, v < 6 → (g.macroStrain v).val = eps v) →
        ∃ old sig U, (∀ k, k < s0.obj.cfg.numIntVars → old.val k = histVar g k) ∧
          CellField env s.obj.cfg old g.macroStrain sig (g'.nrErr 0) U ∧
          ∀ M, 1 ≤ M → (∀ p, p < s0.obj.cfg.nn * s0.obj.cfg.dim → ¬ s0.obj.cfg.fe.Bd p → |(U p).val| ≤ M) →
            (g'.nrErr 0).val + fp.u * M ≤ d → g'.intVarsN = g.intVarsN ∧ g'.intVarsK = g.intVarsK)
        s.obj.gauss r.state.obj.gauss := by
  obtain ⟨hb0, ho0⟩ := reach_built ha hs0
  obtain ⟨u1, hu1, H1⟩ := built_elements ha ht hb0
  obtain ⟨d, u2, hd, hu2, H2⟩ := C90_solved ho0.cfg (hb0.geom hg) (hb0.j2 hJ) hH hq hy
  refine ⟨d, min u1 u2, hd, lt_min hu1 hu2, ?_⟩
  intro fp hu heta env a' j calls s r hsame hs hr
  have haok := hsame.ok ha
  obtain ⟨hb, ho⟩ := reach_built haok hs
  have hcomp := computedJ2_of_built ha hJ hb0 hsame hb
    (H1 fp (le_trans hu (min_le_left _ _)) heta a' j _ hsame hb)
  have hd3 : s0.obj.cfg.dim = 3 := (hb0.j2 hJ).dim
  have hni : s.obj.cfg.numIntVars = s0.obj.cfg.numIntVars := by
    rw [numIntVars3 hd3, numIntVars3 (hcomp.dim.trans hd3), hcomp.nx, hcomp.ny, hcomp.nz]
  simp only [step, homogenize, bind_ok_iff, pure_ok_iff] at hr
  obtain ⟨o, ⟨r1, h1, rfl⟩, rfl⟩ := hr
  refine (homogenizeList_full ho.cfg ho.work ho.gauss h1).imp ?_
  rintro g g' ⟨w0, s1, hw0, hgo, hs1, rfl⟩ hl hlt hhist hst
  obtain ⟨old', l, h1, h2, h3, -⟩ := homogenizeGp_inv ho.cfg hw0 hgo hs1
  unfold homogenizeGp at hs1
  obtain ⟨old, h4, h5⟩ := loadVars_ok hgo hw0.varsOld
  rw [h4, M_bind_ok', h3, M_bind_ok'] at hs1
  have h6 := isLinear_eq h3
  rw [if_neg (fun hc => hl ⟨Option.isNone_iff_eq_none.mp hc.2, h6 ▸ hc.1⟩)] at hs1
  simp only [bind_ok_iff, pure_ok_iff] at hs1
  obtain ⟨s2, h7, rfl⟩ := hs1
  have hw' : Work.Ok s.obj.cfg { w0 with varsOld := old, invMax := l.2 } :=
    ⟨hw0.u, hw0.du, hw0.b, hw0.elemStress, hw0.elemStrain, h5, hw0.varsNew, hw0.A2, hw0.A3⟩
  have hold : ∀ k, k < s0.obj.cfg.numIntVars → old.val k = histVar g k := by
    intro k hk
    rw [← hni] at hk
    unfold histVar
    unfold loadVars at h4
    split at h4
    · rename_i hb
      rw [zeroInto_eq (by rw [hw0.varsOld])] at h4
      cases h4; simp [hk, hb]
    · rename_i b hb
      rw [copyInto_eq (by rw [hgo.n _ hb]) (by rw [hw0.varsOld])] at h4
      cases h4; simp [hk, hb]
  obtain ⟨w1, o, a, e1, e2, e3, e4, e5, -⟩ := solveGp_flag h7
  refine ⟨old, a.ave, o.work.u.val, hold, ⟨_, w1, o, a, hw', rfl, e1, e2, e3, fun v _ => rfl, e4, rfl⟩,
    fun M hM hU hMd => ?_⟩
  have e4' : s2.gp.nrErr 0 = o.err := e4
  have hlt : (s2.gp.nrErr 0).val < fp.rnd 1e-5 := hlt
  have hMd : (s2.gp.nrErr 0).val + fp.u * M ≤ d := hMd
  rw [e4'] at hlt hMd
  refine e5 (H2 fp (le_trans hu (min_le_right _ _)) heta _ hcomp env _ w1 _ o hw' ?_ hst e1 e2 hlt M hM hU hMd)
  intro ex ey ez hx hy hz gp hgp i hi
  have hk : intvarIx (gloElem3D s0.obj.cfg.nx s0.obj.cfg.ny ex ey ez) gp i < s0.obj.cfg.numIntVars := by
    rw [numIntVars3 hd3]
    exact intvarIx_lt (gloElem3D_lt hx hy hz) hgp hi
  show (old.val _).val = _
  rw [hold _ hk]
  exact hhist _ hk

/-- A Gauss point with a volumetric strain, in a binary format of finite precision: it gets no history. -/
example : ∃ (s0 : ObjFiles ℝ) (w : Work ℝ), Equilibrium s0.obj.cfg w (fun v => if v < 3 then 1 else 0) ∧
    BelowYield s0.obj.cfg w ∧ (s0.obj.cfg.mats 0).plasticity = true ∧
    ∃ (p : Nat) (emin : ℤ) (hp : 1 ≤ p) (hem : emin ≤ 0)
      (s : ObjFiles (Fl (binary p emin hp hem))) (r : Stepped (Fl (binary p emin hp hem))),
      step (tinyEnv _) s .homogenize = .ok r ∧ s.obj.gauss.length = 1 ∧
      (∀ g ∈ s.obj.gauss, ¬ TakesLinearPath s.obj.cfg g ∧ g.macroStrain 0 = 1) ∧
      ∀ g' ∈ r.state.obj.gauss, g'.intVarsN = none := by
  obtain ⟨s0, w, q, hs0, hv0, hu, hq, hH0⟩ := tinyP_exact fun v => if v < 3 then 1 else 0
  obtain ⟨hb0, ho0⟩ := reach_built tinyP_ok hs0
  have hc := ho0.cfg
  have hgeo := hb0.geom tinyP_geom
  have hd3 : s0.obj.cfg.dim = 3 := (hb0.j2 tinyP_j2).dim
  have hbelow : BelowYield s0.obj.cfg w := by
    intro x hx hp gp hgp
    have hst : ∀ v, v < 6 → s0.obj.cfg.fe.strain w.u.val x gp v = if v < 3 then 1 else 0 := by
      intro v hv
      have hv' : v < s0.obj.cfg.fe.nvoi := by rw [Cfg.fe_3 hd3]; exact hv
      have hF := s0.obj.cfg.good hc hgeo
      rw [Fe.strain_congr hF (fun r hr => hu.onBd hc r hr ((onBdry_iff hc r).mp (tinyP_allBdry hb0 r
        (by rw [← s0.obj.cfg.fe_nn hc]; exact hr)))) hx gp hv', Fe.strain_affine hF _ _ hx gp hv',
        Fe.voigt_symGrad hF _ hv']
    have h0 : stressNorm (s0.obj.cfg.trial w x gp) = 0 := by
      have : ∀ v, v < 6 → s0.obj.cfg.trial w x gp v = 0 := by
        intro v hv
        unfold Cfg.trial
        rw [hv0]
        simp only [dev, hooke, tr]
        simp only [sub_zero]
        rw [hst 0 (by omega), hst 1 (by omega), hst 2 (by omega), hst v hv]
        by_cases h3 : v < 3 <;> simp [h3] <;> ring
      rw [stressNorm_congr (t := fun _ => 0) this]
      unfold stressNorm; norm_num
    rw [h0, hv0]
    exact s0.obj.cfg.radius_pos (hb0.j2 tinyP_j2) (hv0 ▸ hH0) hx hp hgp
  obtain ⟨d, u0, hd, hu0, H⟩ := C90_history tinyP_ok tinyP_geom tinyP_j2 tinyP_noTie hs0 hH0 hu hbelow
  refine ⟨s0, w, hu, hbelow, ?_, ?_⟩
  · obtain ⟨et, ct, h⟩ := hb0.eq
    rw [h]; rfl
  obtain ⟨p, emin, hp, hem, hpu, heta⟩ := exists_format (u0 := min u0 (min d 1e-3)) (by positivity)
  refine ⟨p, emin, hp, hem, ?_⟩
  generalize binary p emin hp hem = fp at hpu heta
  have hu3 : fp.u ≤ 1e-3 := le_trans hpu (le_trans (min_le_right _ _) (min_le_right _ _))
  have hud : fp.u ≤ d := le_trans hpu (le_trans (min_le_right _ _) (min_le_left _ _))
  obtain ⟨s, r, g, g', hs, hr, hg, hg', -, hg1, hg2, hpath, herr⟩ :=
    tinyP_setup fp fun v => if v < 3 then 1 else 0
  refine ⟨s, r, hr, by rw [hg]; rfl, fun g0 hg0 => ?_, ?_⟩
  · rw [hg, List.mem_singleton] at hg0
    subst hg0
    exact ⟨hpath, by rw [hg2 0 (by omega)]; rfl⟩
  have hH := H fp (le_trans hpu (min_le_left _ _)) heta (tinyEnv _) _ _ _ s r (tinyP_same fp) hs hr
  rw [hg, hg'] at hH
  cases hH with
  | cons h1 h2 =>
    intro g'' hg''
    rw [hg', List.mem_singleton] at hg''
    subst hg''
    have h0 : (g''.nrErr 0).val = 0 := by rw [herr]; rfl
    obtain ⟨old, sig, U, -, -, h3⟩ := h1 hpath (by rw [h0]; exact tol_pos hu3 heta)
      (fun k _ => by simp [histVar, hg1, hv0]) (fun v hv => by rw [hg2 v hv]; split <;> simp)
    have := h3 1 (le_refl _) (fun p hp hbd => absurd ((onBdry_iff hc p).mp (tinyP_allBdry hb0 p hp)) hbd)
      (by rw [h0]; linarith)
    rw [this.1, hg1]

end Verif.Props
