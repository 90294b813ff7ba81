import Verif.Lemmas.FpLim
import Verif.Lemmas.FpAnswer
import Verif.Lemmas.Converge
import Verif.Lemmas.Zero

/-! # A Newton correction in rounded arithmetic lowers the exact energy -/

namespace Verif
open Spec Finset Filter Topology

section Gen
variable {α : Type} [Scalar α] {c : Cfg α} {env : Env α}

/-- A correction as a run of conjugate gradients that starts from zero. -/
theorem nrCorrect_trace (hc : c.Ok) {w : Work α} (hw : w.Ok c) :
    ∃ (A : Ell α) (vn du : Buf α) (k : Nat → α) (s : CgState α) (N : Nat) (St : Nat → CgState α)
      (sF : CgState α),
      assemblyMat c w = .ok { w with A := A, varsNew := vn } ∧ A.nrow = c.nn * c.dim ∧
      nrCorrect env c w = .ok
        { w with A := A, varsNew := vn, du := du, tick := w.tick + 1,
                 u := ⟨c.nn * c.dim, fun k => if k < c.nn * c.dim then w.u.val k + du.val k
                   else w.u.val k⟩ } ∧
      Frame c w { w with A := A, varsNew := vn, du := du, tick := w.tick + 1,
                         u := ⟨c.nn * c.dim, fun k => if k < c.nn * c.dim then w.u.val k + du.val k
                           else w.u.val k⟩ } ∧
      (∀ n d, n < c.nn → d < c.dim → k (n * c.dim + d) =
        1 / A.vals.val ((n * c.dim + d) * A.nnz + ((if c.dim = 2 then 4 else 13) * c.dim + d))) ∧
      s.its = 0 ∧ (∀ q, q < c.nn * c.dim → s.x.val q = 0) ∧
      (∀ q, q < c.nn * c.dim → s.r.val q = rowAcc A s.x.val q - w.b.val q) ∧
      CgTrace A k cgMaxIts cgMaxTol s N St sF ∧ du = (St N).x := by
  obtain ⟨A, vn, du, h1, h2, h3, h4⟩ := nrCorrect_eq (env := env) hc hw
  obtain ⟨A', vn', k1, k2, -⟩ := assemblyMat_ok hc hw
  rw [h1] at k1
  cases k1
  let w1 : Work α := { w with
    A := A, varsNew := vn
    du := ⟨c.nn * c.dim, fun k => if k < c.nn * c.dim then 0 else w.du.val k⟩ }
  have hw1 : w1.Ok c :=
    ⟨k2.u, rfl, k2.b, k2.elemStress, k2.elemStrain, k2.varsOld, k2.varsNew, k2.A2, k2.A3⟩
  have hnr : A.nrow = c.nn * c.dim := (hw1.wf hc).2
  have main : ∀ api : Props.CgApi, api.Fits A w.b w1.du → api.fields = c.dim → api.nodes = c.nn →
      api.slot = (if c.dim = 2 then 4 else 13) →
      (∀ r, api.call (env.cgJunk w.tick)
        { maxIts := cgMaxIts, its := env.solverIts w.tick, minTol := cgMaxTol, err := env.solverErr w.tick }
        A w.b w1.du = .ok r → r.2.2 = some du) →
      ∃ (k : Nat → α) (s : CgState α) (N : Nat) (St : Nat → CgState α) (sF : CgState α),
        (∀ n d, n < c.nn → d < c.dim → k (n * c.dim + d) =
          1 / A.vals.val ((n * c.dim + d) * A.nnz + ((if c.dim = 2 then 4 else 13) * c.dim + d))) ∧
        s.its = 0 ∧ (∀ q, q < c.nn * c.dim → s.x.val q = 0) ∧
        (∀ q, q < c.nn * c.dim → s.r.val q = rowAcc A s.x.val q - w.b.val q) ∧
        CgTrace A k cgMaxIts cgMaxTol s N St sF ∧ du = (St N).x := by
    intro api hf hfi hno hsl hcall
    obtain ⟨W, hs, hW⟩ := hf.slots
    obtain ⟨k, s, N, S, sF, a1, a2, a3, a4, a5, e⟩ := cgSolve_trace hf.wf hW hs (le_of_eq hf.rows)
      hf.b_size hf.x_size (env.cgJunk w.tick)
      { maxIts := cgMaxIts, its := env.solverIts w.tick, minTol := cgMaxTol, err := env.solverErr w.tick }
    have e2 := hcall _ (Props.CgApi.call_eq hf _ _ e)
    simp only [Option.some.injEq] at e2
    refine ⟨k.val, s, N, S, sF, fun n d hn hd => ?_, a2, fun q hq => ?_, fun q hq => ?_, a5, e2.symm⟩
    · have := a1 n d (by rw [hno]; exact hn) (by rw [hfi]; exact hd)
      rw [← slotIx_eq_row, ← hW, hfi, hsl] at this
      exact this
    · rw [a3]; exact if_pos hq
    · rw [a3]; exact a4 q (by rw [hnr]; exact hq)
  suffices H : ∃ (k : Nat → α) (s : CgState α) (N : Nat) (St : Nat → CgState α) (sF : CgState α),
        (∀ n d, n < c.nn → d < c.dim → k (n * c.dim + d) =
          1 / A.vals.val ((n * c.dim + d) * A.nnz + ((if c.dim = 2 then 4 else 13) * c.dim + d))) ∧
        s.its = 0 ∧ (∀ q, q < c.nn * c.dim → s.x.val q = 0) ∧
        (∀ q, q < c.nn * c.dim → s.r.val q = rowAcc A s.x.val q - w.b.val q) ∧
        CgTrace A k cgMaxIts cgMaxTol s N St sF ∧ du = (St N).x by
    obtain ⟨k, s, N, St, sF, H⟩ := H
    exact ⟨A, vn, du, k, s, N, St, sF, h1, hnr, h3, h4, H⟩
  unfold solve at h2
  rcases hc.dim with hd | hd
  · refine main _ (fits2 hc hd hw1) rfl (hc.nn2 hd).symm (if_pos hd).symm ?_
    intro r hr
    obtain ⟨s, x, e1, -⟩ := Props.C12_terminates (fits2 hc hd hw1) (env.cgJunk w.tick)
      { maxIts := cgMaxIts, its := env.solverIts w.tick, minTol := cgMaxTol, err := env.solverErr w.tick }
    have e2 := e1
    simp only [Props.CgApi.call] at e2
    rw [hr] at e1
    cases e1
    rw [if_pos hd] at h2
    rw [e2] at h2
    cases h2
    rfl
  · refine main _ (fits3 hc hd hw1) rfl rfl rfl ?_
    intro r hr
    obtain ⟨s, x, e1, -⟩ := Props.C12_terminates (fits3 hc hd hw1) (env.cgJunk w.tick)
      { maxIts := cgMaxIts, its := env.solverIts w.tick, minTol := cgMaxTol, err := env.solverErr w.tick }
    have e2 := e1
    simp only [Props.CgApi.call] at e2
    rw [hr] at e1
    cases e1
    rw [if_neg (by omega), if_pos hd] at h2
    rw [e2] at h2
    cases h2
    rfl

/-- What `assembly_rhs` leaves. -/
theorem assemblyRhs_full (hc : c.Ok) {w : Work α} (hw : w.Ok c) {r : RhsOut α}
    (h : assemblyRhs c w = .ok r) :
    r.norm = normOf (c.nn * c.dim) (c.residV w.u.val w.varsOld w.b.val) ∧
      r.work.b.val = c.residV w.u.val w.varsOld w.b.val ∧ r.work.u = w.u ∧ Frame c w r.work := by
  refine ⟨assemblyRhs_gen hc hw h, ?_⟩
  obtain ⟨b, vn, nm, nl, h1, h2⟩ := rhs_ok hc hw
  have e : r = _ := Except.ok.inj (h.symm.trans h1)
  refine ⟨?_, by rw [e], by rw [e]; exact h2⟩
  unfold Cfg.residV
  rcases hc.dim with hd | hd
  · have hN : c.nn * c.dim = c.nx * c.ny * 2 := by rw [hc.nn2 hd, hd]
    rw [assemblyRhs2_eq hc hd (hw.u2 hc hd) (by rw [hw.b, hN])] at h
    cases h
    rw [if_pos hd]
  · have hN : c.nn * c.dim = c.nx * c.ny * c.nz * 3 := by rw [hd]; rfl
    rw [assemblyRhs3_eq hc hd (hw.u3 hd) (by rw [hw.b, hN]) hw.varsOld hw.varsNew] at h
    cases h
    rw [if_neg (by omega)]

end Gen

theorem Spec.lim_nrMaxTol {ι : Type} {S : Fam ι} {l : Filter ι} (hl : Fine S l) :
    Lim S l (fun _ => nrMaxTol) 1e-5 := by
  have h := Lim.sci (S := S) hl 10 true 6
  have e : (OfScientific.ofScientific 10 true 6 : ℝ) = 1e-5 := by norm_num
  rw [e] at h
  exact h

theorem Spec.lim_cgMaxTol {ι : Type} {S : Fam ι} {l : Filter ι} (hl : Fine S l) :
    Lim S l (fun _ => cgMaxTol) 1e-8 := by
  have h := Lim.sci (S := S) hl 10 true 9
  have e : (OfScientific.ofScientific 10 true 9 : ℝ) = 1e-8 := by norm_num
  rw [e] at h
  exact h

/-! ## Energies converge -/

namespace Spec.Fe
variable {F : Fe} {L : Nat × Nat × Nat → (Nat → ℝ) → Nat → ℝ} {ι : Type} {l : Filter ι}

theorem force_lim (hF : F.Good) (hL : F.Law L) {u : ι → Nat → ℝ} {U : Nat → ℝ}
    (hu : ∀ q, q < F.nn * F.dim → Tendsto (fun i => u i q) l (𝓝 (U q))) (r : Nat) :
    Tendsto (fun i => F.force (F.stress L (u i)) r) l (𝓝 (F.force (F.stress L U) r)) := by
  have e : (fun i => F.force (F.stress L (u i)) r) = fun i =>
      ∑ j ∈ range (F.nn * F.dim), u i j * F.force (F.stress L (Spec.unit j)) r := by
    funext i; exact force_sum hF hL (u i) r
  rw [e, force_sum hF hL U r]
  exact tendsto_finsetSum _ fun j hj => (hu j (mem_range.mp hj)).mul_const _

theorem bil_lim (hF : F.Good) (hL : F.Law L) {u : ι → Nat → ℝ} {U : Nat → ℝ}
    (hu : ∀ q, q < F.nn * F.dim → Tendsto (fun i => u i q) l (𝓝 (U q))) :
    Tendsto (fun i => F.bil L (u i) (u i)) l (𝓝 (F.bil L U U)) := by
  have e : (fun i => F.bil L (u i) (u i)) = fun i =>
      ∑ r ∈ range (F.nn * F.dim), F.force (F.stress L (u i)) r * u i r := by
    funext i; exact (bil_force hF _ _).symm
  rw [e, ← bil_force hF]
  exact tendsto_finsetSum _ fun j hj => (force_lim hF hL hu j).mul (hu j (mem_range.mp hj))

end Spec.Fe

/-! ## One pass -/

/-- A pass of the loop in a format: fields up to `B`, residual not below the tolerance. -/
structure Pass (c : Cfg ℝ) (B : ℝ) where
  fp : Fp
  eta : fp.eta ≤ fp.u ^ 2
  c' : Cfg (Fl fp)
  comp : Computed c' c
  env : Env (Fl fp)
  w : Work (Fl fp)
  ok : w.Ok c'
  bdd : ∀ q, q < c.nn * c.dim → |(w.u.val q).val| ≤ B
  r : RhsOut (Fl fp)
  rhs : assemblyRhs c' w = .ok r
  big : Scalar.lt r.norm nrMaxTol = false

variable {c : Cfg ℝ} {B : ℝ}

def Pass.fam (c : Cfg ℝ) (B : ℝ) : Fam (Pass c B) :=
  ⟨Pass.fp, fun _ => max 1 B, fun _ => le_max_left _ _, Pass.eta⟩

/-- The constant by which a pass lowers the energy, up to the factor two. -/
theorem pass_drop (hc : c.Ok) (hg : c.Geom) (he : c.Elastic) : ∃ κ : ℝ, 0 < κ ∧ ∀ B : ℝ,
    ∃ u0 : ℝ, 0 < u0 ∧ ∀ P : Pass c B, P.fp.u < u0 → ∀ w', nrCorrect P.env P.c' P.r.work = .ok w' →
      c.fe.bil c.law (fun q => (w'.u.val q).val) (fun q => (w'.u.val q).val)
        ≤ c.fe.bil c.law (fun q => (P.w.u.val q).val) (fun q => (P.w.u.val q).val) - κ := by
  have hF := c.good hc hg
  have hL := c.law_ok hc he
  obtain ⟨lo, hi, hlo, hhi0, hd⟩ := Fe.diag_bounds hF hL
  obtain ⟨Λ, hΛ, hub⟩ := Fe.bil_upper hF hL
  let c0 := lo ^ 2 / (2 * Λ * hi ^ 2)
  have hc0 : 0 < c0 := by positivity
  refine ⟨c0 * (1e-5) ^ 2, by positivity, fun B => ?_⟩
  -- it is enough to look at limits
  suffices H : ∀ᶠ P : Pass c B in comap (fun P => P.fp.u) (𝓝 0), ∀ w',
      nrCorrect P.env P.c' P.r.work = .ok w' →
      c.fe.bil c.law (fun q => (w'.u.val q).val) (fun q => (w'.u.val q).val)
        ≤ c.fe.bil c.law (fun q => (P.w.u.val q).val) (fun q => (P.w.u.val q).val) - c0 * (1e-5) ^ 2 by
    obtain ⟨ε, hε, h⟩ := (Metric.nhds_basis_ball.comap _).eventually_iff.mp H
    refine ⟨ε, hε, fun P hP => h ?_⟩
    show P.fp.u ∈ Metric.ball 0 ε
    rw [Metric.mem_ball, dist_zero_right, Real.norm_eq_abs, abs_of_nonneg P.fp.u_nonneg]
    exact hP
  refine Filter.mem_iff_ultrafilter.mpr fun 𝒰 h𝒰 => ?_
  set S := Pass.fam c B with hS
  have hl : Fine S 𝒰 := tendsto_iff_comap.mpr h𝒰
  have hok : ∀ P : Pass c B, P.c'.Ok := fun P => P.comp.ok hc
  have hdof : ∀ P : Pass c B, P.c'.nn * P.c'.dim = c.nn * c.dim := fun P => P.comp.dofs
  have hnn : ∀ P : Pass c B, P.c'.nn = c.nn := fun P => by
    unfold Cfg.nn; rw [P.comp.nx, P.comp.ny, P.comp.nz]
  -- the rounded runs
  have hrhs := fun P : Pass c B => assemblyRhs_full (hok P) P.ok P.rhs
  have htr := fun P : Pass c B => nrCorrect_trace (env := P.env) (hok P) (hrhs P).2.2.2.ok
  choose A vn du k s N St sF t1 t2 t3 t4 t5 t6 t7 t8 t9 t10 using htr
  -- the matrices
  have hN : NearCfg S (fun P => P.c') c := Computed.near (fun P => P.comp) hc hg he
  obtain ⟨W, hW⟩ := Work.exists_ok hc
  obtain ⟨A', vn', M, vx, a1, a2, hM⟩ := near_assemblyMat hN hok hc
    (w := fun P => P.r.work) (fun P => (hrhs P).2.2.2.ok) hW
  have eA : A' = A := by
    funext P
    have := (a1 P).symm.trans (t1 P)
    injection this with this
    exact congrArg Work.A this
  subst eA
  obtain ⟨M', vx', b1, b2, -, hD, b4, b5⟩ := assemblyMat_real hc hg hW
  rw [a2] at b1
  cases b1
  have hwf : M.WF := (b2.wf hc).1
  have hnr : M.nrow = c.nn * c.dim := (b2.wf hc).2
  have b5' : ∀ x, OnI (c.nn * c.dim) c.inner x → ∀ r, r < c.nn * c.dim → ¬ c.fe.Bd r →
      op M x r = c.fe.force (c.fe.stress c.law x) r := fun x hx r hr hb => by
    rw [b5 he.noPlast x hx r hr hb, c.force_law hc he]
  have hspd : SpdOn M.nrow c.inner (op M) := by rw [hnr]; exact spd_real hc hg he hwf hnr b4 b5'
  -- the field and the residual
  have hU : ∀ q, ∃ x, q < c.nn * c.dim → Tendsto (fun P : Pass c B => (P.w.u.val q).val) 𝒰 (𝓝 x) := by
    intro q
    by_cases hq : q < c.nn * c.dim
    · obtain ⟨x, hx⟩ := exists_lim 𝒰 (fun P : Pass c B => (P.w.u.val q).val) fun P => P.bdd q hq
      exact ⟨x, fun _ => hx⟩
    · exact ⟨0, fun h => absurd h hq⟩
  choose U hU using hU
  let f : Nat → ℝ := fun q => if c.fe.Bd q then 0 else - c.fe.force (c.fe.stress c.law U) q
  have hf : ∀ q, q < c.nn * c.dim → Lim S 𝒰 (fun P => P.r.work.b.val q) (f q) := by
    intro q hq
    have h1 := near_residV (S := S) hN hc (u := fun P => P.w.u.val)
      (x := fun P q => (P.w.u.val q).val)
      (fun q hq => NearF.self fun P => (P.bdd q hq).trans (le_max_right _ _))
      (fun P => P.w.varsOld) (fun _ => ⟨0, fun _ => 0⟩) (fun P => P.w.b.val) (fun _ _ => 0) hq
    have h2 := NearF.lim (l := (𝒰 : Filter (Pass c B))) hl h1 (B := max 1 B)
      (Eventually.of_forall fun _ => le_refl _) (y := f q) (by
        have : Tendsto (fun P : Pass c B => if c.fe.Bd q then (0 : ℝ)
            else - c.fe.force (c.fe.stress c.law fun q => (P.w.u.val q).val) q) 𝒰 (𝓝 (f q)) := by
          show Tendsto _ _ (𝓝 (if c.fe.Bd q then (0 : ℝ) else _))
          split
          · exact tendsto_const_nhds
          · refine (Fe.force_lim hF hL (fun q hq => hU q ?_) q).neg
            rwa [c.fe_nn hc] at hq
        refine this.congr fun P => ?_
        rw [residV_real hc he _ _ _ hq])
    exact h2.congr (Eventually.of_forall fun P => (congrFun (hrhs P).2.1 q).symm)
  have hfI : OnI (c.nn * c.dim) c.inner f := onI_inner.mpr fun r _ hb => if_pos hb
  have hfbig : 1e-5 ≤ norm2 (c.nn * c.dim) f := by
    refine Lim.le_of_ge (S := S) (l := (𝒰 : Filter (Pass c B))) (a := fun P => P.r.norm)
      (b := fun P => nrMaxTol) ?_ (lim_nrMaxTol hl) (Eventually.of_forall fun P => P.big)
    have := Lim.sqrt hl (Lim.dotA (S := S) hl (n := fun _ => c.nn * c.dim) (fun _ => rfl) hf hf)
    refine this.congr (Eventually.of_forall fun P => ?_)
    rw [(hrhs P).1, (hrhs P).2.1, hdof P]
    rfl
  -- the preconditioner
  let kx : Nat → ℝ := fun i => 1 / op M (unit i) i
  have hnnz : c.diag * c.dim + c.dim ≤ M.nnz := by
    unfold Cfg.diag
    rcases hc.dim with hd | hd
    · rw [(b2.A2 hd).nnz, if_pos hd, hd]; omega
    · rw [(b2.A3 hd).nnz, if_neg (by omega), hd]; omega
  have hop : ∀ i ∈ c.inner, op M (unit i) i = c.fe.force (c.fe.stress c.law (unit i)) i := fun i hi =>
    b5' _ (fun j _ hj => by
      show (if j = i then (1 : ℝ) else 0) = 0
      rw [if_neg]; rintro rfl; exact hj hi) i (Cfg.mem_inner.mp hi).1 (Cfg.mem_inner.mp hi).2
  have hkx : ∀ i ∈ c.inner, lo ≤ kx i ∧ kx i ≤ hi := fun i hi => by
    show lo ≤ 1 / op M (unit i) i ∧ 1 / op M (unit i) i ≤ _
    rw [hop i hi]
    exact hd i (by rw [c.fe_nn hc]; exact (Cfg.mem_inner.mp hi).1) (Cfg.mem_inner.mp hi).2
  have hdiag0 : ∀ i, i < c.nn * c.dim → op M (unit i) i ≠ 0 := by
    intro i hi h0
    by_cases hm : i ∈ c.inner
    · have := (hkx i hm).1
      have h1 : kx i = 0 := by show 1 / op M (unit i) i = 0; rw [h0, div_zero]
      linarith
    · have := hspd.fixed (unit i) i (by rw [hnr]; exact hi) hm
      rw [h0] at this
      have h1 : (unit i i : ℝ) = 1 := if_pos rfl
      rw [h1] at this
      exact zero_ne_one this
  have hdim0 : 0 < c.dim := by rcases hc.dim with hd | hd <;> omega
  have hk : ∀ q, q < M.nrow → Lim S 𝒰 (fun P => k P q) (kx q) := by
    intro q hq
    rw [hnr] at hq
    have e : q / c.dim * c.dim + q % c.dim = q := Nat.div_add_mod' q c.dim
    have hn : q / c.dim < c.nn := Nat.div_lt_of_lt_mul (by rw [mul_comm]; exact hq)
    have hdd : q % c.dim < c.dim := Nat.mod_lt _ hdim0
    have hdv := hD _ _ hn hdd
    rw [e] at hdv
    have hpos : q * M.nnz + (c.diag * c.dim + q % c.dim) < M.nnz * M.nrow :=
      row_lt (by rw [hnr]; exact hq) (by omega)
    have h1 := Lim.div hl (NearF.one (S := S).lim0 hl) (hM.val hl hpos) (by rw [hdv]; exact hdiag0 q hq)
    rw [hdv] at h1
    refine h1.congr (Eventually.of_forall fun P => ?_)
    have := t5 P (q / c.dim) (q % c.dim) (by rw [hnn]; exact hn) (by rw [P.comp.dim]; exact hdd)
    rw [P.comp.dim, e, hM.nnz P] at this
    exact this.symm
  -- the number of steps
  obtain ⟨n, hn⟩ := exists_const 𝒰 N (M := 2000) fun P => by
    by_contra hgt
    push Not at hgt
    have := (t9 P).cont (N P - 2) (by omega)
    rw [t6 P] at this
    unfold cgMaxIts at this
    omega
  obtain ⟨x, r, p, hx0, hP⟩ := exists_pcg M.nrow (op M) kx f fun _ => 0
  have hx0I : OnI M.nrow c.inner (x 0) := by rw [hx0]; exact fun _ _ _ => rfl
  have hz : ∀ q, q < M.nrow → op M (x 0) q = 0 := by
    intro q _
    rw [hx0]
    exact sum_eq_zero fun t _ => mul_zero _
  have hr0 : ∀ q, q < M.nrow → r 0 q = - f q := fun q hq => by
    rw [(hP 0).r0 q hq, hz q hq]; ring
  have hrb : dot M.nrow (r 0) (r 0) = dot M.nrow f f := by
    unfold dot
    refine sum_congr rfl fun i hi => ?_
    rw [hr0 i (mem_range.mp hi)]; ring
  have htol : Lim S 𝒰 (fun _ => cgMaxTol) (1e-8 : ℝ) := lim_cgMaxTol hl
  have hsx : ∀ q, q < M.nrow → Lim S 𝒰 (fun P => (s P).x.val q) (x 0 q) := fun q hq => by
    rw [hx0]
    exact Lim.zero.congr (Eventually.of_forall fun P => (t7 P q (by rw [hdof, ← hnr]; exact hq)).symm)
  have hT : ∀ᶠ P in (𝒰 : Filter (Pass c B)), CgTrace (A' P) (k P) cgMaxIts cgMaxTol (s P) n (St P) (sF P) := by
    filter_upwards [hn] with P hP
    rw [← hP]; exact t9 P
  have hsr : ∀ q, q < M.nrow → Lim S 𝒰 (fun P => (s P).r.val q) (r 0 q) := fun q hq => by
    rw [(hP 0).r0 q hq]
    refine (Lim.sub hl (hM.rowAcc hl hwf hsx hq) (hf q (by rw [← hnr]; exact hq))).congr
      (Eventually.of_forall fun P => (t8 P q (by rw [hdof, ← hnr]; exact hq)).symm)
  obtain ⟨hlim, hbig⟩ := lim_cg hl hwf hM hk (by norm_num) htol t6 hT hP hspd
    (fun i hi => lt_of_lt_of_le hlo (hkx i hi).1) hx0I (by rw [hnr]; exact hfI) hsx hsr
  have hn0 : 0 < n := by
    rcases Nat.eq_zero_or_pos n with h0 | h0
    · exfalso
      have h1 : norm2 M.nrow (r 0) ≤ 1e-8 := by
        refine Lim.ge_of_lt (hM.errOf hl (s := fun P => St P 0) (hlim 0 (by omega)).lr) htol ?_
        filter_upwards [hT] with P hP
        rw [h0] at hP
        rcases hP.stop with h | h
        · exact h.1
        · omega
      unfold norm2 at h1 hfbig
      rw [hrb, hnr] at h1
      have : (1e-8 : ℝ) < 1e-5 := by norm_num
      linarith
    · exact h0
  have hdropE := (hP n).drop hspd hlo hkx hΛ
    (fun u hu => by
      rw [hnr] at hu ⊢
      rw [dot_op hc hg b5' hu hu, ← c.fe_nn hc]
      exact hub u) hx0I (by rw [hnr]; exact hfI)
    (fun j hj => norm2_pos_ne (lt_of_lt_of_le (by norm_num) (hbig j hj))) hn0
  have e0 : energy M.nrow (op M) f (x 0) = 0 := by
    unfold energy dot
    rw [hx0, sum_eq_zero (fun i _ => by ring), sum_eq_zero (fun i _ => by ring)]
    ring
  rw [e0, hrb, hnr] at hdropE
  -- the energy of the limit
  have hXI : OnI (c.nn * c.dim) c.inner (x n) := by
    have := ((hP n).onI hspd.fixed hx0I (by rw [hnr]; exact hfI) n le_rfl).1
    rwa [hnr] at this
  have hXb : ∀ q, q < c.nn * c.dim → c.fe.Bd q → x n q = 0 := onI_inner.mp hXI
  have hE : energy (c.nn * c.dim) (op M) f (x n)
      = c.fe.bil c.law (x n) (x n) / 2 + c.fe.bil c.law U (x n) := by
    have hb2 : dot (c.nn * c.dim) f (x n) = - c.fe.bil c.law U (x n) := by
      rw [← Fe.bil_force hF, c.fe_nn hc, ← sum_neg_distrib]
      unfold dot
      refine sum_congr rfl fun r hr => ?_
      have hr := mem_range.mp hr
      show (if c.fe.Bd r then (0 : ℝ) else _) * _ = _
      split
      · rename_i hb; rw [hXb r hr hb]; ring
      · ring
    unfold energy
    rw [hb2, dot_op hc hg b5' hXI hXI]; ring
  rw [hE] at hdropE
  have e5 := Fe.bil_lin_sq hL U (x n) 1 1
  have hsq : (1e-5 : ℝ) ^ 2 ≤ dot (c.nn * c.dim) f f := by
    have hnf : norm2 (c.nn * c.dim) f ^ 2 = dot (c.nn * c.dim) f f := Real.sq_sqrt (dot_self_nonneg _)
    rw [← hnf]
    exact pow_le_pow_left₀ (by norm_num) hfbig 2
  have hgain : c.fe.bil c.law (fun q => 1 * U q + 1 * x n q) (fun q => 1 * U q + 1 * x n q)
      < c.fe.bil c.law U U - c0 * (1e-5) ^ 2 := by
    rw [e5]
    have h1 : c0 * (1e-5) ^ 2 ≤ c0 * dot (c.nn * c.dim) f f := mul_le_mul_of_nonneg_left hsq hc0.le
    have h2 : 0 < c0 * (1e-5) ^ 2 := by positivity
    have h3 : c.fe.bil c.law (x n) (x n) / 2 + c.fe.bil c.law U (x n)
      ≤ 0 - c0 * dot (c.nn * c.dim) f f := hdropE
    linarith
  -- the rounded energies
  have hU' : ∀ q, q < c.fe.nn * c.fe.dim → Tendsto (fun P : Pass c B =>
      (P.w.u.val q + (du P).val q).val) 𝒰 (𝓝 (1 * U q + 1 * x n q)) := by
    intro q hq
    rw [c.fe_nn hc] at hq
    rw [one_mul, one_mul]
    refine Lim.add (S := S) hl (hU q hq) (((hlim n le_rfl).lx q (by rw [hnr]; exact hq)).congr ?_)
    filter_upwards [hn] with P hP
    rw [t10 P, hP]
  have hE1 := Fe.bil_lim hF hL (l := (𝒰 : Filter (Pass c B))) hU'
  have hE0 := Fe.bil_lim hF hL (l := (𝒰 : Filter (Pass c B)))
    (u := fun P q => (P.w.u.val q).val) (U := U) fun q hq => hU q (by rwa [c.fe_nn hc] at hq)
  have hlt := hE1.eventually_lt (hE0.sub_const (c0 * (1e-5) ^ 2)) hgain
  filter_upwards [hlt] with P hP w' hw'
  rw [t3 P] at hw'
  cases hw'
  refine le_of_eq_of_le ?_ hP.le
  refine Fe.bil_congr hF hL (fun q hq => ?_) fun q hq => ?_ <;>
  · rw [c.fe_nn hc] at hq
    simp only [hdof P, if_pos hq]
    rw [(hrhs P).2.2.1]

end Verif
