import Verif.Lemmas.Terminate
import Verif.Props.Response

/-!
# Convergence and termination on elastic cells of every size: properties C78, C79, C80

Exact arithmetic.  One linear solve makes at most 2000 iterations, so it need not reach its tolerance when
the cell has 2000 or more inner unknowns; the Newton loop then repeats it.
-/

namespace Verif.Props
open Verif Spec Finset

variable {c : Cfg ℝ}

/-! ### C78 -/

/-- C78: from any displacements the Newton loop ends after a number of passes that is at most a constant of
the cell times the square of the first residual (when the memory behind `its` never reads 40 or more), with
an error of at most the tolerance, the boundary values it began with, and displacements within a constant of
the cell times the tolerance of the equilibrium with these boundary values. -/
theorem C78_newton (hc : c.Ok) (hg : c.Geom) (he : c.Elastic) :
    ∃ K : ℝ, 0 < K ∧ ∀ (env : Env ℝ) (w : Work ℝ) (r0 : RhsOut ℝ), w.Ok c → assemblyRhs c w = .ok r0 →
      (∀ t, ∃ v, env.peek t = some v ∧ v < 40) → K * r0.norm ^ 2 < env.fuel →
      ∃ out, newtonRaphson env c w = .ok out ∧ out.err ≤ 1e-5 ∧
        (∀ q, q < c.nn * c.dim → c.fe.Bd q → out.work.u.val q = w.u.val q) ∧
        ∃ s : Work ℝ, s.Ok c ∧ ZeroResidual c s ∧
          (∀ q, q < c.nn * c.dim → c.fe.Bd q → s.u.val q = w.u.val q) ∧
          ∀ q, q < c.nn * c.dim → |out.work.u.val q - s.u.val q| ≤ K * 1e-5 := by
  have hF := c.good hc hg
  have hL := c.law_ok hc he
  have hl : Like c.fe c.law c := ⟨hc, hg, he, rfl, rfl⟩
  obtain ⟨K1, hK1, h1⟩ := gap_resid hF hL
  obtain ⟨K2, hK2, h2⟩ := newton_close hF hL
  obtain ⟨K3, hK3, h3⟩ := Fe.bil_lower hF hL
  obtain ⟨δ, hδ, h4⟩ := newton_returns hF hL
  refine ⟨K1 / δ + K3 * Real.sqrt K2, by positivity, fun env w r0 hw hr hp hfu => ?_⟩
  obtain ⟨u, u1, u2⟩ := Fe.exists_sol hF hL w.u.val fun _ => 0
  obtain ⟨f, vn, nl, e1, e2, e3⟩ := assemblyRhs_res hc he hw
  rw [hr] at e1
  cases e1
  have hgap := h1 c hl w.u.val f u e3 u2 fun r hr hb => (u1 r hr hb).symm
  have hf : K1 * norm2 (c.nn * c.dim) f ^ 2 < δ * env.fuel := by
    have hfu : (K1 / δ + K3 * Real.sqrt K2) * norm2 (c.nn * c.dim) f ^ 2 < env.fuel := hfu
    have h5 : 0 ≤ K3 * Real.sqrt K2 * norm2 (c.nn * c.dim) f ^ 2 := by positivity
    have h6 : K1 / δ * norm2 (c.nn * c.dim) f ^ 2 < env.fuel := by linarith
    have h7 := mul_lt_mul_of_pos_left h6 hδ
    have h8 : δ * (K1 / δ * norm2 (c.nn * c.dim) f ^ 2) = K1 * norm2 (c.nn * c.dim) f ^ 2 := by field_simp
    linarith
  obtain ⟨out, ho⟩ := h4 c hl env w u hw hp u2 (fun r hr hb => (u1 r hr hb).symm) (lt_of_le_of_lt hgap hf)
  have hpk : ∀ t v, env.peek t = some v → v < 40 := fun t v hv => by
    obtain ⟨v', hv', hlt⟩ := hp t
    rw [hv] at hv'
    cases hv'
    exact hlt
  obtain ⟨o1, o2, o3⟩ := h2 c hl env w out u hw hpk ho u2 fun r hr hb => (u1 r hr hb).symm
  have hN := c.fe_nn hc
  refine ⟨out, ho, o1, C27_boundary hc hg hw ho, { w with u := ⟨c.nn * c.dim, u⟩ }, Work.Ok.setU hw rfl, ?_,
    fun q hq hb => u1 q (by rw [hN]; exact hq) hb, fun q hq => ?_⟩
  · exact (zeroResidual_iff hc (Work.Ok.setU hw rfl)).mpr ((equil_law hc he u w.varsOld).mpr u2)
  · have a := (h3 (fun r => out.work.u.val r - u r) (Real.sqrt K2 * 1e-5) (by positivity)
      (fun r hr hb' => by rw [o2 r hr hb', sub_self])
      (by rw [mul_pow, Real.sq_sqrt hK2.le]; exact o3)).1 q (by rw [hN]; exact hq)
    have : 0 < K1 / δ * 1e-5 := by positivity
    show |out.work.u.val q - u q| ≤ _
    nlinarith

/-- An environment with `n` passes; the memory behind `its` reads zero. -/
noncomputable def exEnvN (n : Nat) : Env ℝ := { exEnv with fuel := n, peek := fun _ => some 0 }

theorem exEnvN_peek (n t : Nat) : ∃ v, (exEnvN n).peek t = some v ∧ v < 40 := ⟨0, rfl, by norm_num⟩

/-- The layered cell of the other examples with `20 × 20 × 20` nodes: 17496 inner unknowns. -/
noncomputable def exArgsB : Args ℝ := { exArgs3 with size := fun _ => 20 }

theorem exArgsB_ok : exArgsB.Ok := ⟨exArgs3_ok.dim, exArgs3_ok.micro, by simp [exArgsB], by simp [exArgsB], by simp [exArgsB]⟩
theorem exArgsB_geom : exArgsB.Geom := ⟨exArgs3_geom.lx, exArgs3_geom.ly, exArgs3_geom.lz⟩
theorem exArgsB_elastic : exArgsB.Elastic :=
  ⟨exArgs3_elastic.E, exArgs3_elastic.lo, exArgs3_elastic.hi, exArgs3_elastic.ty⟩

/-- C78 on that cell, from the displacements of an object in the middle of its life. -/
example : ∃ (s : ObjFiles ℝ) (n : Nat) (out : NrOut ℝ), Reach exEnv exArgsB exJunk exCalls s ∧
    s.obj.cfg.nn * s.obj.cfg.dim = 24000 ∧
    newtonRaphson (exEnvN n) s.obj.cfg s.obj.work = .ok out ∧ out.err ≤ 1e-5 := by
  obtain ⟨s, hs⟩ := reach_exists exEnv_quick exArgsB_ok exJunk exCalls
  obtain ⟨hb, ho⟩ := reach_built exArgsB_ok hs
  obtain ⟨K, -, h⟩ := C78_newton hb.ok (hb.geom exArgsB_geom) (hb.elastic exArgsB_elastic)
  obtain ⟨f, vn, nl, e1, -⟩ := assemblyRhs_real hb.ok ho.work
  obtain ⟨n, hn⟩ := exists_nat_gt (K * (norm2 (s.obj.cfg.nn * s.obj.cfg.dim) f) ^ 2)
  obtain ⟨out, h1, h2, -⟩ := h (exEnvN n) s.obj.work _ ho.work e1 (exEnvN_peek n) hn
  refine ⟨s, n, out, hs, ?_, h1, h2⟩
  obtain ⟨et, ct, h⟩ := hb.eq
  rw [h]
  simp [Cfg.nn, mkCfg, exArgsB, exArgs3]

/-! ### C79 -/

theorem answer_close_any (hc : c.Ok) (hg : c.Geom) (he : c.Elastic) :
    ∃ K : ℝ, 0 < K ∧ ∀ (env : Env ℝ), (∀ t v, env.peek t = some v → v < 40) →
      ∀ old eps sig its err w r, CellAnswer env c old eps sig its err →
      Equilibrium c w eps → calcAveStress c w = .ok r → err ≤ 1e-5 ∧ ∀ v, v < c.nvoi → |sig v - r.ave v| ≤ K * 1e-5 := by
  have hF := c.good hc hg
  have hL := c.law_ok hc he
  have hl : Like c.fe c.law c := ⟨hc, hg, he, rfl, rfl⟩
  have ht := thick_pos hc hg
  obtain ⟨K2, hK2, hn⟩ := newton_close hF hL
  obtain ⟨K3, hK3, hb⟩ := Fe.bil_lower hF hL
  refine ⟨c.thick * (K3 * Real.sqrt K2), by positivity, ?_⟩
  rintro env hpk old eps sig its err w r ⟨w0, w1, q, a, hw0, -, h1, h2, h3, h4, -, he'⟩ hq hr
  obtain ⟨u1, h1', h1o, h1b, -⟩ := setDispl_real hc hg.toDivided hw0.u eps
  rw [h1] at h1'
  cases h1'
  have hw1 : Work.Ok c { w0 with u := u1 } := Work.Ok.setU hw0 h1o
  have hqw : q.work.Ok c := ((newtonRaphson_safe (env := env) hc hw1).post h2).ok
  have h5 := (equil_law hc he _ _).mp ((zeroResidual_iff hc hq.work).mp hq.residual)
  obtain ⟨n1, n2, n3⟩ := hn c hl env _ q w.u.val hw1 hpk h2 h5 fun r hr hr' => by
    show u1.val r = _
    rw [h1b r hr hr', hq.onBd hc r hr hr']
  refine ⟨by rw [he']; exact n1, fun v hv => ?_⟩
  have hv' : v < c.fe.nvoi := by rw [c.fe_nvoi]; exact hv
  obtain ⟨va, i1, -⟩ := calcAveStress_real hc hqw
  rw [h3] at i1
  cases i1
  obtain ⟨vb, i2, -⟩ := calcAveStress_real hc hq.work
  rw [hr] at i2
  cases i2
  rw [h4 v hv]
  have hA : ∀ (w : Work ℝ), c.fe.integral (fun e gp => c.sig w.u.val w.varsOld e gp v) / (c.lx * c.ly)
      = c.thick * c.fe.aveStress (c.fe.stress c.law w.u.val) v := by
    intro w
    rw [div_area hc hg, Fe.integral_congr (g := fun e gp => c.fe.stress c.law w.u.val e gp v)
      (fun x hx gp hgp => c.sig_elastic hc he _ _ hx hgp hv')]
    rfl
  show |c.fe.integral (fun e gp => c.sig q.work.u.val q.work.varsOld e gp v) / (c.lx * c.ly)
    - c.fe.integral (fun e gp => c.sig w.u.val w.varsOld e gp v) / (c.lx * c.ly)| ≤ _
  rw [hA, hA]
  have e0 : (fun r => q.work.u.val r - w.u.val r) = fun r => 1 * q.work.u.val r + (-1) * w.u.val r := by
    funext r; ring
  have hd := (hb (fun r => q.work.u.val r - w.u.val r) (Real.sqrt K2 * 1e-5) (by positivity)
    (fun r hr hr' => by rw [n2 r hr hr', sub_self])
    (by rw [mul_pow, Real.sq_sqrt hK2.le]; exact n3)).2 v hv'
  rw [e0, Fe.aveStress_lin hL _ _ _ _ hv'] at hd
  have e3 : c.thick * c.fe.aveStress (c.fe.stress c.law q.work.u.val) v
      - c.thick * c.fe.aveStress (c.fe.stress c.law w.u.val) v
      = c.thick * (1 * c.fe.aveStress (c.fe.stress c.law q.work.u.val) v
        + -1 * c.fe.aveStress (c.fe.stress c.law w.u.val) v) := by ring
  rw [e3, abs_mul, abs_of_pos ht, mul_assoc, mul_assoc]
  exact mul_le_mul_of_nonneg_left hd ht.le

/-- C79: on elastic cells of every size, when the memory behind `its` never reads 40 or more, every Gauss
point that `homogenize` solves reports errors of at most the tolerance, and its macro stress is within a
constant of the cell times the tolerance of the homogenised stiffness times its macro strain. -/
theorem C79_stress (hc : c.Ok) (hg : c.Geom) (he : c.Elastic) :
    ∃ K : ℝ, 0 < K ∧ ∀ C, IsStiffness c C → ∀ (env : Env ℝ) (s : ObjFiles ℝ) (r : Stepped ℝ),
      (∀ t v, env.peek t = some v → v < 40) →
      s.obj.cfg = c → s.obj.Ok → step env s .homogenize = .ok r →
      List.Forall₂ (fun g g' => ¬ TakesLinearPath c g → (∀ i, i < 1 + c.nvoi → g'.nrErr i ≤ 1e-5) ∧
        ∀ v, v < c.nvoi → |g'.macroStress v - ∑ j ∈ range c.nvoi, C v j * g.macroStrain j| ≤ K * 1e-5)
        s.obj.gauss r.state.obj.gauss := by
  obtain ⟨K, hK, h⟩ := answer_close_any hc hg he
  refine ⟨K, hK, ?_⟩
  rintro C hC env s r hpk rfl hs hr
  refine (C58_solved env s hs r hr).imp ?_
  intro g g' hgg hl
  obtain ⟨old, sig, its, err, -, -, h1, h2, -, h4, h5⟩ := hgg hl
  have heq : ∀ eps, ∃ w a, Equilibrium s.obj.cfg w eps ∧ calcAveStress s.obj.cfg w = .ok a ∧
      ∀ v, v < s.obj.cfg.nvoi → a.ave v = ∑ j ∈ range s.obj.cfg.nvoi, C v j * eps j := fun eps => by
    obtain ⟨u, hq⟩ := equilibrium_exists hc hg he hs.work eps
    obtain ⟨a, a1, a2⟩ := hC _ _ hq
    exact ⟨_, a, hq, a1, a2⟩
  refine ⟨fun i hi => ?_, fun v hv => ?_⟩
  · match i, hi with
    | 0, _ =>
      obtain ⟨w, a, a1, a2, -⟩ := heq g.macroStrain
      rw [h4]
      exact (h env hpk _ _ _ _ _ _ _ h1 a1 a2).1
    | i + 1, hi =>
      obtain ⟨sig', its', err', b1, -, -, b2⟩ := h5 i (by omega)
      obtain ⟨w, a, a1, a2, -⟩ := heq (bump g.macroStrain i 1.0e-8)
      rw [Nat.add_comm, b2]
      exact (h env hpk _ _ _ _ _ _ _ b1 a1 a2).1
  · obtain ⟨w, a, a1, a2, a3⟩ := heq g.macroStrain
    rw [h2 v hv, ← a3 v hv]
    exact (h env hpk _ _ _ _ _ _ _ h1 a1 a2).2 v hv

/-! ### C80 -/

/-- C80: for every elastic cell, whatever memory the constructor finds and for every bound of the
prescribed strains, there is a number of Newton passes that suffices in every solve: with it (when the memory behind
`its` never reads 40 or more) construction and every sequence of public calls return, however many calls,
Gauss points and solves there are. -/
theorem C80_returns {a : Args ℝ} (ha : a.Ok) (hg : a.Geom) (hel : a.Elastic) (j : Junk ℝ) (B : ℝ) :
    ∃ N : Nat, ∀ env : Env ℝ, N ≤ env.fuel → (∀ t, ∃ v, env.peek t = some v ∧ v < 40) →
      ∀ (f : Files ℝ) (calls : List (Call ℝ)),
        (∀ id eps, .setStrain id eps ∈ calls → ∀ v, v < (if a.dim = 2 then 3 else 6) → |eps v| ≤ B) →
        ∃ s, (constructF env a j f >>= run env calls) = .ok s := by
  obtain ⟨N, h⟩ := reach_ends ha hg hel j (le_max_right B 0)
  obtain ⟨N', hN⟩ := exists_nat_ge N
  refine ⟨N', fun env hf hp f calls hk => h env ⟨hN.trans (by exact_mod_cast hf), hp⟩ f calls fun k hk' => ?_⟩
  cases k with
  | setStrain id eps => exact fun v hv => (hk id eps hk' v hv).trans (le_max_left _ _)
  | _ => trivial

/-- C80 on the cell with `20 × 20 × 20` nodes: ten thousand load steps at two Gauss points. -/
example : ∃ (n : Nat) (s : ObjFiles ℝ), Reach (exEnvN n) exArgsB exJunk0
    (List.replicate 10000 [.setStrain 4 (fun v => v + 1), .setStrain 9 (fun _ => 0), .homogenize, .updateVars]).flatten
    s := by
  obtain ⟨N, h⟩ := C80_returns exArgsB_ok exArgsB_geom exArgsB_elastic exJunk0 6
  obtain ⟨s, hs⟩ := h (exEnvN N) (le_refl _) (exEnvN_peek N) ⟨[], [], [], [], fun _ _ => none⟩
    (List.replicate 10000 [.setStrain 4 (fun v => v + 1), .setStrain 9 (fun _ => 0), .homogenize, .updateVars]).flatten
    (fun id eps he v hv => by
      obtain ⟨l, hl, he⟩ := List.mem_flatten.mp he
      rw [(List.mem_replicate.mp hl).2] at he
      have hv : v < 6 := hv
      have hv' : (v : ℝ) ≤ 5 := by exact_mod_cast (by omega : v ≤ 5)
      simp only [List.mem_cons, Call.setStrain.injEq, List.not_mem_nil, reduceCtorEq, or_false] at he
      rcases he with ⟨-, rfl⟩ | ⟨-, rfl⟩
      · simp only
        rw [abs_of_nonneg (by positivity)]
        linarith
      · norm_num)
  exact ⟨N, s, _, hs⟩


/-- C79 on the cell with `20 × 20 × 20` nodes. -/
example : ∃ (n : Nat) (s : ObjFiles ℝ) (r : Stepped ℝ) (K : ℝ), s.obj.gauss.length = 2 ∧
    step (exEnvN n) s .homogenize = .ok r ∧ ∀ C, IsStiffness s.obj.cfg C →
      List.Forall₂ (fun g g' => g'.nrErr 0 ≤ 1e-5 ∧ ∀ v, v < s.obj.cfg.nvoi →
        |g'.macroStress v - ∑ j ∈ range s.obj.cfg.nvoi, C v j * g.macroStrain j| ≤ K * 1e-5)
        s.obj.gauss r.state.obj.gauss := by
  obtain ⟨N, h⟩ := C80_returns exArgsB_ok exArgsB_geom exArgsB_elastic exJunk0 6
  obtain ⟨s', hs'⟩ := h (exEnvN N) (le_refl _) (exEnvN_peek N) ⟨[], [], [], [], fun _ _ => none⟩
    (exCalls0 ++ [.homogenize]) (fun id eps he v hv => by
      have hv : v < 6 := hv
      have hv' : (v : ℝ) ≤ 5 := by exact_mod_cast (by omega : v ≤ 5)
      simp only [exCalls0, List.cons_append, List.nil_append, List.mem_cons, Call.setStrain.injEq,
        List.not_mem_nil, reduceCtorEq, or_false] at he
      rcases he with ⟨-, rfl⟩ | ⟨-, rfl⟩
      · simp only
        rw [abs_of_nonneg (by positivity)]
        linarith
      · norm_num)
  obtain ⟨s, r, h1, h2, -⟩ := reach_snoc.mp ⟨_, hs'⟩
  obtain ⟨hb, ho⟩ := reach_built exArgsB_ok h1
  obtain ⟨K, -, hK⟩ := C79_stress hb.ok (hb.geom exArgsB_geom) (hb.elastic exArgsB_elastic)
  refine ⟨N, s, r, K, ?_, h2, fun C hC => (hK C hC _ s r (fun t v hv => ?_) rfl ho h2).imp fun g g' h => ?_⟩
  · obtain ⟨f, hf⟩ := h1
    rw [bind_ok_iff] at hf
    obtain ⟨s0, h0, h1⟩ := hf
    have := (C39_map _ exCalls0 s0 s (construct_fresh h0) h1).1
    rw [← List.length_map (f := Gp.id), this]
    rfl
  · cases hv
    norm_num
  · exact ⟨(h (exJunk0_path hb g)).1 0 (by omega), (h (exJunk0_path hb g)).2⟩

end Verif.Props
