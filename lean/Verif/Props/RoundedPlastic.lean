import Verif.Lemmas.FpPlasticCell
import Verif.Props.Rounding

/-!
# Cells with plastic elements in rounded arithmetic: property C89

Three dimensions; plastic and elastic elements may be mixed.
-/

namespace Verif.Props
open Verif Spec Finset

section
variable {α : Type} [Scalar α]

/-- With committed variables `old`, prescribing the strain `eps` on the boundary and running
`newton_raphson` leaves the displacements `U` with error `err`; averaging the stress gives `sig`. -/
def CellField (env : Env α) (c : Cfg α) (old : Buf α) (eps sig : Nat → α) (err : α) (U : Nat → α) : Prop :=
  ∃ (w w1 : Work α) (r : NrOut α) (a : AveState α), w.Ok c ∧ w.varsOld = old ∧
    setDispl c w eps = .ok w1 ∧ newtonRaphson env c w1 = .ok r ∧ calcAveStress c r.work = .ok a ∧
    (∀ v, v < c.nvoi → sig v = a.ave v) ∧ err = r.err ∧ U = r.work.u.val

/-- The committed variable `k` of a Gauss point (zero if it has none). -/
def histVar (g : Gp α) (k : Nat) : α := match g.intVarsN with | none => 0 | some b => b.val k

end

variable {c : Cfg ℝ} {w : Work ℝ}

/-- C89 for one solve: an exact cell some of whose elements are plastic, a history without negative
hardening, a macro strain, and the stress `q.ave` of an exact equilibrium for them.  There are `K`, `d` and
a precision `u0` such that in every arithmetic at least that precise, for every object that holds the
numbers of the cell, whatever the memory and the environment: when the solve for that history and strain
ends with an error below `NR_MAX_TOL`, with displacements of the interior nodes at most `M`, and
`err + u * M ≤ d`, then the square of the error of each stress is at most `K * (err + u)`. -/
theorem C89_solved (hc : c.Ok) (hg : c.Geom) (hJ : c.J2) (hH : c.Hardened w.varsOld) {eps : Nat → ℝ}
    (hq : Equilibrium c w eps) {q : AveState ℝ} (ha : calcAveStress c w = .ok q) :
    ∃ K d u0 : ℝ, 0 < K ∧ 0 < d ∧ 0 < u0 ∧ ∀ (fp : Fp), fp.u ≤ u0 → fp.eta ≤ fp.u ^ 2 →
      ∀ (c' : Cfg (Fl fp)), ComputedJ2 c' c → ∀ (env : Env (Fl fp)) old eps' sig err U,
      SameHistory c old w.varsOld → (∀ v, v < 6 → (eps' v).val = eps v) →
      CellField env c' old eps' sig err U → err.val < fp.rnd 1e-5 → ∀ M, 1 ≤ M →
      (∀ p, p < c.nn * c.dim → ¬ c.fe.Bd p → |(U p).val| ≤ M) → err.val + fp.u * M ≤ d →
      ∀ v, v < 6 → ((sig v).val - q.ave v) ^ 2 ≤ K * (err.val + fp.u) := by
  have hd := hJ.dim
  have n6 : c.nvoi = 6 := by unfold Cfg.nvoi; rw [if_neg (by omega)]
  obtain ⟨K, d, u0, hK, hd0, hu0, H⟩ := plastic_close hc hg hJ hH (hq.onBd hc)
    ((zeroResidual_iff hc hq.work).mp hq.residual)
  refine ⟨3 * K, d / 3, min u0 (1 / 8), by positivity, by positivity, by positivity, ?_⟩
  rintro fp hu heta c' hcomp env old eps' sig err U hh heps ⟨w0, w1, o, a, hw0, hold, h1, h2, h3, h4, rfl, rfl⟩
    hlt M hM hU hM2 v hv
  have hfu := fp.u_nonneg
  have hu8 : fp.u ≤ 1 / 8 := le_trans hu (min_le_right _ _)
  have hok := hcomp.toComputed.ok hc
  have hw1 := setDispl_gen hok hw0.u h1
  have hw1ok : w1.Ok c' := by
    rw [hw1]
    exact ⟨rfl, hw0.du, hw0.b, hw0.elemStress, hw0.elemStrain, hw0.varsOld, hw0.varsNew, hw0.A2, hw0.A3⟩
  have hf := (newtonRaphson_safe (env := env) hok hw1ok).post h2
  obtain ⟨r, r1, r2, -⟩ := C27_truthful hok hw1ok h2 (by rw [Fl.lt_iff, nrMaxTol_fl]; exact hlt)
  have r3 := assemblyRhs_gen hok hf.ok r1
  rw [r2] at r3
  have he0 : 0 ≤ o.err.val := by
    rw [r3]
    exact Fl.rnd_nonneg (Real.sqrt_nonneg _)
  have hvo : o.work.varsOld = old := by
    rw [hf.varsOld, hw1]; exact hold
  rw [h4 v (by rw [hcomp.toComputed.nvoi, n6]; exact hv), calcAveStress_gen hok hf.ok h3]
  obtain ⟨q', q1, q2⟩ := calcAveStress_ave hc hg hq.work
  rw [ha] at q1
  cases q1
  rw [q2]
  have hM0 : fp.u ≤ fp.u * M := le_mul_of_one_le_right hfu hM
  have key := H fp (le_trans hu (min_le_left _ _)) heta c' hcomp o.work.u.val eps' w0.u.val o.work.varsOld
    o.work.b.val (2 * (o.err.val + fp.u)) M (hvo ▸ hh) heps (by positivity) hM hU (by linarith)
    (fun r hr hb => by
      have hr' : r < c'.nn * c'.dim := by rw [hcomp.toComputed.dofs]; exact hr
      rw [newtonRaphson_bdry hok hw1ok h2 hr' ((hcomp.toComputed.onBdry r).mpr ((onBdry_iff hc r).mpr hb)), hw1])
    (fun r hr => norm_small hu8 heta he0 (by rw [← r3, fp.fix _ o.err.mem])
      (by rw [hcomp.toComputed.dofs]; exact hr)) v hv
  refine le_trans key ?_
  rw [mul_comm 3 K, mul_assoc]
  exact mul_le_mul_of_nonneg_left (by linarith) hK.le

/-- Objects built from the same arguments. -/
theorem computedJ2_of_built {a : Args ℝ} (ha : a.Ok) (hJ : a.J2) {j0 : Junk ℝ} (hb0 : BuiltFrom a j0 c) {fp : Fp}
    {a' : Args (Fl fp)} (h : SameArgs a' a) {j : Junk (Fl fp)} {c' : Cfg (Fl fp)} (hb : BuiltFrom a' j c')
    (he : SameElements c' c) : ComputedJ2 c' c := by
  have hc := hb0.ok
  have hm : ∀ k, k < 2 → c.mats k
      = mkMaterial (fun i => a.params (k * 10 + i)) (a.matTypes k) (j0.mats k) := fun k hk => by
    obtain ⟨et, ct, rfl⟩ := hb0.eq
    show (if k < 2 then _ else _) = _
    rw [if_pos hk]
  have hm' : ∀ k, k < 2 → c'.mats k
      = mkMaterial (fun i => a'.params (k * 10 + i)) (a'.matTypes k) (j.mats k) := fun k hk => by
    obtain ⟨et, ct, rfl⟩ := hb.eq
    show (if k < 2 then _ else _) = _
    rw [if_pos hk]
  have hD : Describes a' c := by
    refine ⟨?_, ?_, ?_, fun hd => ?_, ?_, ?_, ?_, fun hd => ?_, fun k hk => ?_, fun k hk => ?_, fun hd k hk => ?_⟩
    · obtain ⟨et, ct, rfl⟩ := hb0.eq; exact h.dim
    · obtain ⟨et, ct, rfl⟩ := hb0.eq; exact h.size 0
    · obtain ⟨et, ct, rfl⟩ := hb0.eq; exact h.size 1
    · obtain ⟨et, ct, rfl⟩ := hb0.eq
      have hd : a.dim = 3 := hd
      show a'.size 2 = if a.dim = 2 then 1 else a.size 2
      rw [if_neg (by omega), h.size]
    · obtain ⟨et, ct, rfl⟩ := hb0.eq; exact h.microType
    · obtain ⟨et, ct, rfl⟩ := hb0.eq; exact h.microParams 0 (by omega)
    · obtain ⟨et, ct, rfl⟩ := hb0.eq; exact h.microParams 1 (by omega)
    · obtain ⟨et, ct, rfl⟩ := hb0.eq
      have hd : a.dim = 3 := hd
      show (a'.microParams 2).val = if a.dim = 2 then 0 else a.microParams 2
      rw [if_neg (by omega), h.microParams 2 (by omega)]
    · rw [hm k hk]; exact h.params _ (by omega)
    · rw [hm k hk]; exact h.params _ (by omega)
    · rw [h.matTypes k hk, hm k hk]
      rcases hJ.ty k hk with h | h | h <;> simp [mkMaterial, h]
  refine ⟨computed_of_built hc hD hb he, fun k hk => ?_, fun k hk => ?_, fun k hk => ?_⟩
  · rw [hm' k hk, hm k hk]; exact h.params _ (by omega)
  · rw [hm' k hk, hm k hk]; exact h.params _ (by omega)
  · rw [hm' k hk]; rfl

/-- **C89**: take arguments that describe a cell some of whose elements may be plastic, with no element
centre on the interface; a history without negative hardening; a macro strain; and the stress `q.ave` of an
exact equilibrium for that history and strain (C74: it exists and is unique).  There are `K`, `d` and a
precision `u0` such that in every arithmetic at least that precise that represents the arguments, whatever
the memory, the calls and the environment, for every Gauss point with that history and strain for which
`homogenize` solves and reports an error below `NR_MAX_TOL`: the stress was computed from displacements `U`
for which, if they are at most `M` at the interior nodes and `err + u * M ≤ d`, the square of the error of
each stress is at most `K * (err + u)`. -/
theorem C89_stress {a : Args ℝ} (ha : a.Ok) (hg : a.Geom) (hJ : a.J2) (ht : NoTie a)
    {env0 : Env ℝ} {j0 : Junk ℝ} {calls0 : List (Call ℝ)} {s0 : ObjFiles ℝ}
    (hs0 : Reach env0 a j0 calls0 s0) (hH : s0.obj.cfg.Hardened w.varsOld) {eps : Nat → ℝ}
    (hq : Equilibrium s0.obj.cfg w eps) {q : AveState ℝ} (hS : calcAveStress s0.obj.cfg w = .ok q) :
    ∃ K d u0 : ℝ, 0 < K ∧ 0 < d ∧ 0 < u0 ∧ ∀ (fp : Fp), fp.u ≤ u0 → fp.eta ≤ fp.u ^ 2 →
      ∀ (env : Env (Fl fp)) (a' : Args (Fl fp)) (j : Junk (Fl fp)) (calls : List (Call (Fl fp)))
        (s : ObjFiles (Fl fp)) (r : Stepped (Fl fp)),
      SameArgs a' a → Reach env a' j calls s → step env s .homogenize = .ok r →
      List.Forall₂ (fun g g' => ¬ TakesLinearPath s.obj.cfg g → (g'.nrErr 0).val < fp.rnd 1e-5 →
        (∀ k, k < s0.obj.cfg.numIntVars → (histVar g k).val = w.varsOld.val k) →
        (∀ v, v < 6 → (g.macroStrain v).val = eps v) →
        ∃ old U, (∀ k, k < s0.obj.cfg.numIntVars → old.val k = histVar g k) ∧
          CellField env s.obj.cfg old g.macroStrain g'.macroStress (g'.nrErr 0) U ∧
          ∀ M, 1 ≤ M → (∀ p, p < s0.obj.cfg.nn * s0.obj.cfg.dim → ¬ s0.obj.cfg.fe.Bd p → |(U p).val| ≤ M) →
            (g'.nrErr 0).val + fp.u * M ≤ d →
            ∀ v, v < 6 → ((g'.macroStress v).val - q.ave v) ^ 2 ≤ K * ((g'.nrErr 0).val + fp.u))
        s.obj.gauss r.state.obj.gauss := by
  obtain ⟨hb0, ho0⟩ := reach_built ha hs0
  obtain ⟨u1, hu1, H1⟩ := built_elements ha ht hb0
  obtain ⟨K, d, u2, hK, hd, hu2, H2⟩ := C89_solved ho0.cfg (hb0.geom hg) (hb0.j2 hJ) hH hq hS
  refine ⟨K, d, min u1 u2, hK, hd, lt_min hu1 hu2, ?_⟩
  intro fp hu heta env a' j calls s r hsame hs hr
  have haok := hsame.ok ha
  obtain ⟨hb, ho⟩ := reach_built haok hs
  have hcomp := computedJ2_of_built ha hJ hb0 hsame hb
    (H1 fp (le_trans hu (min_le_left _ _)) heta a' j _ hsame hb)
  have hd3 : s0.obj.cfg.dim = 3 := (hb0.j2 hJ).dim
  have hni : s.obj.cfg.numIntVars = s0.obj.cfg.numIntVars := by
    rw [numIntVars3 hd3, numIntVars3 (hcomp.dim.trans hd3), hcomp.nx, hcomp.ny, hcomp.nz]
  refine (C58_solved env s ho r hr).imp ?_
  intro g g' hgg hl hlt hhist hst
  obtain ⟨old, sig, its, err, -, h0, ⟨w0, w1, o, a, h1, h2, h3, h4, h5, h6, h7, h8⟩, h9, -, h10, -⟩ := hgg hl
  have hold : ∀ k, k < s0.obj.cfg.numIntVars → old.val k = histVar g k := fun k hk => h0 k (hni ▸ hk)
  have hF : CellField env s.obj.cfg old g.macroStrain g'.macroStress (g'.nrErr 0) o.work.u.val :=
    ⟨w0, w1, o, a, h1, h2, h3, h4, h5, fun v hv => by rw [h9 v hv, h6 v hv], h10.trans h8, rfl⟩
  refine ⟨old, _, hold, hF, fun M hM hU hMd => ?_⟩
  refine H2 fp (le_trans hu (min_le_right _ _)) heta _ hcomp env old _ _ _ _ ?_ hst hF hlt M hM hU hMd
  intro ex ey ez hx hy hz gp hgp i hi
  have hk : intvarIx (gloElem3D s0.obj.cfg.nx s0.obj.cfg.ny ex ey ez) gp i < s0.obj.cfg.numIntVars := by
    rw [numIntVars3 hd3]
    exact intvarIx_lt (gloElem3D_lt hx hy hz) hgp hi
  rw [hold _ hk]
  exact hhist _ hk

/-! A cell of a single plastic element, whose data are representable in every format. -/

section
variable (α : Type) [Scalar α]

def tinyArgsP : Args α where
  dim := 3
  size := fun _ => 2
  microType := 1
  microParams := fun i => if i = 3 then 0 else 1
  matTypes := fun _ => 1
  params := fun i => if i % 10 = 1 then 0 else 1

end

theorem tinyP_ok {α : Type} [Scalar α] : (tinyArgsP α).Ok :=
  ⟨Or.inr rfl, Or.inr rfl, le_refl _, le_refl _, fun _ => le_refl _⟩

theorem tinyP_same (fp : Fp) : SameArgs (tinyArgsP (Fl fp)) (tinyArgsP ℝ) := by
  refine ⟨rfl, fun _ => rfl, rfl, fun i _ => ?_, fun _ _ => rfl, fun i _ => ?_⟩
  · simp only [tinyArgsP]; split <;> simp
  · simp only [tinyArgsP]; split <;> simp

theorem tinyP_noTie : NoTie (tinyArgsP ℝ) := by
  rintro ex ey ez -
  refine ⟨fun h => (by cases h), fun _ => ?_⟩
  have e : centre ((tinyArgsP ℝ).microParams 1) ((tinyArgsP ℝ).size 1) ey = ey + 1 / 2 := by
    norm_num [centre, tinyArgsP]
  rw [e]
  show (ey : ℝ) + 1 / 2 ≠ 0
  positivity

theorem tinyP_geom : (tinyArgsP ℝ).Geom :=
  ⟨by norm_num [tinyArgsP], by norm_num [tinyArgsP], fun _ => by norm_num [tinyArgsP]⟩

theorem tinyP_j2 : (tinyArgsP ℝ).J2 := by
  refine ⟨rfl, ?_, ?_, ?_, fun _ _ => Or.inr (Or.inl rfl), ?_, ?_⟩
  all_goals intro i hi; obtain rfl | rfl : i = 0 ∨ i = 1 := by omega
  all_goals norm_num [tinyArgsP]

theorem tinyP_allBdry {α : Type} [Scalar α] {j : Junk α} {c : Cfg α} (hb : BuiltFrom (tinyArgsP α) j c) :
    ∀ q, q < c.nn * c.dim → c.OnBdry q := by
  obtain ⟨et, ct, h⟩ := hb.eq
  rw [h]
  intro q hq
  have hq : q < 24 := hq
  show BdryDof3 3 2 2 2 q
  interval_cases q <;> decide

/-- No Gauss point of an object with `inv_tol = 0` takes the linear path. -/
theorem noLinearPath {fp : Fp} {c : Cfg (Fl fp)} (h : c.invTol = 0) (g : Gp (Fl fp)) : ¬ TakesLinearPath c g := by
  rintro ⟨-, hlt⟩
  rw [h] at hlt
  rw [Fl.lt_iff, Fl.val_zero] at hlt
  unfold Scalar.abs at hlt
  split at hlt
  · rename_i h'
    rw [Fl.lt_iff, Fl.val_zero] at h'
    rw [Fl.val_neg] at hlt
    linarith
  · rename_i h'
    rw [Fl.lt_iff, Fl.val_zero] at h'
    exact h' hlt

/-- One strain prescribed on that cell in a format, and one `homogenize`: the solve ends without error. -/
theorem tinyP_setup (fp : Fp) (e : Nat → Fl fp) :
    ∃ (s : ObjFiles (Fl fp)) (r : Stepped (Fl fp)) (g g' : Gp (Fl fp)),
      Reach (tinyEnv _) (tinyArgsP _) (tinyJunk _) [.setStrain 4 e] s ∧
      step (tinyEnv _) s .homogenize = .ok r ∧ s.obj.gauss = [g] ∧ r.state.obj.gauss = [g'] ∧
      g.id = 4 ∧ g.intVarsN = none ∧ (∀ v, v < 6 → g.macroStrain v = e v) ∧ ¬ TakesLinearPath s.obj.cfg g ∧
      g'.nrErr 0 = 0 := by
  obtain ⟨s, hs⟩ := reach_exists (α := Fl fp) tinyEnv_quick tinyP_ok (tinyJunk _) [.setStrain 4 e]
  obtain ⟨hb, ho⟩ := reach_built tinyP_ok hs
  obtain ⟨r, hr, -⟩ := (step_sane (env := tinyEnv (Fl fp)) ho .homogenize).returns tinyEnv_quick
  have hgs : ∃ g : Gp (Fl fp), s.obj.gauss = [g] ∧ g.id = 4 ∧ g.intVarsN = none ∧
      ∀ v, v < 6 → g.macroStrain v = e v := by
    obtain ⟨f, hf⟩ := id hs
    rw [bind_ok_iff] at hf
    obtain ⟨s1, h0, h1⟩ := hf
    simp only [run, step, bind_ok_iff, pure_ok_iff] at h1
    obtain ⟨r1, rfl, rfl⟩ := h1
    have hn6 : s1.obj.cfg.nvoi = 6 := by
      have := (reach_built tinyP_ok (calls := []) ⟨f, by rw [bind_ok_iff]; exact ⟨s1, h0, rfl⟩⟩).1
      obtain ⟨et, ct, h⟩ := this.eq
      rw [h]; rfl
    simp only [setMacroStrain, (construct_fresh h0).gauss, setStrainList]
    exact ⟨_, rfl, rfl, rfl, fun v hv => by simp [setFirst, hn6, hv]⟩
  obtain ⟨g, hg, hg0, hg1, hg2⟩ := hgs
  have hpath : ¬ TakesLinearPath s.obj.cfg g := by
    refine noLinearPath ?_ g
    obtain ⟨et, ct, h⟩ := hb.eq
    rw [h]; rfl
  have hH := C58_solved (tinyEnv _) s ho r hr
  rw [hg] at hH
  generalize hl : r.state.obj.gauss = l at hH
  cases hH with
  | cons h1 h2 =>
    rename_i g' l1
    cases h2
    refine ⟨s, r, g, g', hs, hr, hg, hl, hg0, hg1, hg2, hpath, ?_⟩
    obtain ⟨old, sig, its, err, -, -, ⟨w, w1, o, a, h1, h2, h3, h4, h5⟩, -, -, h6, -⟩ := h1 hpath
    have hw1 := setDispl_gen ho.cfg h1.u h3
    have hw1ok : w1.Ok s.obj.cfg := by
      rw [hw1]
      exact ⟨rfl, h1.du, h1.b, h1.elemStress, h1.elemStrain, h1.varsOld, h1.varsNew, h1.A2, h1.A3⟩
    rw [h6, h5.2.2.2, newton_allBdry ho.cfg (tinyP_allBdry hb) hw1ok h4]

/-- An exact equilibrium of that cell. -/
theorem tinyP_exact (e : Nat → ℝ) : ∃ (s0 : ObjFiles ℝ) (w : Work ℝ) (q : AveState ℝ),
    Reach (tinyEnv ℝ) (tinyArgsP ℝ) (tinyJunk ℝ) [] s0 ∧ w.varsOld = ⟨s0.obj.cfg.numIntVars, fun _ => 0⟩ ∧
    Equilibrium s0.obj.cfg w e ∧ calcAveStress s0.obj.cfg w = .ok q ∧ s0.obj.cfg.Hardened w.varsOld := by
  obtain ⟨s0, hs0⟩ := reach_exists (α := ℝ) tinyEnv_quick tinyP_ok (tinyJunk ℝ) []
  obtain ⟨hb0, ho0⟩ := reach_built tinyP_ok hs0
  have hw0 : Work.Ok s0.obj.cfg { s0.obj.work with varsOld := ⟨s0.obj.cfg.numIntVars, fun _ => 0⟩ } :=
    ⟨ho0.work.u, ho0.work.du, ho0.work.b, ho0.work.elemStress, ho0.work.elemStrain, rfl, ho0.work.varsNew,
      ho0.work.A2, ho0.work.A3⟩
  have hH0 : s0.obj.cfg.Hardened ⟨s0.obj.cfg.numIntVars, fun _ => 0⟩ := fun e _ _ gp _ => le_refl _
  obtain ⟨u, hu⟩ := C74_exists ho0.cfg (hb0.geom tinyP_geom) (hb0.j2 tinyP_j2) hw0 hH0 e
  obtain ⟨q, hq, -⟩ := calcAveStress_ave ho0.cfg (hb0.geom tinyP_geom) hu.work
  exact ⟨s0, { s0.obj.work with varsOld := ⟨s0.obj.cfg.numIntVars, fun _ => 0⟩, u := u }, q, hs0, rfl, hu, hq, hH0⟩

/-- A positive tolerance in a precise format. -/
theorem tol_pos {fp : Fp} (h : fp.u ≤ 1e-3) (heta : fp.eta ≤ fp.u ^ 2) : 0 < fp.rnd 1e-5 := by
  have h1 := (abs_le.mp (fp.err 1e-5)).1
  have hu00 := fp.u_nonneg
  rw [abs_of_nonneg (by norm_num)] at h1
  norm_num at *
  nlinarith

/-- A Gauss point whose strain has all components 1, in a binary format of finite precision: the stress
differs from the exact one by at most the square root of `K * u`. -/
example : ∃ (s0 : ObjFiles ℝ) (w : Work ℝ) (q : AveState ℝ) (K : ℝ), Equilibrium s0.obj.cfg w (fun _ => 1) ∧
    calcAveStress s0.obj.cfg w = .ok q ∧ (s0.obj.cfg.mats 0).plasticity = true ∧
    ∃ (p : Nat) (emin : ℤ) (hp : 1 ≤ p) (hem : emin ≤ 0)
      (s : ObjFiles (Fl (binary p emin hp hem))) (r : Stepped (Fl (binary p emin hp hem))),
      step (tinyEnv _) s .homogenize = .ok r ∧ s.obj.gauss.length = 1 ∧
      ∀ g' ∈ r.state.obj.gauss, ∀ v, v < 6 →
        ((g'.macroStress v).val - q.ave v) ^ 2 ≤ K * (binary p emin hp hem).u := by
  obtain ⟨s0, w, q, hs0, hv0, hu, hq, hH0⟩ := tinyP_exact fun _ => 1
  obtain ⟨hb0, ho0⟩ := reach_built tinyP_ok hs0
  obtain ⟨K, d, u0, hK, hd, hu0, H⟩ := C89_stress tinyP_ok tinyP_geom tinyP_j2 tinyP_noTie hs0 hH0 hu hq
  refine ⟨s0, w, q, K, hu, hq, ?_, ?_⟩
  · obtain ⟨et, ct, h⟩ := hb0.eq
    rw [h]; rfl
  obtain ⟨p, emin, hp, hem, hpu, heta⟩ := exists_format (u0 := min u0 (min d 1e-3)) (by positivity)
  refine ⟨p, emin, hp, hem, ?_⟩
  generalize binary p emin hp hem = fp at hpu heta
  have hu3 : fp.u ≤ 1e-3 := le_trans hpu (le_trans (min_le_right _ _) (min_le_right _ _))
  have hud : fp.u ≤ d := le_trans hpu (le_trans (min_le_right _ _) (min_le_left _ _))
  obtain ⟨s, r, g, g', hs, hr, hg, hg', -, hg1, hg2, hpath, herr⟩ := tinyP_setup fp fun _ => 1
  refine ⟨s, r, hr, by rw [hg]; rfl, ?_⟩
  have hH := H fp (le_trans hpu (min_le_left _ _)) heta (tinyEnv _) _ _ _ s r (tinyP_same fp) hs hr
  rw [hg, hg'] at hH
  cases hH with
  | cons h1 h2 =>
    intro g'' hg'' v hv
    rw [hg', List.mem_singleton] at hg''
    subst hg''
    have h0 : (g''.nrErr 0).val = 0 := by rw [herr]; rfl
    obtain ⟨old, U, -, -, h3⟩ := h1 hpath (by rw [h0]; exact tol_pos hu3 heta)
      (fun k _ => by simp [histVar, hg1, hv0]) (fun v hv => by rw [hg2 v hv]; simp)
    have := h3 1 (le_refl _) (fun p hp hbd => absurd ((onBdry_iff ho0.cfg p).mp (tinyP_allBdry hb0 p hp)) hbd)
      (by rw [h0]; linarith) v hv
    rw [h0, zero_add] at this
    exact this

end Verif.Props
