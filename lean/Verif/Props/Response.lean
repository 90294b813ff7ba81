import Verif.Props.History
import Verif.Props.Newton
import Verif.Props.Macro
import Verif.Lemmas.Soft

/-!
# What `homogenize` stores for a Gauss point: properties C58, C59, C60

Every scalar type.  `CellAnswer` composes the three calls of /repo/src/homogenize.cpp:40-42, 169-171,
197-199 and names their results.
-/

namespace Verif.Props
open Verif

variable {α : Type} [Scalar α]

/-- With committed variables `old`, prescribing the strain `eps` on the boundary, running
`newton_raphson` and averaging the stress gives `sig`, after `its` iterations with error `err`. -/
def CellAnswer (env : Env α) (c : Cfg α) (old : Buf α) (eps sig : Nat → α) (its : Int) (err : α) : Prop :=
  ∃ (w w1 : Work α) (r : NrOut α) (a : AveState α), w.Ok c ∧ w.varsOld = old ∧
    setDispl c w eps = .ok w1 ∧ newtonRaphson env c w1 = .ok r ∧ calcAveStress c r.work = .ok a ∧
    (∀ v, v < c.nvoi → sig v = a.ave v) ∧ its = r.its ∧ err = r.err

/-- The strain `eps` with component `i` increased by `d`. -/
def bump (eps : Nat → α) (i : Nat) (d : α) (v : Nat) : α := if v = i then eps v + d else eps v

theorem solveStrain_answer {env : Env α} {c : Cfg α} {w : Work α} {eps : Nat → α} {r : PertOut α}
    (hw : w.Ok c) (h : solveStrain env c w eps = .ok r) :
    CellAnswer env c w.varsOld eps r.sig r.nr.its r.nr.err := by
  unfold solveStrain at h
  simp only [bind_ok_iff, pure_ok_iff] at h
  obtain ⟨w1, h1, q, h2, a, h3, rfl⟩ := h
  exact ⟨w, w1, q, a, hw, rfl, h1, h2, h3, fun _ _ => rfl, rfl, rfl⟩

theorem setCol_eq {n i v q : Nat} (hi : i < n) (hv : v < n) (hq : q < n) (f t : Nat → α) :
    setCol n i f t (v * n + q) = if q = i then f v else t (v * n + q) :=
  setCol_at n i hi f t hv hq

/-- The solving branch with everything it stores. -/
theorem solveGp_full {env : Env α} {c : Cfg α} (hc : c.Ok) {gp : Gp α} {w : Work α} {s : GpWork α}
    (hw : w.Ok c) (h : solveGp env c gp w = .ok s) :
    ∃ sig its err, CellAnswer env c w.varsOld gp.macroStrain sig its err ∧
      (∀ v, v < c.nvoi → s.gp.macroStress v = sig v) ∧ s.gp.nrIts 0 = its ∧ s.gp.nrErr 0 = err ∧
      ∀ i, i < c.nvoi → ∃ sig' its' err',
        CellAnswer env c w.varsOld (bump gp.macroStrain i 1.0e-8) sig' its' err' ∧
        (∀ v, v < c.nvoi → s.gp.macroCtan (v * c.nvoi + i) = (sig' v - sig v) / 1.0e-8) ∧
        s.gp.nrIts (1 + i) = its' ∧ s.gp.nrErr (1 + i) = err' := by
  unfold solveGp at h
  simp only [bind_ok_iff] at h
  obtain ⟨r, hr, g1, hg, hl⟩ := h
  have hs := storeVars_inv hg
  have hfr := (solveStrain_safe (env := env) hc hw gp.macroStrain).post hr
  have key := loop_ok_inv (fun n (s : GpWork α) => Frame c w s.work ∧
      s.gp.macroStrain = gp.macroStrain ∧ s.gp.macroStress = g1.macroStress ∧
      s.gp.nrIts 0 = r.nr.its ∧ s.gp.nrErr 0 = r.nr.err ∧
      ∀ i, i < n → i < c.nvoi → ∃ sig' its' err',
        CellAnswer env c w.varsOld (bump gp.macroStrain i 1.0e-8) sig' its' err' ∧
        (∀ v, v < c.nvoi → s.gp.macroCtan (v * c.nvoi + i) = (sig' v - g1.macroStress v) / 1.0e-8) ∧
        s.gp.nrIts (1 + i) = its' ∧ s.gp.nrErr (1 + i) = err') hl
    ⟨hfr, hs.1.strain, rfl, by simp, by simp, fun i hi => absurd hi (by omega)⟩ (by
      rintro i s s' hi ⟨a, b, d, e, f, g⟩ h1
      unfold ctanGp at h1
      simp only [bind_ok_iff, pure_ok_iff] at h1
      obtain ⟨r', h2, rfl⟩ := h1
      have hf' := (solveStrain_safe (env := env) hc a.ok _).post h2
      refine ⟨a.trans hf', b, d, ?_, ?_, fun k hk hk' => ?_⟩
      · simp only; rw [if_neg (by omega)]; exact e
      · simp only; rw [if_neg (by omega)]; exact f
      · by_cases hki : k = i
        · subst hki
          refine ⟨r'.sig, r'.nr.its, r'.nr.err, ?_, fun v hv => ?_, by simp, by simp⟩
          · have := solveStrain_answer a.ok h2
            rw [a.varsOld, b] at this
            exact this
          · show setCol c.nvoi k _ s.gp.macroCtan (v * c.nvoi + k) = _
            rw [setCol_eq hi hv hk', if_pos rfl]
        · obtain ⟨sig', its', err', g1, g2, g3, g4⟩ := g k (by omega) hk'
          refine ⟨sig', its', err', g1, fun v hv => ?_, ?_, ?_⟩
          · show setCol c.nvoi i _ s.gp.macroCtan (v * c.nvoi + k) = _
            rw [setCol_eq hi hv hk', if_neg hki]
            exact g2 v hv
          · simp only; rw [if_neg (by omega)]; exact g3
          · simp only; rw [if_neg (by omega)]; exact g4)
  obtain ⟨-, -, d, e, f, g⟩ := key
  have hsig : ∀ v, v < c.nvoi → g1.macroStress v = r.sig v := fun v hv => by
    rw [hs.2.1]; simp [setFirst, hv]
  refine ⟨r.sig, _, _, solveStrain_answer hw hr, fun v hv => by rw [d, hsig v hv], e, f, fun i hi => ?_⟩
  obtain ⟨sig', its', err', g1, g2, g3⟩ := g i hi hi
  exact ⟨sig', its', err', g1, fun v hv => by rw [g2 v hv, hsig v hv], g3⟩

theorem homogenizeGp_full {env : Env α} {c : Cfg α} (hc : c.Ok) {g : Gp α} {w : Work α} {s : GpWork α}
    (hw : w.Ok c) (hg : g.Ok c) (h : homogenizeGp env c g w = .ok s) (hl : ¬ TakesLinearPath c g) :
    ∃ old sig its err, old.size = c.numIntVars ∧
      (∀ k, k < c.numIntVars → old.val k = match g.intVarsN with | none => 0 | some b => b.val k) ∧
      CellAnswer env c old g.macroStrain sig its err ∧
      (∀ v, v < c.nvoi → s.gp.macroStress v = sig v) ∧ s.gp.nrIts 0 = its ∧ s.gp.nrErr 0 = err ∧
      ∀ i, i < c.nvoi → ∃ sig' its' err',
        CellAnswer env c old (bump g.macroStrain i 1.0e-8) sig' its' err' ∧
        (∀ v, v < c.nvoi → s.gp.macroCtan (v * c.nvoi + i) = (sig' v - sig v) / 1.0e-8) ∧
        s.gp.nrIts (1 + i) = its' ∧ s.gp.nrErr (1 + i) = err' := by
  obtain ⟨old, l, h1, h2, h3, -⟩ := homogenizeGp_inv hc hw hg h
  obtain ⟨old', h4, h5⟩ := loadVars_ok hg hw.varsOld
  unfold homogenizeGp at h
  rw [h4, M_bind_ok', h3, M_bind_ok'] at h
  have h6 := isLinear_eq h3
  rw [if_neg (fun hc => hl ⟨Option.isNone_iff_eq_none.mp hc.2, h6 ▸ hc.1⟩)] at h
  simp only [bind_ok_iff, pure_ok_iff] at h
  obtain ⟨s1, h7, rfl⟩ := h
  have hw' : Work.Ok c { w with varsOld := old', invMax := l.2 } :=
    ⟨hw.u, hw.du, hw.b, hw.elemStress, hw.elemStrain, h5, hw.varsNew, hw.A2, hw.A3⟩
  obtain ⟨sig, its, err, a1, a2, a3, a4, a5⟩ := solveGp_full hc hw' h7
  refine ⟨old', sig, its, err, h5, ?_, a1, a2, a3, a4, a5⟩
  intro k hk
  unfold loadVars at h4
  split at h4
  · rename_i hb
    rw [zeroInto_eq (by rw [hw.varsOld])] at h4
    cases h4; simp [hk, hb]
  · rename_i b hb
    rw [copyInto_eq (by rw [hg.n _ hb]) (by rw [hw.varsOld])] at h4
    cases h4; simp [hk, hb]

theorem homogenizeList_full {env : Env α} {c : Cfg α} (hc : c.Ok) {l : List (Gp α)} {w : Work α}
    {r : ListWork α} (hw : w.Ok c) (hl : ∀ g ∈ l, g.Ok c) (h : homogenizeList env c l w = .ok r) :
    List.Forall₂ (fun g g' => ∃ w s, w.Ok c ∧ g.Ok c ∧ homogenizeGp env c g w = .ok s ∧ s.gp = g')
      l r.gauss := by
  induction l generalizing w r with
  | nil =>
    simp only [homogenizeList, pure_ok_iff] at h
    subst h; exact List.Forall₂.nil
  | cons gp l ih =>
    simp only [homogenizeList, bind_ok_iff, pure_ok_iff] at h
    obtain ⟨s, hs, r1, hr, rfl⟩ := h
    have hg := hl gp (by simp)
    exact List.Forall₂.cons ⟨w, s, hw, hg, hs, rfl⟩
      (ih ((homogenizeGp_safe (env := env) hc hw hg).post hs).1 (fun g h => hl g (by simp [h])) hr)

/-- C58: in one `homogenize` call a Gauss point that does not take the linear path gets the average
stress of the cell under its own macro strain and its own committed variables (zero if it has none);
column `i` of its tangent is the difference quotient of the averages for the strain increased by 1e-8 in
component `i` and for the strain itself; the iteration numbers and errors are those of the same solves,
in the same order. -/
theorem C58_solved (env : Env α) (s : ObjFiles α) (hs : s.obj.Ok) (r : Stepped α)
    (h : step env s .homogenize = .ok r) :
    List.Forall₂ (fun g g' => ¬ TakesLinearPath s.obj.cfg g →
      ∃ old sig its err, old.size = s.obj.cfg.numIntVars ∧
        (∀ k, k < s.obj.cfg.numIntVars →
          old.val k = match g.intVarsN with | none => 0 | some b => b.val k) ∧
        CellAnswer env s.obj.cfg old g.macroStrain sig its err ∧
        (∀ v, v < s.obj.cfg.nvoi → g'.macroStress v = sig v) ∧ g'.nrIts 0 = its ∧ g'.nrErr 0 = err ∧
        ∀ i, i < s.obj.cfg.nvoi → ∃ sig' its' err',
          CellAnswer env s.obj.cfg old (bump g.macroStrain i 1.0e-8) sig' its' err' ∧
          (∀ v, v < s.obj.cfg.nvoi →
            g'.macroCtan (v * s.obj.cfg.nvoi + i) = (sig' v - sig v) / 1.0e-8) ∧
          g'.nrIts (1 + i) = its' ∧ g'.nrErr (1 + i) = err')
      s.obj.gauss r.state.obj.gauss := by
  simp only [step, homogenize, bind_ok_iff, pure_ok_iff] at h
  obtain ⟨o, ⟨r1, h1, rfl⟩, rfl⟩ := h
  refine (homogenizeList_full hs.cfg hs.work hs.gauss h1).imp ?_
  rintro g g' ⟨w, s1, hw, hg, hs1, rfl⟩ hl
  exact homogenizeGp_full hs.cfg hw hg hs1 hl

/-- C58 for `calc_ctan_lin`: column `i` of the linear tangent is the average stress of the cell under
the strain with the single component `i` equal to 1e-8, divided by 1e-8. -/
theorem C58_linear (env : Env α) (c : Cfg α) (hc : c.Ok) (w : Work α) (hw : w.Ok c) (t : Nat → α)
    (r : CtanState α) (h : calcCtanLin env c t w = .ok r) :
    ∀ i, i < c.nvoi → ∃ sig its err,
      CellAnswer env c w.varsOld (bump (fun _ => 0) i 1.0e-8) sig its err ∧
      ∀ v, v < c.nvoi → r.ctan (v * c.nvoi + i) = sig v / 1.0e-8 := by
  unfold calcCtanLin at h
  have key := loop_ok_inv (fun n (s : CtanState α) => Frame c w s.work ∧
    ∀ i, i < n → i < c.nvoi → ∃ sig its err,
      CellAnswer env c w.varsOld (bump (fun _ => 0) i 1.0e-8) sig its err ∧
      ∀ v, v < c.nvoi → s.ctan (v * c.nvoi + i) = sig v / 1.0e-8) h
    ⟨Frame.rfl' hw, fun i hi => absurd hi (by omega)⟩ (by
      rintro i s s' hi ⟨a, g⟩ h1
      simp only [bind_ok_iff, pure_ok_iff] at h1
      obtain ⟨r', h2, rfl⟩ := h1
      refine ⟨a.trans ((solveStrain_safe (env := env) hc a.ok _).post h2), fun k hk hk' => ?_⟩
      by_cases hki : k = i
      · subst hki
        refine ⟨r'.sig, r'.nr.its, r'.nr.err, ?_, fun v hv => ?_⟩
        · have := solveStrain_answer a.ok h2
          rw [a.varsOld] at this
          exact this
        · show setCol c.nvoi k _ s.ctan (v * c.nvoi + k) = _
          rw [setCol_eq hi hv hk', if_pos rfl]
      · obtain ⟨sig, its, err, g1, g2⟩ := g k (by omega) hk'
        refine ⟨sig, its, err, g1, fun v hv => ?_⟩
        show setCol c.nvoi i _ s.ctan (v * c.nvoi + k) = _
        rw [setCol_eq hi hv hk', if_neg hki]
        exact g2 v hv)
  exact fun i hi => key.2 i hi hi

/-! ### C59 -/

section
open Spec Finset
variable {c : Cfg ℝ} {w : Work ℝ} {env : Env ℝ}

/-- However `newton_raphson` ends, the residual it leaves is below the tolerance (elastic cells). -/
theorem nr_small (hc : c.Ok) (hg : c.Geom) (he : c.Elastic) (hw : w.Ok c)
    (hn : {r ∈ range (c.nn * c.dim) | ¬ c.fe.Bd r}.card < 2000) {out : NrOut ℝ}
    (h : newtonRaphson env c w = .ok out) :
    ∃ r, assemblyRhs c out.work = .ok r ∧ r.norm < 1e-5 := by
  have hcard : (c.inner.card : Int) < 2000 := by unfold Cfg.inner; exact_mod_cast hn
  refine nrLoop_inv (c := c) (env := env) hc (P := fun _ => True)
    (Q := fun out => ∃ r, assemblyRhs c out.work = .ok r ∧ r.norm < 1e-5) ?_ ?_ env.fuel hw trivial h
  · intro w' r hw' _ hr hlt
    obtain ⟨b, vn, nm, nl, h1, h2⟩ := rhs_ok hc hw'
    rw [h1] at hr
    cases hr
    obtain ⟨b2, vn2, nm2, nl2, e1, -⟩ := rhs_ok hc h2.ok
    have := (rhs_same hc hw' h2.ok rfl rfl h1 e1).1
    refine ⟨_, e1, ?_⟩
    rw [this]
    rw [lt_real, nrMaxTol_real] at hlt
    simpa using hlt
  · intro w' r w'' v hw' _ hr _ hcr _
    refine ⟨fun _ => trivial, fun _ => ?_⟩
    obtain ⟨f, vn, nl, h1, -, -, h2⟩ := assemblyRhs_real hc hw'
    obtain ⟨b', vn', nm', nl', h1', hfr⟩ := rhs_ok hc hw'
    rw [h1] at h1' hr
    cases h1'
    cases hr
    have hB : ∀ q, q < c.nn * c.dim → c.fe.Bd q → f q = 0 := fun q hq hb => by rw [h2 q hq, if_pos hb]
    obtain ⟨A, vn1, du, k1, k2, k3, k4, k5⟩ := nrCorrect_real (env := env) hc hg hfr.ok hB
    rw [k2] at hcr
    cases hcr
    have hfr2 := (hfr.trans k5).tick' (t := w'.tick + 1 + 1) (by show w'.tick + 1 ≤ _; omega)
    obtain ⟨m, r, r', e1, e2, e3, e4⟩ := C24_newton hc hg he.noPlast hfr.ok hfr2.ok du.val k3
      (fun q hq => by simp only [if_pos hq])
    rw [k1] at e1
    cases e1
    refine ⟨r', e3, ?_⟩
    obtain ⟨f', vn', nl', g1, -⟩ := assemblyRhs_real hc hfr2.ok
    rw [g1] at e3
    cases e3
    have hb := (rhs_same hc hw' hfr.ok rfl rfl h1 e2).2.2
    show norm2 (c.nn * c.dim) f' < 1e-5
    have : norm2 (c.nn * c.dim) f' = norm2 (c.nn * c.dim) (fun i => op A du.val i - f i) := by
      unfold norm2 dot
      congr 1
      refine sum_congr rfl fun q hq => ?_
      have hq := mem_range.mp hq
      have e := e4 q hq
      have e' := hb q hq
      simp only at e e'
      rw [e, e']
      ring
    rw [this]
    exact lt_trans (k4 he hcard) (by norm_num)

theorem answer_close (hc : c.Ok) (hg : c.Geom) (he : c.Elastic)
    (hn : {r ∈ range (c.nn * c.dim) | ¬ c.fe.Bd r}.card < 2000) :
    ∃ K : ℝ, 0 < K ∧ ∀ (env : Env ℝ) old eps sig its err w r, CellAnswer env c old eps sig its err →
      Equilibrium c w eps → calcAveStress c w = .ok r → ∀ v, v < c.nvoi → |sig v - r.ave v| ≤ K * 1e-5 := by
  have hF := c.good hc hg
  have hL := c.law_ok hc he
  have ht := thick_pos hc hg
  obtain ⟨K, hK, hb⟩ := Fe.aveStress_bound hF hL
  refine ⟨c.thick * K, mul_pos ht hK, ?_⟩
  rintro env old eps sig its err w r ⟨w0, w1, q, a, hw0, -, h1, h2, h3, h4, -, -⟩ hq hr v hv
  have hv' : v < c.fe.nvoi := by rw [c.fe_nvoi]; exact hv
  obtain ⟨u1, h1', h1o, h1b, -⟩ := setDispl_real hc hg.toDivided hw0.u eps
  rw [h1] at h1'
  cases h1'
  have hw1 : Work.Ok c { w0 with u := u1 } := Work.Ok.setU hw0 h1o
  have hqw : q.work.Ok c := ((newtonRaphson_safe (env := env) hc hw1).post h2).ok
  have hbd : c.fe.OnBd eps q.work.u.val := fun r hr hr' => by
    rw [← h1b r hr hr']
    rw [c.fe_nn hc] at hr
    exact C27_boundary hc hg hw1 h2 r hr hr'
  obtain ⟨rr, e1, e2⟩ := nr_small hc hg he hw1 hn h2
  obtain ⟨f, vn, nl, g1, -, -, g2⟩ := assemblyRhs_real hc hqw
  rw [g1] at e1
  cases e1
  obtain ⟨va, i1, -⟩ := calcAveStress_real hc hqw
  rw [h3] at i1
  cases i1
  obtain ⟨vb, i2, -⟩ := calcAveStress_real hc hq.work
  rw [hr] at i2
  cases i2
  rw [h4 v hv]
  have h5 := (equil_law hc he _ _).mp ((zeroResidual_iff hc hq.work).mp hq.residual)
  have hA : ∀ (w : Work ℝ), c.fe.integral (fun e gp => c.sig w.u.val w.varsOld e gp v) / (c.lx * c.ly)
      = c.thick * c.fe.aveStress (c.fe.stress c.law w.u.val) v := by
    intro w
    rw [div_area hc hg, Fe.integral_congr (g := fun e gp => c.fe.stress c.law w.u.val e gp v)
      (fun x hx gp hgp => c.sig_elastic hc he _ _ hx hgp hv')]
    rfl
  show |c.fe.integral (fun e gp => c.sig q.work.u.val q.work.varsOld e gp v) / (c.lx * c.ly)
    - c.fe.integral (fun e gp => c.sig w.u.val w.varsOld e gp v) / (c.lx * c.ly)| ≤ _
  rw [hA, hA]
  have hd := hb (fun r => 1 * q.work.u.val r + (-1) * w.u.val r)
    (fun r hr hr' => by rw [hbd r hr hr', hq.onBd hc r hr hr']; ring) v hv'
  rw [Fe.aveStress_lin hL _ _ _ _ hv'] at hd
  have hnorm : norm2 (c.fe.nn * c.fe.dim) (c.fe.innerForce (c.fe.stress c.law
      fun r => 1 * q.work.u.val r + (-1) * w.u.val r)) = norm2 (c.nn * c.dim) f := by
    rw [c.fe_nn hc]
    unfold norm2 dot
    congr 1
    refine sum_congr rfl fun r hr => ?_
    have hr := mem_range.mp hr
    rw [g2 r hr]
    unfold Fe.innerForce
    split
    · rfl
    · rename_i hb'
      rw [c.force_elastic hc he, Fe.force_lin hL, h5 r (by rw [c.fe_nn hc]; exact hr) hb']
      ring
  rw [hnorm] at hd
  have hlt : norm2 (c.nn * c.dim) f < 1e-5 := e2
  have e3 : c.thick * c.fe.aveStress (c.fe.stress c.law q.work.u.val) v
      - c.thick * c.fe.aveStress (c.fe.stress c.law w.u.val) v
      = c.thick * (1 * c.fe.aveStress (c.fe.stress c.law q.work.u.val) v
        + -1 * c.fe.aveStress (c.fe.stress c.law w.u.val) v) := by ring
  rw [e3, abs_mul, abs_of_pos ht, mul_assoc]
  exact mul_le_mul_of_nonneg_left (le_trans hd (mul_le_mul_of_nonneg_left hlt.le hK.le)) ht.le

/-- `C` is the homogenised stiffness of the cell: the average stress of every equilibrium is `C` times
its macro strain. -/
def IsStiffness (c : Cfg ℝ) (C : Nat → Nat → ℝ) : Prop :=
  ∀ w eps, Equilibrium c w eps → ∃ r, calcAveStress c w = .ok r ∧
    ∀ v, v < c.nvoi → r.ave v = ∑ j ∈ range c.nvoi, C v j * eps j

/-- There is exactly one homogenised stiffness, and it is positive definite. -/
theorem stiffness_unique (hc : c.Ok) (hg : c.Geom) (he : c.Elastic) (hw : w.Ok c) :
    (∃ C, IsStiffness c C) ∧ (∀ C C', IsStiffness c C → IsStiffness c C' →
      ∀ i j, i < c.nvoi → j < c.nvoi → C i j = C' i j) ∧
    ∀ C, IsStiffness c C → ∀ i, i < c.nvoi → 0 < C i i := by
  obtain ⟨h1, C0, -, h2, h3⟩ := C30_stiffness hc hg he
  have hu : ∀ C C', IsStiffness c C → IsStiffness c C' →
      ∀ i j, i < c.nvoi → j < c.nvoi → C i j = C' i j := by
    intro C C' hC hC' i j hi hj
    obtain ⟨u, hq⟩ := h1 w hw fun v => if v = j then 1 else 0
    obtain ⟨r, a1, a2⟩ := hC _ _ hq
    obtain ⟨r', b1, b2⟩ := hC' _ _ hq
    rw [a1] at b1
    cases b1
    have := (a2 i hi).symm.trans (b2 i hi)
    simpa [hj] using this
  refine ⟨⟨C0, h3⟩, hu, fun C hC i hi => ?_⟩
  have h4 := h2 (fun v => if v = i then 1 else 0) ⟨i, hi, by simp⟩
  rw [hu C C0 hC h3 i i hi hi]
  simpa [hi] using h4

/-! An object all of whose Gauss points are solved: `inv_tol` is zero. -/

noncomputable def exJunk0 : Junk ℝ := { exJunk with invTol := 0 }

noncomputable def exCalls0 : List (Call ℝ) :=
  [.setStrain 4 (fun v => v + 1), .setStrain 9 (fun _ => 0), .homogenize]

theorem exJunk0_path {a : Args ℝ} {c : Cfg ℝ} (h : BuiltFrom a exJunk0 c) (g : Gp ℝ) :
    ¬ TakesLinearPath c g := by
  obtain ⟨et, ct, rfl⟩ := h.eq
  rintro ⟨-, h⟩
  have h : Scalar.lt (Scalar.abs _) (0 : ℝ) = true := h
  rw [lt_real, decide_eq_true_eq] at h
  rw [abs_real] at h
  exact absurd h (not_lt.mpr (abs_nonneg _))

/-- The state after those calls, ready for another `homogenize`. -/
theorem exSolved {a : Args ℝ} (ha : a.Ok) : ∃ (s : ObjFiles ℝ) (r : Stepped ℝ), Reach exEnv a exJunk0 exCalls0 s ∧
    s.obj.Ok ∧ step exEnv s .homogenize = .ok r ∧ s.obj.gauss.length = 2 ∧
    ∀ g, ¬ TakesLinearPath s.obj.cfg g := by
  obtain ⟨s, hs⟩ := reach_exists exEnv_quick ha exJunk0 exCalls0
  obtain ⟨hb, ho⟩ := reach_built ha hs
  obtain ⟨r, hr, -⟩ := (step_sane (env := exEnv) ho .homogenize).returns exEnv_quick
  refine ⟨s, r, hs, ho, hr, ?_, fun g => exJunk0_path hb g⟩
  obtain ⟨f, hf⟩ := hs
  rw [bind_ok_iff] at hf
  obtain ⟨s0, h0, h1⟩ := hf
  have := (C39_map exEnv exCalls0 s0 s (construct_fresh h0) h1).1
  rw [← List.length_map (f := Gp.id), this]
  rfl

theorem ex3_few : {r ∈ range (ex3.cfg.nn * ex3.cfg.dim) | ¬ ex3.cfg.fe.Bd r}.card < 2000 :=
  lt_of_le_of_lt (card_filter_le _ _) (by rw [card_range, ex3_nn]; norm_num)

theorem few_of_reach {calls : List (Call ℝ)} {s : ObjFiles ℝ} (h : Reach exEnv exArgs3 exJunk0 calls s) :
    {r ∈ range (s.obj.cfg.nn * s.obj.cfg.dim) | ¬ s.obj.cfg.fe.Bd r}.card < 2000 := by
  obtain ⟨et, ct, h⟩ := (reach_built exArgs3_ok h).1.eq
  have : s.obj.cfg.nn * s.obj.cfg.dim = 108 := by rw [h]; simp [Cfg.nn, mkCfg, exArgs3]
  exact lt_of_le_of_lt (card_filter_le _ _) (by rw [card_range, this]; norm_num)

/-- C58 for an elastic and for a plastic cell. -/
example : ∃ (s : ObjFiles ℝ) (r : Stepped ℝ), step exEnv s .homogenize = .ok r ∧ s.obj.gauss.length = 2 ∧
    List.Forall₂ (fun g g' => ∃ old sig its err, CellAnswer exEnv s.obj.cfg old g.macroStrain sig its err ∧
      ∀ v, v < s.obj.cfg.nvoi → g'.macroStress v = sig v) s.obj.gauss r.state.obj.gauss := by
  obtain ⟨s, r, h1, h2, h3, h4, h5⟩ := exSolved exArgsP_ok
  refine ⟨s, r, h3, h4, (C58_solved exEnv s h2 r h3).imp fun g g' h => ?_⟩
  obtain ⟨old, sig, its, err, -, -, a, b, -⟩ := h (h5 g)
  exact ⟨old, sig, its, err, a, b⟩

example : ∃ r, calcCtanLin exEnv ex3.cfg (fun _ => 0) ex3.work = .ok r ∧ ∃ sig its err,
    CellAnswer exEnv ex3.cfg ex3.work.varsOld (bump (fun _ => 0) 2 1.0e-8) sig its err ∧
      r.ctan (1 * ex3.cfg.nvoi + 2) = sig 1 / 1.0e-8 := by
  have hn : ex3.cfg.nvoi = 6 := by unfold Cfg.nvoi; rw [ex3_dim]; rfl
  obtain ⟨r, hr, -⟩ := (calcCtanLin_safe (env := exEnv) ex3_ok ex3_work fun _ => 0).returns exEnv_quick
  obtain ⟨sig, its, err, h1, h2⟩ := C58_linear exEnv ex3.cfg ex3_ok ex3.work ex3_work _ r hr 2 (by rw [hn]; omega)
  exact ⟨r, hr, sig, its, err, h1, h2 1 (by rw [hn]; omega)⟩

/-- C59: there is a constant of the cell such that every macro stress that `homogenize` obtains by
solving is within `K * 1e-5` of the homogenised stiffness times the macro strain, whatever the strain,
the history of the object, the memory and the environment. -/
theorem C59_stress (hc : c.Ok) (hg : c.Geom) (he : c.Elastic)
    (hn : {r ∈ range (c.nn * c.dim) | ¬ c.fe.Bd r}.card < 2000) :
    ∃ K : ℝ, 0 < K ∧ ∀ C, IsStiffness c C → ∀ (env : Env ℝ) (s : ObjFiles ℝ) (r : Stepped ℝ),
      s.obj.cfg = c → s.obj.Ok → step env s .homogenize = .ok r →
      List.Forall₂ (fun g g' => ¬ TakesLinearPath c g → ∀ v, v < c.nvoi →
        |g'.macroStress v - ∑ j ∈ range c.nvoi, C v j * g.macroStrain j| ≤ K * 1e-5)
        s.obj.gauss r.state.obj.gauss := by
  obtain ⟨K, hK, h⟩ := answer_close hc hg he hn
  refine ⟨K, hK, ?_⟩
  rintro C hC env s r rfl hs hr
  refine (C58_solved env s hs r hr).imp ?_
  intro g g' hgg hl v hv
  obtain ⟨old, sig, its, err, -, -, h1, h2, -⟩ := hgg hl
  obtain ⟨u, hq⟩ := equilibrium_exists hc hg he hs.work g.macroStrain
  obtain ⟨a, a1, a2⟩ := hC _ _ hq
  rw [h2 v hv, ← a2 v hv]
  exact h env _ _ _ _ _ _ _ h1 hq a1 v hv

example : ∃ (s : ObjFiles ℝ) (r : Stepped ℝ) (K : ℝ), s.obj.gauss.length = 2 ∧
    step exEnv s .homogenize = .ok r ∧ ∀ C, IsStiffness s.obj.cfg C →
      List.Forall₂ (fun g g' => ∀ v, v < s.obj.cfg.nvoi →
        |g'.macroStress v - ∑ j ∈ range s.obj.cfg.nvoi, C v j * g.macroStrain j| ≤ K * 1e-5)
        s.obj.gauss r.state.obj.gauss := by
  obtain ⟨s, r, h1, h2, h3, h4, h5⟩ := exSolved exArgs3_ok
  have hb := (reach_built exArgs3_ok h1).1
  obtain ⟨K, -, hK⟩ := C59_stress h2.cfg (hb.geom exArgs3_geom) (hb.elastic exArgs3_elastic) (few_of_reach h1)
  exact ⟨s, r, K, h4, h3, fun C hC => (hK C hC exEnv s r rfl h2 h3).imp fun g g' h => h (h5 g)⟩

/-- C59: two objects with this configuration, whatever happened to them, and two solved Gauss points
with the same macro strain: the stresses agree up to `2 * K * 1e-5`. -/
theorem C59_history (hc : c.Ok) (hg : c.Geom) (he : c.Elastic)
    (hn : {r ∈ range (c.nn * c.dim) | ¬ c.fe.Bd r}.card < 2000) :
    ∃ K : ℝ, 0 < K ∧ ∀ (env env' : Env ℝ) (s s' : ObjFiles ℝ) (r r' : Stepped ℝ),
      s.obj.cfg = c → s'.obj.cfg = c → s.obj.Ok → s'.obj.Ok →
      step env s .homogenize = .ok r → step env' s' .homogenize = .ok r' →
      ∀ (i i' : Nat) (g g' h h' : Gp ℝ), s.obj.gauss[i]? = some g → r.state.obj.gauss[i]? = some h →
        s'.obj.gauss[i']? = some g' → r'.state.obj.gauss[i']? = some h' →
        ¬ TakesLinearPath c g → ¬ TakesLinearPath c g' →
        (∀ v, v < c.nvoi → g.macroStrain v = g'.macroStrain v) →
        ∀ v, v < c.nvoi → |h.macroStress v - h'.macroStress v| ≤ 2 * K * 1e-5 := by
  obtain ⟨K, hK, H⟩ := C59_stress hc hg he hn
  refine ⟨K, hK, ?_⟩
  intro env env' s s' r r' e e' ho ho' hr hr' i i' g g' h h' hg1 hh1 hg2 hh2 hl hl' hst v hv
  obtain ⟨⟨C, hC⟩, -⟩ := stiffness_unique hc hg he (e ▸ ho.work : s.obj.work.Ok c)
  have q1 := (List.forall₂_iff_get.mp (H C hC env s r e ho hr))
  have q2 := (List.forall₂_iff_get.mp (H C hC env' s' r' e' ho' hr'))
  obtain ⟨l1, rfl⟩ := List.getElem?_eq_some_iff.mp hg1
  obtain ⟨l2, rfl⟩ := List.getElem?_eq_some_iff.mp hh1
  obtain ⟨l3, rfl⟩ := List.getElem?_eq_some_iff.mp hg2
  obtain ⟨l4, rfl⟩ := List.getElem?_eq_some_iff.mp hh2
  have b1 := q1.2 i l1 l2 hl v hv
  have b2 := q2.2 i' l3 l4 hl' v hv
  simp only [List.get_eq_getElem] at b1 b2
  rw [sum_congr rfl fun j hj => by rw [hst j (mem_range.mp hj)]] at b1
  have := abs_sub_le (r.state.obj.gauss[i].macroStress v)
    (∑ j ∈ range c.nvoi, C v j * s'.obj.gauss[i'].macroStrain j) (r'.state.obj.gauss[i'].macroStress v)
  rw [abs_sub_comm (∑ j ∈ range c.nvoi, C v j * s'.obj.gauss[i'].macroStrain j)] at this
  linarith

example := C59_history ex3_ok ex3_geom ex3_elastic ex3_few

/-! ### C60 -/

theorem bump_stiff {C : Nat → Nat → ℝ} {eps : Nat → ℝ} {i n : Nat} (hi : i < n) (d : ℝ) (v : Nat) :
    ∑ j ∈ range n, C v j * bump eps i d j = ∑ j ∈ range n, C v j * eps j + C v i * d := by
  have : ∀ j ∈ range n, C v j * bump eps i d j = C v j * eps j + if j = i then C v i * d else 0 := by
    intro j _
    unfold bump
    split
    · rename_i h; subst h; ring
    · ring
  rw [sum_congr rfl this, sum_add_distrib, sum_ite_eq' (range n) i, if_pos (mem_range.mpr hi)]

/-- C60, the part that holds: the tangents approximate the homogenised stiffness with an error bounded
by a constant of the cell, not by a small number: the residual tolerance 1e-5 is divided by the
perturbation 1e-8. -/
theorem C60_partial (hc : c.Ok) (hg : c.Geom) (he : c.Elastic)
    (hn : {r ∈ range (c.nn * c.dim) | ¬ c.fe.Bd r}.card < 2000) :
    ∃ K : ℝ, 0 < K ∧ ∀ C, IsStiffness c C →
      (∀ (env : Env ℝ) (s : ObjFiles ℝ) (r : Stepped ℝ),
        s.obj.cfg = c → s.obj.Ok → step env s .homogenize = .ok r →
        List.Forall₂ (fun g g' => ¬ TakesLinearPath c g → ∀ v i, v < c.nvoi → i < c.nvoi →
          |g'.macroCtan (v * c.nvoi + i) - C v i| ≤ K * 2e3) s.obj.gauss r.state.obj.gauss) ∧
      (∀ (env : Env ℝ) (w : Work ℝ) t r, w.Ok c → calcCtanLin env c t w = .ok r →
        ∀ v i, v < c.nvoi → i < c.nvoi → |r.ctan (v * c.nvoi + i) - C v i| ≤ K * 1e3) := by
  obtain ⟨K, hK, h⟩ := answer_close hc hg he hn
  refine ⟨K, hK, fun C hC => ⟨?_, ?_⟩⟩
  · rintro env s r rfl hs hr
    refine (C58_solved env s hs r hr).imp ?_
    intro g g' hgg hl v i hv hi
    obtain ⟨old, sig, its, err, -, -, h1, -, -, -, h3⟩ := hgg hl
    obtain ⟨sig', its', err', h4, h5, -⟩ := h3 i hi
    obtain ⟨u, hq⟩ := equilibrium_exists hc hg he hs.work g.macroStrain
    obtain ⟨u', hq'⟩ := equilibrium_exists hc hg he hs.work (bump g.macroStrain i 1.0e-8)
    obtain ⟨a, a1, a2⟩ := hC _ _ hq
    obtain ⟨a', a1', a2'⟩ := hC _ _ hq'
    have e1 := h env _ _ _ _ _ _ _ h1 hq a1 v hv
    have e2 := h env _ _ _ _ _ _ _ h4 hq' a1' v hv
    rw [a2' v hv, bump_stiff hi, ← a2 v hv] at e2
    rw [h5 v hv]
    rw [abs_le] at e1 e2 ⊢
    constructor
    · rw [le_sub_iff_add_le, le_div_iff₀ (by norm_num)]; linarith
    · rw [sub_le_iff_le_add, div_le_iff₀ (by norm_num)]; linarith
  · intro env w t r hw hr v i hv hi
    obtain ⟨sig, its, err, h1, h2⟩ := C58_linear env c hc w hw t r hr i hi
    obtain ⟨u, hq⟩ := equilibrium_exists hc hg he hw (bump (fun _ => 0) i 1.0e-8)
    obtain ⟨a, a1, a2⟩ := hC _ _ hq
    have e1 := h env _ _ _ _ _ _ _ h1 hq a1 v hv
    rw [a2 v hv, bump_stiff hi] at e1
    simp only [mul_zero, sum_const_zero, zero_add] at e1
    rw [h2 v hv]
    rw [abs_le] at e1 ⊢
    constructor
    · rw [le_sub_iff_add_le, le_div_iff₀ (by norm_num)]; linarith
    · rw [sub_le_iff_le_add, div_le_iff₀ (by norm_num)]; linarith

example : ∃ (s : ObjFiles ℝ) (r : Stepped ℝ) (K : ℝ), s.obj.gauss.length = 2 ∧
    step exEnv s .homogenize = .ok r ∧ ∀ C, IsStiffness s.obj.cfg C →
      List.Forall₂ (fun _ g' => ∀ v i, v < s.obj.cfg.nvoi → i < s.obj.cfg.nvoi →
        |g'.macroCtan (v * s.obj.cfg.nvoi + i) - C v i| ≤ K * 2e3) s.obj.gauss r.state.obj.gauss := by
  obtain ⟨s, r, h1, h2, h3, h4, h5⟩ := exSolved exArgs3_ok
  have hb := (reach_built exArgs3_ok h1).1
  obtain ⟨K, -, hK⟩ := C60_partial h2.cfg (hb.geom exArgs3_geom) (hb.elastic exArgs3_elastic) (few_of_reach h1)
  exact ⟨s, r, K, h4, h3, fun C hC => ((hK C hC).1 exEnv s r rfl h2 h3).imp fun g g' h => h (h5 g)⟩

/-- C60 does not hold: an elastic cell whose linear tangent has a negative diagonal entry, while every
diagonal entry of the homogenised stiffness is positive.  The entry depends on what was in the memory
of `u` before the constructor. -/
theorem C60_fails : ∃ (a : Args ℝ) (j : Junk ℝ), a.Ok ∧ a.Geom ∧ a.Elastic ∧
    ∀ env : Env ℝ, 1 ≤ env.fuel → ∃ o, construct env a j = .ok o ∧ o.cfg.ctanLin 0 < 0 ∧
      (∃ C, IsStiffness o.cfg C) ∧ ∀ C, IsStiffness o.cfg C → 0 < C 0 0 := by
  refine ⟨exArgsS softS, exJunkS (1 : Nat), exArgsS_ok _, exArgsS_geom _, exArgsS_elastic softS_pos,
    fun env hf => ?_⟩
  obtain ⟨o, h1, h2, h3⟩ := S_ctan (env := env) hf (t := 1) (by omega)
  have hw := ((construct_sane env (exArgsS_ok softS) (exJunkS (1 : Nat))).post h1).work
  obtain ⟨k1, -, k2⟩ := stiffness_unique h2.ok h2.geom h2.elastic hw
  refine ⟨o, h1, ?_, k1, fun C hC => k2 C hC 0 (by rw [h2.nvoi]; omega)⟩
  rw [h3]
  have := softS_pos
  push_cast
  nlinarith

/-- C60 does not hold even if the memory was zero. -/
theorem C60_fails_zeroed : ∃ (a : Args ℝ) (j : Junk ℝ), a.Ok ∧ a.Geom ∧ a.Elastic ∧ (∀ i, j.u i = 0) ∧
    (∀ i, j.varsOld i = 0) ∧ ∀ env : Env ℝ, 1 ≤ env.fuel → ∃ o, construct env a j = .ok o ∧
      (∃ C, IsStiffness o.cfg C) ∧ ∀ C, IsStiffness o.cfg C → o.cfg.ctanLin 0 ≠ C 0 0 := by
  refine ⟨exArgsS softS, exJunkS (0 : Nat), exArgsS_ok _, exArgsS_geom _, exArgsS_elastic softS_pos,
    fun i => ?_, fun _ => rfl, fun env hf => ?_⟩
  · show midS 0 ((0 : Nat) : ℝ) i = 0
    unfold midS; simp
  obtain ⟨o, h1, h2, h3⟩ := S_ctan (env := env) hf (t := 0) (by omega)
  have hw := ((construct_sane env (exArgsS_ok softS) (exJunkS (0 : Nat))).post h1).work
  obtain ⟨k1, -, -⟩ := stiffness_unique h2.ok h2.geom h2.elastic hw
  refine ⟨o, h1, k1, fun C hC he => ?_⟩
  obtain ⟨u, hq⟩ := equilibrium_exists h2.ok h2.geom h2.elastic hw (fun v => if v = 0 then 0 + 1.0e-8 else 0)
  obtain ⟨r, a1, a2⟩ := hC _ _ hq
  obtain ⟨va, i1, -⟩ := calcAveStress_real h2.ok hq.work
  rw [a1] at i1
  have a2 := a2 0 (by rw [h2.nvoi]; omega)
  have hv' : 0 < o.cfg.fe.nvoi := by rw [o.cfg.fe_nvoi, h2.nvoi]; omega
  cases i1
  have e1 : softS * gridS.aveStress (gridS.stress lawS u.val) 0 = C 0 0 * 1.0e-8 := by
    rw [← scaleS_ave h2]
    have : o.cfg.fe.integral (fun e gp => o.cfg.sig u.val o.work.varsOld e gp 0) / (o.cfg.lx * o.cfg.ly)
        = gridS.aveStress (gridS.stress o.cfg.law u.val) 0 := by
      rw [div_area h2.ok h2.geom, Fe.integral_congr (g := fun e gp => o.cfg.fe.stress o.cfg.law u.val e gp 0)
        (fun x hx gp hgp => o.cfg.sig_elastic h2.ok h2.elastic _ _ hx hgp hv'), h2.thick, one_mul, h2.fe]
      rfl
    rw [← this]
    have a2 : o.cfg.fe.integral (fun e gp => o.cfg.sig u.val o.work.varsOld e gp 0)
      / (o.cfg.lx * o.cfg.ly) = _ := a2
    rw [a2, h2.nvoi]
    simp [sum_range_succ]
  have hb := hq.onBd h2.ok
  have h5 := (equil_law h2.ok h2.elastic _ _).mp ((zeroResidual_iff h2.ok hq.work).mp hq.residual)
  rw [h2.fe] at hb h5
  have hdof : gridS.nn * gridS.dim = 18 := rfl
  have hm : ∀ r, r < 18 → 1 * fieldS 0 0 r + (-1) * u.val r
      = midS (fieldS 0 0 8 - u.val 8) (fieldS 0 0 9 - u.val 9) r := by
    intro r hr
    by_cases hbd : gridS.Bd r
    · have e2 : u.val r = fieldS 0 0 r := by
        unfold fieldS
        rw [if_pos hbd, ← hb r (by rw [hdof]; exact hr) hbd]
      have : r ≠ 8 ∧ r ≠ 9 := by
        constructor
        · rintro rfl; exact absurd hbd ((gridS_inner 8 (by omega)).mpr (Or.inl rfl))
        · rintro rfl; exact absurd hbd ((gridS_inner 9 (by omega)).mpr (Or.inr rfl))
      unfold midS
      rw [if_neg this.1, if_neg this.2, e2]
      ring
    · obtain rfl | rfl := (gridS_inner r hr).mp hbd
      · simp [midS]; ring
      · simp [midS]; ring
  have f1 := Fe.force_congr gridS_good lawS_ok hm 9
  rw [Fe.force_lin lawS_ok, midS_force, fieldS_force] at f1
  have f2 : gridS.force (gridS.stress lawS u.val) 9 = 0 := by
    have := h5 9 (by rw [hdof]; omega) ((gridS_inner 9 (by omega)).mpr (Or.inr rfl))
    have h6 : gridS.force (gridS.stress o.cfg.law u.val) 9 = 0 := this
    rw [scaleS_force h2] at h6
    exact (mul_eq_zero.mp h6).resolve_left softS_pos.ne'
  rw [f2] at f1
  have f3 := Fe.aveStress_field gridS_good lawS_ok hm (v := 0) (by decide)
  rw [Fe.aveStress_lin lawS_ok _ _ _ _ (by decide), midS_ave, fieldS_ave] at f3
  rw [h3] at he
  have hs := softS_pos
  have e4 : softS * (gridS.aveStress (gridS.stress lawS u.val) 0 - 9 / 5 * 1.0e-8) = 0 := by
    rw [mul_sub, e1, ← he]
    push_cast
    ring
  have e5 := (mul_eq_zero.mp e4).resolve_left hs.ne'
  have e6 : fieldS 0 0 9 - u.val 9 = 0 := by linarith
  rw [e6] at f1
  norm_num at f1

/-- C46 fails for elastic cells too: two constructions that differ only in the memory `malloc` returned
for the displacements give different linear tangents. -/
theorem C46_elastic_fails : ∃ (a : Args ℝ) (j : Junk ℝ) (u : Nat → ℝ), a.Ok ∧ a.Geom ∧ a.Elastic ∧
    ∀ env : Env ℝ, 1 ≤ env.fuel → ∃ o o', construct env a j = .ok o ∧
      construct env a { j with u := u } = .ok o' ∧ o.cfg.ctanLin 0 ≠ o'.cfg.ctanLin 0 := by
  refine ⟨exArgsS softS, exJunkS (0 : Nat), midS 0 (1 : Nat), exArgsS_ok _, exArgsS_geom _,
    exArgsS_elastic softS_pos, fun env hf => ?_⟩
  obtain ⟨o, h1, h2, h3⟩ := S_ctan (env := env) hf (t := 0) (by omega)
  obtain ⟨o', k1, k2, k3⟩ := S_ctan (env := env) hf (t := 1) (by omega)
  refine ⟨o, o', h1, k1, ?_⟩
  rw [h3, k3]
  have := softS_pos
  intro h
  have h := mul_left_cancel₀ this.ne' h
  norm_num at h

end

end Verif.Props
