import Verif.Lemmas.Descent
import Verif.Lemmas.Potential

/-! # Every Newton correction of an elastic cell lowers its energy -/

namespace Verif.Spec.Fe
open Finset

variable {F : Fe} {L : Nat × Nat × Nat → (Nat → ℝ) → Nat → ℝ}

theorem bil_congr (hF : F.Good) (hL : F.Law L) {u w u' w' : Nat → ℝ}
    (hu : ∀ r, r < F.nn * F.dim → u r = u' r) (hw : ∀ r, r < F.nn * F.dim → w r = w' r) :
    F.bil L u w = F.bil L u' w' := by
  rw [← bil_force hF, ← bil_force hF]
  refine sum_congr rfl fun r hr => ?_
  rw [force_congr hF hL hu, hw r (mem_range.mp hr)]

end Verif.Spec.Fe

namespace Verif
open Spec Finset

variable {c : Cfg ℝ} {env : Env ℝ}

/-- The matrix of an elastic cell is the bilinear form of its energy. -/
theorem dot_op (hc : c.Ok) (hg : c.Geom) {A : Ell ℝ}
    (h2 : ∀ x, OnI (c.nn * c.dim) c.inner x → ∀ r, r < c.nn * c.dim → ¬ c.fe.Bd r →
        op A x r = c.fe.force (c.fe.stress c.law x) r) {u v : Nat → ℝ}
    (hu : OnI (c.nn * c.dim) c.inner u) (hv : OnI (c.nn * c.dim) c.inner v) :
    dot (c.nn * c.dim) u (op A v) = c.fe.bil c.law v u := by
  rw [← Fe.bil_force (c.good hc hg), c.fe_nn hc]
  unfold dot
  refine sum_congr rfl fun r hr => ?_
  have hr := mem_range.mp hr
  by_cases hb : c.fe.Bd r
  · rw [onI_inner.mp hu r hr hb]; ring
  · rw [h2 v hv r hr hb]; ring

/-- A correction as a call of a CG solver that starts from zero. -/
theorem nrCorrect_call (hc : c.Ok) (hg : c.Geom) {w : Work ℝ} (hw : w.Ok c) :
    ∃ A vn du, ∃ (api : Props.CgApi) (x : Buf ℝ) (s' : EllSolver ℝ),
      assemblyMat c w = .ok { w with A := A, varsNew := vn } ∧
      nrCorrect env c w = .ok
        { w with A := A, varsNew := vn, du := du, tick := w.tick + 1,
                 u := ⟨c.nn * c.dim, fun k => if k < c.nn * c.dim then w.u.val k + du.val k
                   else w.u.val k⟩ } ∧
      Frame c w { w with A := A, varsNew := vn, du := du, tick := w.tick + 1,
                         u := ⟨c.nn * c.dim, fun k => if k < c.nn * c.dim then w.u.val k + du.val k
                           else w.u.val k⟩ } ∧
      A.WF ∧ A.nrow = c.nn * c.dim ∧ api.Fits A w.b x ∧ DiagSlot A api.fields api.nodes api.slot ∧
      (∀ i, i < A.nrow → x.val i = 0) ∧
      (∀ x r, r < c.nn * c.dim → c.fe.Bd r → op A x r = x r) ∧
      (c.Linear → ∀ x, OnI (c.nn * c.dim) c.inner x → ∀ r, r < c.nn * c.dim → ¬ c.fe.Bd r →
        op A x r = c.fe.force (c.fe.stress c.linLaw x) r) ∧
      api.call (env.cgJunk w.tick)
        { maxIts := cgMaxIts, its := env.solverIts w.tick, minTol := cgMaxTol, err := env.solverErr w.tick }
        A w.b x = .ok (0, s', some du) := by
  obtain ⟨A, vn, du, h1, h2, h3, h4⟩ := nrCorrect_eq (env := env) hc hw
  obtain ⟨A', vn', k1, k2, -, k3, k4, k5⟩ := assemblyMat_real hc hg hw
  rw [h1] at k1
  cases k1
  let w1 : Work ℝ := { w with
    A := A, varsNew := vn
    du := ⟨c.nn * c.dim, fun k => if k < c.nn * c.dim then 0 else w.du.val k⟩ }
  have hw1 : w1.Ok c :=
    ⟨k2.u, rfl, k2.b, k2.elemStress, k2.elemStrain, k2.varsOld, k2.varsNew, k2.A2, k2.A3⟩
  have hnr : A.nrow = c.nn * c.dim := (hw1.wf hc).2
  have hwf : A.WF := (hw1.wf hc).1
  have hz : ∀ i, i < A.nrow → w1.du.val i = 0 := fun i hi => if_pos (by rw [← hnr]; exact hi)
  unfold solve at h2
  rcases hc.dim with hd | hd
  · obtain ⟨s, x, e1, -⟩ := Props.C12_terminates (fits2 hc hd hw1) (env.cgJunk w.tick)
      { maxIts := cgMaxIts, its := env.solverIts w.tick, minTol := cgMaxTol, err := env.solverErr w.tick }
    refine ⟨A, vn, du, _, w1.du, s, h1, h3, h4, hwf, hnr, fits2 hc hd hw1, ?_, hz, k4, k5, ?_⟩
    · unfold Cfg.diag at k3
      rw [if_pos hd, hc.nn2 hd] at k3
      exact k3
    · have e2 := e1
      simp only [Props.CgApi.call] at e2
      rw [if_pos hd] at h2
      rw [e2] at h2
      cases h2
      exact e1
  · obtain ⟨s, x, e1, -⟩ := Props.C12_terminates (fits3 hc hd hw1) (env.cgJunk w.tick)
      { maxIts := cgMaxIts, its := env.solverIts w.tick, minTol := cgMaxTol, err := env.solverErr w.tick }
    refine ⟨A, vn, du, _, w1.du, s, h1, h3, h4, hwf, hnr, fits3 hc hd hw1, ?_, hz, k4, k5, ?_⟩
    · unfold Cfg.diag at k3
      exact k3
    · have e2 := e1
      simp only [Props.CgApi.call] at e2
      rw [if_neg (by omega), if_pos hd] at h2
      rw [e2] at h2
      cases h2
      exact e1

/-- The right hand side of a Newton correction of an elastic cell. -/
def IsRes (c : Cfg ℝ) (u f : Nat → ℝ) : Prop :=
  ∀ q, q < c.nn * c.dim → f q = if c.fe.Bd q then 0 else - c.fe.force (c.fe.stress c.law u) q

/-- Bounds for the diagonal of the matrix of a cell problem. -/
theorem Spec.Fe.diag_bounds {F : Fe} {L : Nat × Nat × Nat → (Nat → ℝ) → Nat → ℝ} (hF : F.Good) (hL : F.Law L) :
    ∃ lo hi : ℝ, 0 < lo ∧ 0 < hi ∧ ∀ i, i < F.nn * F.dim → ¬ F.Bd i →
      lo ≤ 1 / F.force (F.stress L (unit i)) i ∧ 1 / F.force (F.stress L (unit i)) i ≤ hi := by
  let I : Finset Nat := {i ∈ range (F.nn * F.dim) | ¬ F.Bd i}
  have hpos : ∀ i ∈ I, 0 < 1 / F.force (F.stress L (unit i)) i := by
    intro i hi
    obtain ⟨h1, h2⟩ := mem_filter.mp hi
    have hp := Fe.bil_pos hF hL (w := unit i) (fun q _ hq => by
      show (if q = i then (1 : ℝ) else 0) = 0
      rw [if_neg]; rintro rfl; exact h2 hq) ⟨i, mem_range.mp h1, by
        show (if i = i then (1 : ℝ) else 0) ≠ 0
        rw [if_pos rfl]; exact one_ne_zero⟩
    rw [← Fe.bil_force hF, sum_eq_single i] at hp
    · have e : (unit i i : ℝ) = 1 := by show (if i = i then (1 : ℝ) else 0) = 1; rw [if_pos rfl]
      rw [e, mul_one] at hp
      exact one_div_pos.mpr hp
    · intro q _ hq
      show _ * (if q = i then (1 : ℝ) else 0) = _
      rw [if_neg hq, mul_zero]
    · intro h; exact absurd h1 h
  obtain ⟨lo, hlo, hlo'⟩ := Fe.exists_lower I (fun i => 1 / F.force (F.stress L (unit i)) i) hpos
  have h0 : 0 ≤ ∑ i ∈ I, 1 / F.force (F.stress L (unit i)) i := sum_nonneg fun i hi => (hpos i hi).le
  refine ⟨lo, 1 + ∑ i ∈ I, 1 / F.force (F.stress L (unit i)) i, hlo, by linarith, fun i h1 h2 => ?_⟩
  have hi : i ∈ I := mem_filter.mpr ⟨mem_range.mpr h1, h2⟩
  have := single_le_sum (f := fun i => 1 / F.force (F.stress L (unit i)) i)
    (fun i hi => (hpos i hi).le) hi
  exact ⟨hlo' i hi, by linarith⟩

/-- A correction lowers the energy by a multiple of the squared residual.  The multiple depends on the
grid and the law only. -/
theorem nrCorrect_drop {F : Fe} {L : Nat × Nat × Nat → (Nat → ℝ) → Nat → ℝ} (hF : F.Good) (hL : F.Law L) :
    ∃ κ : ℝ, 0 < κ ∧ ∀ (c : Cfg ℝ), c.Ok → c.Geom → c.Elastic → c.fe = F → c.law = L →
      ∀ (env : Env ℝ) (w : Work ℝ), w.Ok c → IsRes c w.u.val w.b.val →
      1e-5 ≤ norm2 (c.nn * c.dim) w.b.val → ∃ w', nrCorrect env c w = .ok w' ∧
        Frame c w w' ∧ w'.tick = w.tick + 1 ∧
        (∀ q, q < c.nn * c.dim → c.fe.Bd q → w'.u.val q = w.u.val q) ∧
        c.fe.bil c.law w'.u.val w'.u.val
          ≤ c.fe.bil c.law w.u.val w.u.val - κ * norm2 (c.nn * c.dim) w.b.val ^ 2 := by
  obtain ⟨lo, hi, hlo, hhi0, hd⟩ := Fe.diag_bounds hF hL
  obtain ⟨Λ, hΛ, hub⟩ := Fe.bil_upper hF hL
  refine ⟨lo ^ 2 / (2 * Λ * hi ^ 2) * 2, by positivity, ?_⟩
  intro c hc hg he hcf hcl env w hw hres hbig
  subst hcf hcl
  obtain ⟨A, vn, du, api, x, s', -, h2, h3, hwf, hnr, hfit, hD, hx, k4, k5, hcall⟩ :=
    nrCorrect_call (env := env) hc hg hw
  have k5' : ∀ x, OnI (c.nn * c.dim) c.inner x → ∀ r, r < c.nn * c.dim → ¬ c.fe.Bd r →
      op A x r = c.fe.force (c.fe.stress c.law x) r := fun x hx r hr hb => by
    rw [k5 he.noPlast x hx r hr hb, c.force_law hc he]
  have hspd : SpdOn A.nrow c.inner (op A) := by rw [hnr]; exact spd_real hc hg he hwf hnr k4 k5'
  have hbI : OnI A.nrow c.inner w.b.val := by
    rw [hnr]; exact onI_inner.mpr fun r hr hb => by rw [hres r hr, if_pos hb]
  have hunit : ∀ i ∈ c.inner, OnI (c.nn * c.dim) c.inner (unit i) := by
    intro i hi j _ hj
    show (if j = i then (1 : ℝ) else 0) = 0
    rw [if_neg]; rintro rfl; exact hj hi
  have hop : ∀ i ∈ c.inner, op A (unit i) i = c.fe.force (c.fe.stress c.law (unit i)) i := fun i hi =>
    k5' _ (hunit i hi) i (Cfg.mem_inner.mp hi).1 (Cfg.mem_inner.mp hi).2
  obtain ⟨s2, du2, e1, e2⟩ := Props.CgApi.drop hfit (env.cgJunk w.tick)
    { maxIts := cgMaxIts, its := env.solverIts w.tick, minTol := cgMaxTol, err := env.solverErr w.tick }
    hspd hD hbI hx (by show (0 : ℝ) < cgMaxTol; unfold cgMaxTol; norm_num) hlo
    (fun i hi => by
      rw [hop i hi]
      exact hd i (by rw [c.fe_nn hc]; exact (Cfg.mem_inner.mp hi).1) (Cfg.mem_inner.mp hi).2) hΛ
    (fun u hu => by
      rw [hnr] at hu ⊢
      rw [dot_op hc hg k5' hu hu, ← c.fe_nn hc]
      exact hub u)
    (by
      rw [hnr]
      refine le_trans ?_ hbig
      show (cgMaxTol : ℝ) ≤ _
      unfold cgMaxTol; norm_num)
  rw [hcall] at e1
  cases e1
  rw [hnr] at e2
  have hduI : OnI (c.nn * c.dim) c.inner du.val := by
    have hfix : ∀ u i, i < A.nrow → i ∉ c.inner → op A u i = u i := hspd.fixed
    obtain ⟨N, s, x', k, xs, r, p, e3, -, -, -, e4⟩ := Props.C15_fixed hfit (env.cgJunk w.tick)
      { maxIts := cgMaxIts, its := env.solverIts w.tick, minTol := cgMaxTol, err := env.solverErr w.tick }
      hfix hbI (fun i hi _ => hx i hi)
    rw [hcall] at e3
    cases e3
    rw [hnr] at e4
    exact e4
  have hdub : ∀ q, q < c.nn * c.dim → c.fe.Bd q → du.val q = 0 := onI_inner.mp hduI
  refine ⟨_, h2, h3, rfl, fun q hq hb => ?_, ?_⟩
  · simp only [if_pos hq]; rw [hdub q hq hb, add_zero]
  · have hb2 : dot (c.nn * c.dim) w.b.val du.val = - c.fe.bil c.law w.u.val du.val := by
      rw [← Fe.bil_force hF, c.fe_nn hc, ← sum_neg_distrib]
      unfold dot
      refine sum_congr rfl fun r hr => ?_
      have hr := mem_range.mp hr
      rw [hres r hr]
      split
      · rename_i hb; rw [hdub r hr hb]; ring
      · ring
    have hE : energy (c.nn * c.dim) (op A) w.b.val du.val
        = c.fe.bil c.law du.val du.val / 2 + c.fe.bil c.law w.u.val du.val := by
      unfold energy
      rw [hb2, dot_op hc hg k5' hduI hduI]; ring
    rw [hE] at e2
    have hn : norm2 (c.nn * c.dim) w.b.val ^ 2 = dot (c.nn * c.dim) w.b.val w.b.val :=
      Real.sq_sqrt (dot_self_nonneg _)
    rw [hn]
    have e5 := Fe.bil_lin_sq hL w.u.val du.val 1 1
    have e6 := Fe.bil_congr hF hL (u := fun k => if k < c.nn * c.dim then w.u.val k + du.val k else w.u.val k)
      (u' := fun r => 1 * w.u.val r + 1 * du.val r)
      (w := fun k => if k < c.nn * c.dim then w.u.val k + du.val k else w.u.val k)
      (w' := fun r => 1 * w.u.val r + 1 * du.val r)
      (fun r hr => by rw [c.fe_nn hc] at hr; rw [if_pos hr]; ring)
      (fun r hr => by rw [c.fe_nn hc] at hr; rw [if_pos hr]; ring)
    simp only
    rw [e6, e5]
    linarith

end Verif
