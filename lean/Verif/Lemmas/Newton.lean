import Verif.Lemmas.Safe
import Verif.Lemmas.CellMat

/-!
# One Newton correction
-/

namespace Verif
open Spec Finset

section
variable {α : Type} [Scalar α] {c : Cfg α}

theorem accum_rel {σ : Type} {R : σ → σ → Prop} {n : Nat} {f : Nat → σ → σ} {s t : σ} (h : R s t)
    (hf : ∀ i s t, R s t → R (f i s) (f i t)) : R (accum n f s) (accum n f t) := by
  induction n with
  | zero => exact h
  | succ n ih => exact hf _ _ _ ih

theorem scatterVal_at {n : Nat} {index : Nat → Nat} {be f g : Nat → α} {q : Nat} (h : f q = g q) :
    scatterVal n index be f q = scatterVal n index be g q := by
  unfold scatterVal
  refine accum_rel (R := fun f g : Nat → α => f q = g q) h fun i f g h => ?_
  beta_reduce
  split
  · rename_i e; rw [← e, h]
  · exact h

theorem fint3_at {u f g : Nat → α} {vo : Buf α} {q : Nat} (h : f q = g q) :
    fint3 c u vo f q = fint3 c u vo g q := by
  unfold fint3 accum3
  exact accum_rel (R := fun f g : Nat → α => f q = g q) h fun _ _ _ h =>
    accum_rel (R := fun f g : Nat → α => f q = g q) h fun _ _ _ h =>
      accum_rel (R := fun f g : Nat → α => f q = g q) h fun _ _ _ h => scatterVal_at h

theorem fint2_at {u f g : Nat → α} {q : Nat} (h : f q = g q) : fint2 c u f q = fint2 c u g q := by
  unfold fint2 accum2
  exact accum_rel (R := fun f g : Nat → α => f q = g q) h fun _ _ _ h =>
    accum_rel (R := fun f g : Nat → α => f q = g q) h fun _ _ _ h => scatterVal_at h

theorem normOf_congr {n : Nat} {f g : Nat → α} (h : ∀ i, i < n → f i = g i) :
    normOf n f = normOf n g := by
  unfold normOf
  congr 1
  induction n with
  | zero => rfl
  | succ n ih =>
    show accum n _ _ + f n * f n = accum n _ _ + g n * g n
    rw [ih fun i hi => h i (by omega), h n (by omega)]

/-- The residual depends on the displacement and the old internal variables only. -/
theorem rhs_same (hc : c.Ok) {w w' : Work α} (hw : w.Ok c) (hw' : w'.Ok c) (hu : w'.u = w.u)
    (ho : w'.varsOld = w.varsOld) {r r' : RhsOut α} (h : assemblyRhs c w = .ok r)
    (h' : assemblyRhs c w' = .ok r') :
    r'.norm = r.norm ∧ r'.nl = r.nl ∧ ∀ q, q < c.nn * c.dim → r'.work.b.val q = r.work.b.val q := by
  rcases hc.dim with hd | hd
  · have hN : c.nn * c.dim = c.nx * c.ny * 2 := by rw [hc.nn2 hd, hd]
    rw [assemblyRhs2_eq hc hd (hw.u2 hc hd) (by rw [hw.b, hN])] at h
    rw [assemblyRhs2_eq hc hd (hw'.u2 hc hd) (by rw [hw'.b, hN])] at h'
    cases h; cases h'
    have hv : ∀ q, q < c.nx * c.ny * 2 → resid2 c w'.u.val w'.b.val q = resid2 c w.u.val w.b.val q := by
      intro q hq
      unfold resid2
      simp only [hu, hq, if_true]
      rw [fint2_at (g := fun k => if k < c.nx * c.ny * 2 then 0 else w.b.val k) (by simp [hq])]
    rw [hN]
    exact ⟨normOf_congr hv, rfl, hv⟩
  · have hN : c.nn * c.dim = c.nx * c.ny * c.nz * 3 := by rw [hd]; rfl
    rw [assemblyRhs3_eq hc hd (hw.u3 hd) (by rw [hw.b, hN]) hw.varsOld hw.varsNew] at h
    rw [assemblyRhs3_eq hc hd (hw'.u3 hd) (by rw [hw'.b, hN]) hw'.varsOld hw'.varsNew] at h'
    cases h; cases h'
    have hv : ∀ q, q < c.nx * c.ny * c.nz * 3 →
        resid3 c w'.u.val w'.varsOld w'.b.val q = resid3 c w.u.val w.varsOld w.b.val q := by
      intro q hq
      unfold resid3
      simp only [hu, ho, hq, if_true]
      rw [fint3_at (g := fun k => if k < c.nx * c.ny * c.nz * 3 then 0 else w.b.val k) (by simp [hq])]
    rw [hN]
    refine ⟨normOf_congr hv, ?_, hv⟩
    show rhsNl c w'.u.val w'.varsOld = rhsNl c w.u.val w.varsOld
    rw [hu, ho]

end

variable {c : Cfg ℝ} {env : Env ℝ}

/-- A correction in exact arithmetic: it vanishes on the boundary, and for admissible elastic
materials with fewer than `CG_MAX_ITS` unknowns it solves the system up to the tolerance of CG. -/
theorem nrCorrect_real (hc : c.Ok) (hg : c.Geom) {w : Work ℝ} (hw : w.Ok c)
    (hb : ∀ q, q < c.nn * c.dim → c.fe.Bd q → w.b.val q = 0) :
    ∃ A vn du, assemblyMat c w = .ok { w with A := A, varsNew := vn } ∧
      nrCorrect env c w = .ok
        { w with A := A, varsNew := vn, du := du, tick := w.tick + 1,
                 u := ⟨c.nn * c.dim, fun k => if k < c.nn * c.dim then w.u.val k + du.val k
                   else w.u.val k⟩ } ∧
      (∀ q, q < c.nn * c.dim → c.fe.Bd q → du.val q = 0) ∧
      (c.Elastic → (c.inner.card : Int) < 2000 →
        norm2 (c.nn * c.dim) (fun i => op A du.val i - w.b.val i) < 1e-8) ∧
      Frame c w { w with A := A, varsNew := vn, du := du, tick := w.tick + 1,
                         u := ⟨c.nn * c.dim, fun k => if k < c.nn * c.dim then w.u.val k + du.val k
                           else w.u.val k⟩ } := by
  obtain ⟨A, vn, du, h1, h2, h3, h4⟩ := nrCorrect_eq (env := env) hc hw
  obtain ⟨A', vn', k1, k2, -, k3, k4, k5⟩ := assemblyMat_real hc hg hw
  rw [h1] at k1
  cases k1
  let w1 : Work ℝ := { w with
    A := A, varsNew := vn
    du := ⟨c.nn * c.dim, fun k => if k < c.nn * c.dim then 0 else w.du.val k⟩ }
  have hw1 : w1.Ok c :=
    ⟨k2.u, rfl, k2.b, k2.elemStress, k2.elemStrain, k2.varsOld, k2.varsNew, k2.A2, k2.A3⟩
  have hnr : A.nrow = c.nn * c.dim := (hw1.wf hc).2
  have hwf : A.WF := (hw1.wf hc).1
  have hbI : OnI A.nrow c.inner w.b.val := by rw [hnr]; exact onI_inner.mpr hb
  have hxI : OnI A.nrow c.inner (fun k => if k < c.nn * c.dim then 0 else w.du.val k) := by
    rw [hnr]; exact onI_inner.mpr fun r hr _ => if_pos hr
  have hfix : ∀ u i, i < A.nrow → i ∉ c.inner → op A u i = u i := by
    intro u i hi hI
    rw [hnr] at hi
    refine k4 u i hi ?_
    by_contra hB
    exact hI (Cfg.mem_inner.mpr ⟨hi, hB⟩)
  have main : ∀ api : Props.CgApi, api.Fits A w.b w1.du → DiagSlot A api.fields api.nodes api.slot →
      (∀ r, api.call (env.cgJunk w.tick)
        { maxIts := cgMaxIts, its := env.solverIts w.tick, minTol := cgMaxTol, err := env.solverErr w.tick }
        A w.b w1.du = .ok r → r.2.2 = some du) →
      (∀ q, q < c.nn * c.dim → c.fe.Bd q → du.val q = 0) ∧
      (c.Elastic → (c.inner.card : Int) < 2000 →
        norm2 (c.nn * c.dim) (fun i => op A du.val i - w.b.val i) < 1e-8) := by
    intro api hf hD hcall
    constructor
    · obtain ⟨N, s, x, k, xs, r, p, e1, -, -, -, e2⟩ := Props.C15_fixed hf (env.cgJunk w.tick)
        { maxIts := cgMaxIts, its := env.solverIts w.tick, minTol := cgMaxTol, err := env.solverErr w.tick }
        hfix hbI hxI
      have := hcall _ e1
      simp only [Option.some.injEq] at this
      subst this
      rw [hnr] at e2
      exact onI_inner.mp e2
    · intro he hcard
      have hspd : SpdOn A.nrow c.inner (op A) := by
        rw [hnr]
        exact spd_real hc hg he hwf hnr k4 fun x hx r hr hb => by
          rw [k5 he.noPlast x hx r hr hb, c.force_law hc he]
      obtain ⟨N, s, x, k, xs, r, p, e1, -, -, e2, -⟩ := Props.C13_finite hf (env.cgJunk w.tick)
        { maxIts := cgMaxIts, its := env.solverIts w.tick, minTol := cgMaxTol, err := env.solverErr w.tick }
        hspd hD hbI hxI (by show (0 : ℝ) < cgMaxTol; unfold cgMaxTol; norm_num)
        (by show _ < cgMaxIts; unfold cgMaxIts; exact hcard)
      have := hcall _ e1
      simp only [Option.some.injEq] at this
      subst this
      rw [hnr] at e2
      refine lt_of_lt_of_eq e2 ?_
      show (cgMaxTol : ℝ) = _
      unfold cgMaxTol
      norm_num
  have hgoal : (∀ q, q < c.nn * c.dim → c.fe.Bd q → du.val q = 0) ∧
      (c.Elastic → (c.inner.card : Int) < 2000 →
        norm2 (c.nn * c.dim) (fun i => op A du.val i - w.b.val i) < 1e-8) := by
    unfold solve at h2
    rcases hc.dim with hd | hd
    · refine main _ (fits2 hc hd hw1) ?_ ?_
      · unfold Cfg.diag at k3
        rw [if_pos hd, hc.nn2 hd] at k3
        exact k3
      · intro r hr
        obtain ⟨s, x, e1, -⟩ := Props.C12_terminates (fits2 hc hd hw1) (env.cgJunk w.tick)
          { maxIts := cgMaxIts, its := env.solverIts w.tick, minTol := cgMaxTol, err := env.solverErr w.tick }
        have e2 := e1
        simp only [Props.CgApi.call] at e2
        rw [hr] at e1
        cases e1
        rw [if_pos hd] at h2
        rw [e2] at h2
        cases h2
        rfl
    · refine main _ (fits3 hc hd hw1) ?_ ?_
      · unfold Cfg.diag at k3
        exact k3
      · intro r hr
        obtain ⟨s, x, e1, -⟩ := Props.C12_terminates (fits3 hc hd hw1) (env.cgJunk w.tick)
          { maxIts := cgMaxIts, its := env.solverIts w.tick, minTol := cgMaxTol, err := env.solverErr w.tick }
        have e2 := e1
        simp only [Props.CgApi.call] at e2
        rw [hr] at e1
        cases e1
        rw [if_neg (by omega), if_pos hd] at h2
        rw [e2] at h2
        cases h2
        rfl
  exact ⟨A, vn, du, h1, h3, hgoal.1, hgoal.2, h4⟩

end Verif
