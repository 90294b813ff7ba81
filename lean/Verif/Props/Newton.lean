import Verif.Lemmas.Newton
import Verif.Props.Fem

/-!
# Newton-Raphson: properties C26, C27, C28

`env.peek` is what the read `*its` finds after `*its++` has moved the pointer (`Model/Solve.lean`);
`none` is undefined behaviour.  `env.fuel` is a step budget of the model: the loop of the code has no
bound (see C28).
-/

namespace Verif.Props
open Verif Spec Finset

section
variable {α : Type} [Scalar α] {c : Cfg α} {w : Work α} {env : Env α}

/-- An invariant of the Newton loop. -/
theorem nrLoop_inv (hc : c.Ok) {P : Work α → Prop} {Q : NrOut α → Prop}
    (hstop : ∀ w r, w.Ok c → P w → assemblyRhs c w = .ok r → Scalar.lt r.norm nrMaxTol = true →
      Q { work := r.work, nl := r.nl, its := 0, err := r.norm })
    (hstep : ∀ w r w' v, w.Ok c → P w → assemblyRhs c w = .ok r → Scalar.lt r.norm nrMaxTol = false →
      nrCorrect env c r.work = .ok w' → env.peek w'.tick = some v →
      (v < 40 ∧ Scalar.lt nrMaxTol r.norm = true → P { w' with tick := w'.tick + 1 }) ∧
      (¬ (v < 40 ∧ Scalar.lt nrMaxTol r.norm = true) →
        Q { work := { w' with tick := w'.tick + 1 }, nl := r.nl, its := 0, err := r.norm }))
    (fuel : Nat) {w : Work α} (hw : w.Ok c) (hP : P w) {out : NrOut α}
    (h : nrLoop env c fuel w = .ok out) : Q out := by
  induction fuel generalizing w with
  | zero => cases h
  | succ fuel ih =>
    obtain ⟨b, vn, nm, nl, h1, h2⟩ := rhs_ok hc hw
    rw [nrLoop, h1, M_bind_ok'] at h
    simp only at h
    split at h
    · rename_i hlt
      cases h
      exact hstop w _ hw hP h1 hlt
    · rename_i hlt
      obtain ⟨A, vn', du, -, -, h3, h4⟩ := nrCorrect_eq (env := env) hc h2.ok
      rw [h3, M_bind_ok'] at h
      simp only at h
      split at h
      · cases h
      · rename_i v hp
        have h5 := (h2.trans h4).tick' (t := w.tick + 1 + 1) (by show w.tick + 1 ≤ _; omega)
        have hs := hstep w _ _ v hw hP h1 (by simpa using hlt) h3 hp
        split at h
        · rename_i hv
          exact ih h5.ok (hs.1 hv) h
        · rename_i hv
          cases h
          exact hs.2 hv

end

section
variable {c : Cfg ℝ} {w : Work ℝ} {env : Env ℝ}

/-! ### C26 -/

theorem nrMaxTol_real : (nrMaxTol : ℝ) = 1e-5 := by unfold nrMaxTol; norm_num

/-- C26: for admissible elastic materials and fewer interior unknowns than `CG_MAX_ITS`,
`newton_raphson` returns after at most one correction, for every start displacement, and the
displacement it leaves has a residual below the tolerance.  This does not depend on what the read
`*its` finds. -/
theorem C26_linear (hc : c.Ok) (hg : c.Geom) (he : c.Elastic) (hw : w.Ok c)
    (hn : {r ∈ range (c.nn * c.dim) | ¬ c.fe.Bd r}.card < 2000) (hf : 2 ≤ env.fuel)
    (hp : ∀ t, env.peek t ≠ none) :
    ∃ r0 out r, assemblyRhs c w = .ok r0 ∧ newtonRaphson env c w = .ok out ∧
      (r0.norm < 1e-5 ∧ out.work.u = w.u ∨
        1e-5 ≤ r0.norm ∧ ∃ w1, nrCorrect env c r0.work = .ok w1 ∧ out.work.u = w1.u) ∧
      assemblyRhs c out.work = .ok r ∧ r.norm < 1e-5 := by
  have hcard : (c.inner.card : Int) < 2000 := by unfold Cfg.inner; exact_mod_cast hn
  obtain ⟨f, vn, nl, h1, hvn, -, h2⟩ := assemblyRhs_real hc hw
  obtain ⟨b', vn', nm', nl', h1', hfr⟩ := rhs_ok hc hw
  rw [h1] at h1'
  cases h1'
  obtain ⟨n, hfu⟩ : ∃ n, env.fuel = n + 2 := ⟨env.fuel - 2, by omega⟩
  unfold newtonRaphson
  rw [hfu, nrLoop, h1, M_bind_ok']
  simp only
  have hB : ∀ q, q < c.nn * c.dim → c.fe.Bd q → f q = 0 := fun q hq hb => by rw [h2 q hq, if_pos hb]
  obtain ⟨A, vn1, du, k1, k2, k3, k4, k5⟩ := nrCorrect_real (env := env) hc hg hfr.ok hB
  have hlin := he.noPlast
  by_cases hlt : norm2 (c.nn * c.dim) f < 1e-5
  · rw [if_pos (by rw [lt_real, nrMaxTol_real]; exact decide_eq_true hlt)]
    obtain ⟨b2, vn2, nm2, nl2, e1, -⟩ := rhs_ok hc hfr.ok
    have := (rhs_same hc hw hfr.ok rfl rfl h1 e1).1
    exact ⟨_, _, _, rfl, rfl, Or.inl ⟨hlt, rfl⟩, e1, by rw [this]; exact hlt⟩
  · rw [if_neg (by rw [lt_real, nrMaxTol_real]; simpa using hlt), k2, M_bind_ok']
    simp only
    -- the residual after the correction
    have hres : ∀ w2 : Work ℝ, w2.Ok c → w2.varsOld = w.varsOld →
        (∀ q, q < c.nn * c.dim → w2.u.val q = w.u.val q + du.val q) →
        ∃ r, assemblyRhs c w2 = .ok r ∧ r.norm < 1e-5 := by
      intro w2 hw2 ho hu
      obtain ⟨m, r, r', e1, e2, e3, e4⟩ := C24_newton hc hg hlin hfr.ok hw2 du.val k3 hu
      rw [k1] at e1
      cases e1
      refine ⟨r', e3, ?_⟩
      obtain ⟨f', vn', nl', g1, -⟩ := assemblyRhs_real hc hw2
      rw [g1] at e3
      cases e3
      have hb := (rhs_same hc hw hfr.ok rfl rfl h1 e2).2.2
      show norm2 (c.nn * c.dim) f' < 1e-5
      have : norm2 (c.nn * c.dim) f' = norm2 (c.nn * c.dim) (fun i => op A du.val i - f i) := by
        unfold norm2 dot
        congr 1
        refine sum_congr rfl fun q hq => ?_
        have hq := mem_range.mp hq
        have e := e4 q hq
        have e' := hb q hq
        simp only at e e'
        rw [e, e']
        ring
      rw [this]
      refine lt_trans (k4 he hcard) (by norm_num)
    cases hpk : env.peek (w.tick + 1) with
    | none => exact absurd hpk (hp _)
    | some v =>
      simp only [hpk]
      have hfr2 := (hfr.trans k5).tick' (t := w.tick + 1 + 1) (by show w.tick + 1 ≤ _; omega)
      obtain ⟨r, hr1, hr2⟩ := hres _ hfr2.ok rfl fun q hq => by simp only [if_pos hq]
      split
      · rw [nrLoop, hr1, M_bind_ok']
        simp only
        rw [if_pos (by rw [lt_real, nrMaxTol_real]; exact decide_eq_true hr2)]
        obtain ⟨b2, vn2, nm2, nl2, e1, e2⟩ := rhs_ok hc hfr2.ok
        rw [e1] at hr1
        cases hr1
        obtain ⟨b3, vn3, nm3, nl3, e3, -⟩ := rhs_ok hc e2.ok
        have := (rhs_same hc hfr2.ok e2.ok rfl rfl e1 e3).1
        exact ⟨_, _, _, rfl, rfl, Or.inr ⟨not_lt.mp hlt, _, k2, rfl⟩, e3, by rw [this]; exact hr2⟩
      · exact ⟨_, _, _, rfl, rfl, Or.inr ⟨not_lt.mp hlt, _, k2, rfl⟩, hr1, hr2⟩

theorem ex3_nn : ex3.cfg.nn * ex3.cfg.dim = 108 := by
  obtain ⟨h1, h2, h3⟩ := ex3_size
  unfold Cfg.nn
  rw [h1, h2, h3, ex3_dim]

example (u : Nat → ℝ) := C26_linear (env := exEnv) (w := { ex3.work with u := ⟨_, u⟩ }) ex3_ok ex3_geom ex3_elastic
  (Work.Ok.setU ex3_work rfl)
  (lt_of_le_of_lt (card_filter_le _ _) (by rw [card_range, ex3_nn]; norm_num)) (by decide)
  (fun t h => by cases h)

/-! ### C27 -/

/-- C27, boundary: `newton_raphson` does not change boundary displacements, whatever the materials,
the history, the number of iterations and the unassigned memory. -/
theorem C27_boundary (hc : c.Ok) (hg : c.Geom) (hw : w.Ok c) {out : NrOut ℝ}
    (h : newtonRaphson env c w = .ok out) :
    ∀ q, q < c.nn * c.dim → c.fe.Bd q → out.work.u.val q = w.u.val q := by
  refine nrLoop_inv (c := c) (env := env) hc
    (P := fun w' => ∀ q, q < c.nn * c.dim → c.fe.Bd q → w'.u.val q = w.u.val q)
    (Q := fun out => ∀ q, q < c.nn * c.dim → c.fe.Bd q → out.work.u.val q = w.u.val q)
    ?_ ?_ env.fuel hw (fun q _ _ => rfl) h
  · intro w' r hw' hP hr _ q hq hb
    obtain ⟨b, vn, nm, nl, h1, h2⟩ := rhs_ok hc hw'
    rw [h1] at hr
    cases hr
    exact hP q hq hb
  · intro w' r w'' v hw' hP hr _ hcr _
    obtain ⟨f, vn, nl, h1, -, -, h2⟩ := assemblyRhs_real hc hw'
    obtain ⟨b', vn', nm', nl', h1', hfr⟩ := rhs_ok hc hw'
    rw [h1] at h1' hr
    cases h1'
    cases hr
    have hB : ∀ q, q < c.nn * c.dim → c.fe.Bd q → f q = 0 := fun q hq hb => by rw [h2 q hq, if_pos hb]
    obtain ⟨A, vn1, du, -, k2, k3, -⟩ := nrCorrect_real (env := env) hc hg hfr.ok hB
    rw [k2] at hcr
    cases hcr
    have : ∀ q, q < c.nn * c.dim → c.fe.Bd q →
        (if q < c.nn * c.dim then w'.u.val q + du.val q else w'.u.val q) = w.u.val q := by
      intro q hq hb
      rw [if_pos hq, k3 q hq hb, add_zero, hP q hq hb]
    exact ⟨fun _ => this, fun _ => this⟩

/-- The plastic object `exP`. -/
example : ∃ out, newtonRaphson exEnv exP.cfg exP.work = .ok out ∧
    ∀ q, q < exP.cfg.nn * exP.cfg.dim → exP.cfg.fe.Bd q → out.work.u.val q = exP.work.u.val q := by
  obtain ⟨out, h, -⟩ := (newtonRaphson_safe (env := exEnv) exP_ok exP_work).returns exEnv_quick
  exact ⟨out, h, C27_boundary exP_ok exP_geom exP_work h⟩

end

section
variable {α : Type} [Scalar α] {c : Cfg α} {w : Work α} {env : Env α}

/-- C27, error, for every scalar type: if the reported error is below the tolerance, evaluating
`assembly_rhs` on the state left behind gives the same error and the same non-linear flag. -/
theorem C27_truthful (hc : c.Ok) (hw : w.Ok c) {out : NrOut α} (h : newtonRaphson env c w = .ok out)
    (hlt : Scalar.lt out.err nrMaxTol = true) :
    ∃ r, assemblyRhs c out.work = .ok r ∧ r.norm = out.err ∧ r.nl = out.nl := by
  refine nrLoop_inv (c := c) (env := env) hc (P := fun _ => True)
    (Q := fun out => Scalar.lt out.err nrMaxTol = true →
      ∃ r, assemblyRhs c out.work = .ok r ∧ r.norm = out.err ∧ r.nl = out.nl)
    ?_ ?_ env.fuel hw trivial h hlt
  · intro w' r hw' _ hr _ _
    obtain ⟨b, vn, nm, nl, h1, h2⟩ := rhs_ok hc hw'
    rw [h1] at hr
    cases hr
    obtain ⟨b2, vn2, nm2, nl2, e1, -⟩ := rhs_ok hc h2.ok
    obtain ⟨e2, e3, -⟩ := rhs_same hc hw' h2.ok rfl rfl h1 e1
    exact ⟨_, e1, e2, e3⟩
  · intro w' r w'' v _ _ _ hl _ _
    refine ⟨fun _ => trivial, fun _ h => ?_⟩
    simp only at h
    rw [hl] at h
    cases h

/-! ### C28 -/

/-- C28, report: the reported number of iterations is always 0. -/
theorem C28_report (hc : c.Ok) (hw : w.Ok c) {out : NrOut α} (h : newtonRaphson env c w = .ok out) :
    out.its = 0 :=
  nrLoop_inv (c := c) (env := env) hc (P := fun _ => True) (Q := fun out => out.its = 0)
    (fun _ _ _ _ _ _ => rfl) (fun _ _ _ _ _ _ _ _ _ _ => ⟨fun _ => trivial, fun _ => rfl⟩) env.fuel hw
    trivial h

/-- The plastic object `exP`. -/
example : ∃ out, newtonRaphson exEnv exP.cfg exP.work = .ok out ∧ out.its = 0 := by
  obtain ⟨out, h, -⟩ := (newtonRaphson_safe (env := exEnv) exP_ok exP_work).returns exEnv_quick
  exact ⟨out, h, C28_report exP_ok exP_work h⟩

/-- C28, limit: if the memory that `*its` reads never reaches `NR_MAX_ITS`, the loop ends only when
the error is not above the tolerance: the iteration limit never ends it. -/
theorem C28_limit (hc : c.Ok) (hw : w.Ok c) (hp : ∀ t v, env.peek t = some v → v < 40)
    {out : NrOut α} (h : newtonRaphson env c w = .ok out) :
    Scalar.lt out.err nrMaxTol = true ∨ Scalar.lt nrMaxTol out.err = false := by
  refine nrLoop_inv (c := c) (env := env) hc (P := fun _ => True)
    (Q := fun out => Scalar.lt out.err nrMaxTol = true ∨ Scalar.lt nrMaxTol out.err = false)
    (fun _ _ _ _ _ h => Or.inl h) ?_ env.fuel hw trivial h
  intro _ r _ v _ _ _ _ _ hpk
  refine ⟨fun _ => trivial, fun hn => Or.inr ?_⟩
  by_contra hne
  exact hn ⟨hp _ v hpk, by simpa using hne⟩

/-- C28, as far as it holds: if the first residual is below the tolerance, the function returns at
once, without undefined behaviour, with an unchanged displacement and the correct count 0. -/
theorem C28_partial (hc : c.Ok) (hw : w.Ok c) (hf : 1 ≤ env.fuel) {r : RhsOut α}
    (hr : assemblyRhs c w = .ok r) (hlt : Scalar.lt r.norm nrMaxTol = true) :
    ∃ out, newtonRaphson env c w = .ok out ∧ out.its = 0 ∧ out.err = r.norm ∧ out.nl = r.nl ∧
      out.work.u = w.u := by
  obtain ⟨b, vn, nm, nl, h1, h2⟩ := rhs_ok hc hw
  rw [h1] at hr
  cases hr
  obtain ⟨n, hn⟩ : ∃ n, env.fuel = n + 1 := ⟨env.fuel - 1, by omega⟩
  unfold newtonRaphson
  rw [hn, nrLoop, h1, M_bind_ok']
  simp only at hlt ⊢
  rw [if_pos hlt]
  exact ⟨_, rfl, rfl, rfl, rfl, rfl⟩

/-- C28, undefined behaviour: under the strict reading (`*its` is read past its object) the function
has undefined behaviour whenever the first residual is not below the tolerance. -/
theorem C28_undefined (hc : c.Ok) (hw : w.Ok c) (hf : 1 ≤ env.fuel) (hp : ∀ t, env.peek t = none)
    {r : RhsOut α} (hr : assemblyRhs c w = .ok r) (hlt : Scalar.lt r.norm nrMaxTol = false) :
    newtonRaphson env c w = .error .oob := by
  obtain ⟨b, vn, nm, nl, h1, h2⟩ := rhs_ok hc hw
  rw [h1] at hr
  cases hr
  obtain ⟨n, hn⟩ : ∃ n, env.fuel = n + 1 := ⟨env.fuel - 1, by omega⟩
  obtain ⟨A, vn', du, -, -, h3, h4⟩ := nrCorrect_eq (env := env) hc h2.ok
  unfold newtonRaphson
  rw [hn, nrLoop, h1, M_bind_ok']
  simp only at hlt ⊢
  rw [if_neg (by rw [hlt]; decide), h3, M_bind_ok']
  simp only [hp]

end

section
variable {c : Cfg ℝ} {w : Work ℝ} {env : Env ℝ}

theorem norm2_ge {n q : Nat} {f : Nat → ℝ} (hq : q < n) : |f q| ≤ norm2 n f := by
  unfold norm2 dot
  rw [← Real.sqrt_sq_eq_abs]
  refine Real.sqrt_le_sqrt ?_
  rw [sq]
  exact single_le_sum (f := fun i => f i * f i) (fun i _ => mul_self_nonneg _) (mem_range.mpr hq)

/-- An elastic object with an interior dof has a displacement with residual at least 1. -/
theorem big_residual (hc : c.Ok) (hg : c.Geom) (he : c.Elastic) (hw : w.Ok c) {q : Nat}
    (hq : q < c.nn * c.dim) (hb : ¬ c.fe.Bd q) :
    ∃ (u : Buf ℝ) (r : RhsOut ℝ), Work.Ok c { w with u := u } ∧
      assemblyRhs c { w with u := u } = .ok r ∧ 1 ≤ r.norm := by
  have hF := c.good hc hg
  have hL := c.law_ok hc he
  let x : Nat → ℝ := Spec.unit q
  have hx : ∀ r, r < c.fe.nn * c.fe.dim → c.fe.Bd r → x r = 0 := by
    intro r _ hr
    show (if r = q then (1 : ℝ) else 0) = 0
    rw [if_neg]; rintro rfl; exact hb hr
  have hpos := Fe.bil_pos hF hL hx ⟨q, by rw [c.fe_nn hc]; exact hq, by
    show (if q = q then (1 : ℝ) else 0) ≠ 0
    rw [if_pos rfl]; exact one_ne_zero⟩
  have hbil : c.fe.bil c.law x x = c.fe.force (c.fe.stress c.law x) q := by
    rw [← Fe.bil_force hF, sum_eq_single q]
    · show _ * (if q = q then (1 : ℝ) else 0) = _
      rw [if_pos rfl, mul_one]
    · intro r _ hr
      show _ * (if r = q then (1 : ℝ) else 0) = _
      rw [if_neg hr, mul_zero]
    · intro h; exact absurd (mem_range.mpr (by rw [c.fe_nn hc]; exact hq)) h
  rw [hbil] at hpos
  let F := c.fe.force (c.fe.stress c.law x) q
  let u : Buf ℝ := ⟨c.nn * c.dim, fun r => (1 / F) * x r + 0 * x r⟩
  have hw' : Work.Ok c { w with u := u } := Work.Ok.setU hw rfl
  obtain ⟨f, vn, nl, h1, -, -, h2⟩ := assemblyRhs_real hc hw'
  refine ⟨u, _, hw', h1, ?_⟩
  refine le_trans ?_ (norm2_ge hq)
  rw [h2 q hq, if_neg hb, c.force_elastic hc he, Fe.force_lin hL, abs_neg]
  have : 1 / F * c.fe.force (c.fe.stress c.law x) q = 1 := by
    have : F ≠ 0 := hpos.ne'
    exact one_div_mul_cancel this
  rw [this, zero_mul, add_zero, abs_one]

theorem ex3_interior : ¬ ex3.cfg.fe.Bd 51 := by
  obtain ⟨h1, h2, h3⟩ := ex3_size
  rw [Cfg.fe_3 ex3_dim]
  unfold Fe.Bd
  simp only [Cfg.F3, fe3, h1, h2, h3]
  decide

/-- C28 fails: an object reached by public calls and a displacement for which `newton_raphson` makes a
correction but reports 0 iterations, and for which the strict reading of the code is undefined
behaviour. -/
theorem C28_fails : ∃ (c : Cfg ℝ) (w : Work ℝ), c.Ok ∧ c.Geom ∧ c.Elastic ∧ w.Ok c ∧
    (∀ env : Env ℝ, 1 ≤ env.fuel → (∀ t, env.peek t = none) → newtonRaphson env c w = .error .oob) ∧
    ∃ out w1 r, newtonRaphson exEnv c w = .ok out ∧ assemblyRhs c w = .ok r ∧
      nrCorrect exEnv c r.work = .ok w1 ∧ out.work.u = w1.u ∧ out.work.u ≠ w.u ∧ out.its = 0 := by
  obtain ⟨u, r, hw, h1, h2⟩ := big_residual ex3_ok ex3_geom ex3_elastic ex3_work
    (q := 51) (by rw [ex3_nn]; decide) ex3_interior
  have hge : Scalar.lt r.norm (nrMaxTol : ℝ) = false := by
    rw [lt_real, nrMaxTol_real]
    refine decide_eq_false (not_lt.mpr (le_trans ?_ h2))
    norm_num
  refine ⟨_, _, ex3_ok, ex3_geom, ex3_elastic, hw, fun env hf hp => C28_undefined ex3_ok hw hf hp h1 hge, ?_⟩
  obtain ⟨r0, out, r', k1, k2, k3, k4, k5⟩ := C26_linear (env := exEnv) ex3_ok ex3_geom ex3_elastic hw
    (lt_of_le_of_lt (card_filter_le _ _) (by rw [card_range, ex3_nn]; norm_num)) (by decide)
    (fun t h => by cases h)
  rw [h1] at k1
  cases k1
  rcases k3 with ⟨hlt, -⟩ | ⟨-, w1, hw1, hu⟩
  · exfalso
    have : (1e-5 : ℝ) < 1 := by norm_num
    linarith
  refine ⟨out, w1, r, k2, h1, hw1, hu, fun heq => ?_, C28_report ex3_ok hw k2⟩
  have hout : out.work.Ok ex3.cfg := by
    obtain ⟨o, e1, e2⟩ := (newtonRaphson_safe (env := exEnv) ex3_ok hw).returns exEnv_quick
    rw [k2] at e1
    cases e1
    exact e2.ok
  have hvo : out.work.varsOld = ex3.work.varsOld := by
    obtain ⟨o, e1, e2⟩ := (newtonRaphson_safe (env := exEnv) ex3_ok hw).returns exEnv_quick
    rw [k2] at e1
    cases e1
    exact e2.varsOld
  have := (rhs_same ex3_ok hw hout heq hvo h1 k4).1
  rw [this] at k5
  have : (1e-5 : ℝ) < 1 := by norm_num
  linarith

/-- The hypotheses of `C28_undefined` and, at an equilibrated displacement, of `C28_partial` and
`C27_truthful` are met by `ex3`. -/
example (env : Env ℝ) (hf : 1 ≤ env.fuel) : ∃ (w : Work ℝ) (out : NrOut ℝ), w.Ok ex3.cfg ∧
    newtonRaphson env ex3.cfg w = .ok out ∧ Scalar.lt out.err (nrMaxTol : ℝ) = true := by
  obtain ⟨⟨u, h1, -, r, h2, h3⟩, -⟩ := C25_solution ex3_ok ex3_geom ex3_elastic ex3_work fun q => q
  have hlt : Scalar.lt r.norm (nrMaxTol : ℝ) = true := by
    rw [lt_real, nrMaxTol_real, h3]
    exact decide_eq_true (by norm_num)
  obtain ⟨out, e1, -, e2, -⟩ := C28_partial ex3_ok (Work.Ok.setU ex3_work h1) hf h2 hlt
  exact ⟨_, out, Work.Ok.setU ex3_work h1, e1, by rw [e2]; exact hlt⟩

/-- The hypotheses of `C28_limit`: the memory behind `its` always reads 0, and the loop returns. -/
example : ∃ (w : Work ℝ) (out : NrOut ℝ), w.Ok ex3.cfg ∧
    newtonRaphson { exEnv with peek := fun _ => some 0 } ex3.cfg w = .ok out ∧
    (Scalar.lt out.err nrMaxTol = true ∨ Scalar.lt nrMaxTol out.err = false) := by
  obtain ⟨⟨u, h1, -, r, h2, h3⟩, -⟩ := C25_solution ex3_ok ex3_geom ex3_elastic ex3_work fun q => q
  have hlt : Scalar.lt r.norm (nrMaxTol : ℝ) = true := by
    rw [lt_real, nrMaxTol_real, h3]
    exact decide_eq_true (by norm_num)
  obtain ⟨out, e1, -⟩ := C28_partial (env := { exEnv with peek := fun _ => some 0 }) ex3_ok
    (Work.Ok.setU ex3_work h1) exEnv_quick.1 h2 hlt
  exact ⟨_, out, Work.Ok.setU ex3_work h1, e1, C28_limit ex3_ok (Work.Ok.setU ex3_work h1)
    (fun t v hv => by cases hv; norm_num) e1⟩

end

end Verif.Props
