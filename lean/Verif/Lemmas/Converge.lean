import Verif.Lemmas.NewtonDescent
import Verif.Lemmas.SafeApi
import Verif.Props.Newton

/-! # Convergence of Newton-Raphson on elastic cells of every size -/

namespace Verif
open Spec Finset

/-- An elastic cell with grid `F` and law `L`. -/
structure Like (F : Fe) (L : Nat × Nat × Nat → (Nat → ℝ) → Nat → ℝ) (c : Cfg ℝ) : Prop where
  ok : c.Ok
  geom : c.Geom
  elastic : c.Elastic
  fe : c.fe = F
  law : c.law = L

/-- The step budget is at least `n`, and what `*its` finds never ends the loop. -/
structure Env.Patient {α : Type} (env : Env α) (n : ℝ) : Prop where
  fuel : n ≤ env.fuel
  peek : ∀ t, ∃ v, env.peek t = some v ∧ v < 40

variable {F : Fe} {L : Nat × Nat × Nat → (Nat → ℝ) → Nat → ℝ} {c : Cfg ℝ} {env : Env ℝ} {w : Work ℝ}

theorem assemblyRhs_res (hc : c.Ok) (he : c.Elastic) (hw : w.Ok c) :
    ∃ f vn nl, assemblyRhs c w = .ok
        { work := { w with b := ⟨c.nn * c.dim, f⟩, varsNew := vn }
          norm := norm2 (c.nn * c.dim) f, nl := nl } ∧
      Frame c w { w with b := ⟨c.nn * c.dim, f⟩, varsNew := vn } ∧ IsRes c w.u.val f := by
  obtain ⟨f, vn, nl, h1, -, -, h2⟩ := assemblyRhs_real hc hw
  obtain ⟨b', vn', nm', nl', h1', hfr⟩ := rhs_ok hc hw
  rw [h1] at h1'
  cases h1'
  refine ⟨f, vn, nl, h1, hfr, fun q hq => ?_⟩
  rw [h2 q hq, c.force_elastic hc he]

/-- The residual bounds the energy of the error. -/
theorem gap_resid (hF : F.Good) (hL : F.Law L) : ∃ K : ℝ, 0 < K ∧ ∀ (c : Cfg ℝ), Like F L c →
    ∀ (u f s : Nat → ℝ), IsRes c u f → F.Equil (F.stress L s) →
      (∀ r, r < F.nn * F.dim → F.Bd r → u r = s r) →
      F.bil L (fun r => u r - s r) (fun r => u r - s r) ≤ K * norm2 (c.nn * c.dim) f ^ 2 := by
  obtain ⟨K, hK, h⟩ := Fe.bil_resid hF hL
  refine ⟨K, hK, fun c hc u f s hf hs hb => ?_⟩
  obtain ⟨hc, -, he, rfl, rfl⟩ := hc
  refine h _ _ (Real.sqrt_nonneg _) (fun r hr hr' => sub_eq_zero.mpr (hb r hr hr')) fun r hr hr' => ?_
  have e : (fun r => u r - s r) = fun r => 1 * u r + (-1) * s r := by funext r; ring
  rw [e, Fe.force_lin hL, hs r hr hr']
  rw [c.fe_nn hc] at hr
  have := Props.norm2_ge (f := f) hr
  rw [hf r hr, if_neg hr', abs_neg] at this
  simpa using this

/-- However `newton_raphson` ends, if not by the iteration limit: its error is at most the tolerance
and the energy of the distance to the equilibrium is small. -/
theorem newton_close (hF : F.Good) (hL : F.Law L) : ∃ K : ℝ, 0 < K ∧ ∀ (c : Cfg ℝ), Like F L c →
    ∀ (env : Env ℝ) (w : Work ℝ) (out : NrOut ℝ) (s : Nat → ℝ), w.Ok c →
      (∀ t v, env.peek t = some v → v < 40) → newtonRaphson env c w = .ok out →
      F.Equil (F.stress L s) → (∀ r, r < F.nn * F.dim → F.Bd r → w.u.val r = s r) →
      out.err ≤ 1e-5 ∧ (∀ r, r < F.nn * F.dim → F.Bd r → out.work.u.val r = s r) ∧
      F.bil L (fun r => out.work.u.val r - s r) (fun r => out.work.u.val r - s r) ≤ K * (1e-5) ^ 2 := by
  obtain ⟨K, hK, hgap⟩ := gap_resid hF hL
  obtain ⟨κ, hκ, hdrop⟩ := nrCorrect_drop hF hL
  refine ⟨K, hK, fun c hl env w out s hw hp h hs hb => ?_⟩
  have hgap' := hgap c hl
  have hdrop' := hdrop c hl.ok hl.geom hl.elastic hl.fe hl.law
  obtain ⟨hc, hg, he, rfl, rfl⟩ := hl
  refine Props.nrLoop_inv (c := c) (env := env) hc
    (P := fun w => ∀ r, r < c.fe.nn * c.fe.dim → c.fe.Bd r → w.u.val r = s r)
    (Q := fun out => out.err ≤ 1e-5 ∧ (∀ r, r < c.fe.nn * c.fe.dim → c.fe.Bd r → out.work.u.val r = s r) ∧
      c.fe.bil c.law (fun r => out.work.u.val r - s r) (fun r => out.work.u.val r - s r) ≤ K * (1e-5) ^ 2)
    ?_ ?_ env.fuel hw hb h
  · intro w' r hw' hP hr hlt
    obtain ⟨f, vn, nl, h1, -, h2⟩ := assemblyRhs_res hc he hw'
    rw [h1] at hr
    cases hr
    rw [lt_real, Props.nrMaxTol_real, decide_eq_true_eq] at hlt
    refine ⟨hlt.le, hP, (hgap' _ _ _ h2 hs hP).trans ?_⟩
    exact mul_le_mul_of_nonneg_left (pow_le_pow_left₀ (Real.sqrt_nonneg _) hlt.le 2) hK.le
  · intro w' r w'' v hw' hP hr hge hcr hv
    obtain ⟨f, vn, nl, h1, hfr, h2⟩ := assemblyRhs_res hc he hw'
    rw [h1] at hr
    cases hr
    rw [lt_real, Props.nrMaxTol_real, decide_eq_false_iff_not, not_lt] at hge
    obtain ⟨w2, e1, -, -, e2, e3⟩ := hdrop' env _ hfr.ok h2 hge
    rw [e1] at hcr
    cases hcr
    have hP' : ∀ r, r < c.fe.nn * c.fe.dim → c.fe.Bd r → w''.u.val r = s r := fun r hr hb =>
      (e2 r (by rw [← c.fe_nn hc]; exact hr) hb).trans (hP r hr hb)
    refine ⟨fun _ => hP', fun hn => ?_⟩
    have hle : norm2 (c.nn * c.dim) f ≤ 1e-5 := by
      by_contra hlt
      refine hn ⟨hp _ v hv, ?_⟩
      rw [lt_real, Props.nrMaxTol_real]
      exact decide_eq_true (not_le.mp hlt)
    refine ⟨hle, hP', ?_⟩
    have a1 := Fe.bil_split hF hL hs hP
    have a2 := Fe.bil_split hF hL hs hP'
    have a3 := hgap' _ _ _ h2 hs hP
    have a4 : K * norm2 (c.nn * c.dim) f ^ 2 ≤ K * (1e-5) ^ 2 :=
      mul_le_mul_of_nonneg_left (pow_le_pow_left₀ (Real.sqrt_nonneg _) hle 2) hK.le
    have a5 : 0 ≤ κ * norm2 (c.nn * c.dim) f ^ 2 := by positivity
    simp only at e3 ⊢
    linarith

/-- `newton_raphson` returns: every pass that does not end the loop lowers the energy. -/
theorem newton_returns (hF : F.Good) (hL : F.Law L) : ∃ δ : ℝ, 0 < δ ∧ ∀ (c : Cfg ℝ), Like F L c →
    ∀ (env : Env ℝ) (w : Work ℝ) (s : Nat → ℝ), w.Ok c →
      (∀ t, ∃ v, env.peek t = some v ∧ v < 40) →
      F.Equil (F.stress L s) → (∀ r, r < F.nn * F.dim → F.Bd r → w.u.val r = s r) →
      F.bil L (fun r => w.u.val r - s r) (fun r => w.u.val r - s r) < δ * env.fuel →
      ∃ out, newtonRaphson env c w = .ok out := by
  obtain ⟨κ, hκ, hdrop⟩ := nrCorrect_drop hF hL
  refine ⟨κ * (1e-5) ^ 2, by positivity, fun c hl env w s hw hp hs hb => ?_⟩
  have hdrop' := hdrop c hl.ok hl.geom hl.elastic hl.fe hl.law
  obtain ⟨hc, hg, he, rfl, rfl⟩ := hl
  unfold newtonRaphson
  generalize env.fuel = n
  induction n generalizing w with
  | zero =>
    intro hlt
    have := Fe.bil_nonneg hF hL fun r => w.u.val r - s r
    simp only [Nat.cast_zero, mul_zero] at hlt
    linarith
  | succ n ih =>
    intro hlt
    obtain ⟨f, vn, nl, h1, hfr, h2⟩ := assemblyRhs_res hc he hw
    rw [nrLoop, h1, M_bind_ok']
    simp only
    by_cases hge : norm2 (c.nn * c.dim) f < 1e-5
    · rw [if_pos (by rw [lt_real, Props.nrMaxTol_real]; exact decide_eq_true hge)]
      exact ⟨_, rfl⟩
    · rw [if_neg (by rw [lt_real, Props.nrMaxTol_real]; simpa using hge)]
      rw [not_lt] at hge
      obtain ⟨w2, e1, e2, e3, e4, e5⟩ := hdrop' env _ hfr.ok h2 hge
      rw [e1, M_bind_ok']
      obtain ⟨v, hv, hv'⟩ := hp w2.tick
      rw [hv]
      simp only
      split
      · refine ih _ (e2.tick' (Nat.le_succ _)).ok (fun r hr hr' =>
          (e4 r (by rw [← c.fe_nn hc]; exact hr) hr').trans (hb r hr hr')) ?_
        have hP' : ∀ r, r < c.fe.nn * c.fe.dim → c.fe.Bd r → w2.u.val r = s r := fun r hr hb' =>
          (e4 r (by rw [← c.fe_nn hc]; exact hr) hb').trans (hb r hr hb')
        have a1 := Fe.bil_split hF hL hs hb
        have a2 := Fe.bil_split hF hL hs hP'
        have a5 : κ * (1e-5) ^ 2 ≤ κ * norm2 (c.nn * c.dim) f ^ 2 :=
          mul_le_mul_of_nonneg_left (pow_le_pow_left₀ (by norm_num) hge 2) hκ.le
        push_cast at hlt
        simp only at e5 ⊢
        linarith
      · exact ⟨_, rfl⟩

end Verif
