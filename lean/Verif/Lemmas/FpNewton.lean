import Verif.Lemmas.FpDescent
import Verif.Lemmas.Terminate

/-! # The Newton loop in rounded arithmetic -/

namespace Verif
open Spec Finset

variable {c : Cfg ℝ}

theorem nrMaxTol_val {fp : Fp} : (nrMaxTol : Fl fp).val = fp.rnd 1e-5 := by
  unfold nrMaxTol
  rw [Fl.val_sci]
  congr 1
  norm_num

/-- The loop returns when every pass lowers the energy; it then is near the equilibrium `s`. -/
theorem fp_loop (hc : c.Ok) (hg : c.Geom) (he : c.Elastic) {K2 : ℝ}
    (hK2 : ∀ (w : Nat → ℝ) (B : ℝ), 0 ≤ B → (∀ r, r < c.fe.nn * c.fe.dim → c.fe.Bd r → w r = 0) →
      (∀ r, r < c.fe.nn * c.fe.dim → ¬ c.fe.Bd r → |c.fe.force (c.fe.stress c.law w) r| ≤ B) →
      c.fe.bil c.law w w ≤ K2 * B ^ 2) {κ B2 E0 T : ℝ} (hκ : 0 < κ) (hT : 0 ≤ T)
    {fp : Fp} {c' : Cfg (Fl fp)} (hcomp : Computed c' c) {env : Env (Fl fp)}
    (hpk : ∀ t, ∃ v, env.peek t = some v ∧ v < 40) {s : Nat → ℝ} (hs : c.fe.Equil (c.fe.stress c.law s))
    (hbound : ∀ u : Nat → ℝ, (∀ r, r < c.fe.nn * c.fe.dim → c.fe.Bd r → u r = s r) →
      c.fe.bil c.law u u ≤ E0 → ∀ q, q < c.nn * c.dim → |u q| ≤ B2)
    (hdrop : ∀ (w : Work (Fl fp)) (r : RhsOut (Fl fp)) (w' : Work (Fl fp)), w.Ok c' →
      (∀ q, q < c.nn * c.dim → |(w.u.val q).val| ≤ B2) → assemblyRhs c' w = .ok r →
      Scalar.lt r.norm nrMaxTol = false → nrCorrect env c' r.work = .ok w' →
      c.fe.bil c.law (fun q => (w'.u.val q).val) (fun q => (w'.u.val q).val)
        ≤ c.fe.bil c.law (fun q => (w.u.val q).val) (fun q => (w.u.val q).val) - κ)
    (hres : ∀ (w : Work (Fl fp)) (r : RhsOut (Fl fp)), w.Ok c' →
      (∀ q, q < c.nn * c.dim → |(w.u.val q).val| ≤ B2) → assemblyRhs c' w = .ok r →
      r.norm.val ≤ (nrMaxTol : Fl fp).val → ∀ q, q < c.nn * c.dim → ¬ c.fe.Bd q →
      |c.fe.force (c.fe.stress c.law fun q => (w.u.val q).val) q| ≤ T) (m : Nat) :
    ∀ w : Work (Fl fp), w.Ok c' →
      (∀ r, r < c.fe.nn * c.fe.dim → c.fe.Bd r → (w.u.val r).val = s r) →
      c.fe.bil c.law (fun q => (w.u.val q).val) (fun q => (w.u.val q).val) ≤ E0 →
      c.fe.bil c.law (fun q => (w.u.val q).val) (fun q => (w.u.val q).val) < κ * m →
      ∃ out, nrLoop env c' m w = .ok out ∧ out.err.val ≤ (nrMaxTol : Fl fp).val ∧
        c.fe.bil c.law (fun q => (out.work.u.val q).val - s q) (fun q => (out.work.u.val q).val - s q)
          ≤ K2 * T ^ 2 := by
  have hF := c.good hc hg
  have hL := c.law_ok hc he
  have hN := c.fe_nn hc
  have hok := hcomp.ok hc
  -- fields with small residual
  have hnear : ∀ (w : Work (Fl fp)) (r : RhsOut (Fl fp)), w.Ok c' →
      (∀ r, r < c.fe.nn * c.fe.dim → c.fe.Bd r → (w.u.val r).val = s r) →
      c.fe.bil c.law (fun q => (w.u.val q).val) (fun q => (w.u.val q).val) ≤ E0 →
      assemblyRhs c' w = .ok r → r.norm.val ≤ (nrMaxTol : Fl fp).val →
      c.fe.bil c.law (fun q => (w.u.val q).val - s q) (fun q => (w.u.val q).val - s q) ≤ K2 * T ^ 2 := by
    intro w r hw hb hE hr hle
    refine hK2 _ T hT (fun r hr hb' => sub_eq_zero.mpr (hb r hr hb')) fun q hq hb' => ?_
    have e : (fun q => (w.u.val q).val - s q) = fun q => 1 * (w.u.val q).val + (-1) * s q := by funext q; ring
    rw [e, Fe.force_lin hL, hs q hq hb']
    have := hres w r hw (hbound _ hb hE) hr hle q (by rw [← hN]; exact hq) hb'
    simpa using this
  induction m with
  | zero =>
    intro w _ _ _ hlt
    have := Fe.bil_nonneg hF hL fun q => (w.u.val q).val
    rw [Nat.cast_zero, mul_zero] at hlt
    linarith
  | succ m ih =>
    intro w hw hb hE hlt
    obtain ⟨b, vn, nm, nl, h1, h2⟩ := rhs_ok hok hw
    rw [nrLoop, h1, M_bind_ok']
    simp only
    by_cases hge : Scalar.lt nm nrMaxTol = true
    · rw [if_pos hge]
      have hle : nm.val ≤ (nrMaxTol : Fl fp).val := ((Fl.lt_iff' _ _).mp hge).le
      exact ⟨_, rfl, hle, hnear w _ hw hb hE h1 hle⟩
    · rw [if_neg hge]
      obtain ⟨A, vn', du, -, -, h3, h4⟩ := nrCorrect_eq (env := env) hok h2.ok
      have hd := hdrop w _ _ hw (hbound _ hb hE) h1 (Bool.eq_false_iff.mpr hge) h3
      have hb' : ∀ r, r < c.fe.nn * c.fe.dim → c.fe.Bd r →
          (if r < c'.nn * c'.dim then w.u.val r + du.val r else w.u.val r).val = s r := by
        intro r hr hr'
        have hq : r < c'.nn * c'.dim := by rw [hcomp.dofs, ← hN]; exact hr
        have hB := (hcomp.onBdry r).mpr ((onBdry_iff hc r).mpr hr')
        have := nrCorrect_bdry hok h2.ok h3 hq hB (rhs_bdry hok hw h1 hq hB).1
        simp only at this
        rw [this]
        exact hb r hr hr'
      rw [h3, M_bind_ok']
      obtain ⟨v, hv, hv'⟩ := hpk ({ w with
        b := b, A := A, varsNew := vn', du := du, tick := w.tick + 1
        u := ⟨c'.nn * c'.dim, fun k => if k < c'.nn * c'.dim then w.u.val k + du.val k
          else w.u.val k⟩ } : Work (Fl fp)).tick
      simp only at hv hd ⊢
      rw [hv]
      simp only
      split
      · refine ih _ (h4.tick' (Nat.le_succ _)).ok hb' ?_ ?_
        · simp only; linarith
        · push_cast at hlt
          simp only; linarith
      · rename_i hn
        have hle : nm.val ≤ (nrMaxTol : Fl fp).val := by
          by_contra hc'
          exact hn ⟨hv', (Fl.lt_iff' _ _).mpr (not_le.mp hc')⟩
        refine ⟨_, rfl, hle, ?_⟩
        have a1 := Fe.bil_split hF hL hs hb
        have a2 := Fe.bil_split hF hL hs hb'
        have a3 := hnear w _ hw hb hE h1 hle
        simp only
        linarith

section Gen
variable {α : Type} [Scalar α] {c : Cfg α}

/-- The prescribed displacements do not depend on the old ones. -/
theorem displV_bd (hc : c.Ok) (eps x y : Nat → α) {q : Nat} (hq : q < c.nn * c.dim) (hb : c.OnBdry q) :
    c.displV eps x q = c.displV eps y q := by
  unfold Cfg.OnBdry at hb
  unfold Cfg.displV
  rcases hc.dim with hd | hd
  · rw [if_pos hd] at hb ⊢
    rw [if_pos hd]
    rw [hc.nn2 hd, hd] at hq
    unfold displ2
    rw [if_pos ⟨hq, hb⟩, if_pos ⟨hq, hb⟩]
  · rw [if_neg (by omega)] at hb ⊢
    rw [if_neg (by omega)]
    rw [hd] at hq
    unfold displ3
    rw [if_pos ⟨hq, hb⟩, if_pos ⟨hq, hb⟩]

/-- The others are kept. -/
theorem displV_in (hc : c.Ok) (eps x : Nat → α) {q : Nat} (hb : ¬ c.OnBdry q) : c.displV eps x q = x q := by
  unfold Cfg.OnBdry at hb
  unfold Cfg.displV
  rcases hc.dim with hd | hd
  · rw [if_pos hd] at hb ⊢
    unfold displ2
    rw [if_neg fun h => hb h.2]
  · rw [if_neg (by omega)] at hb ⊢
    unfold displ3
    rw [if_neg fun h => hb h.2]

end Gen

set_option maxHeartbeats 800000 in
/-- `set_displ` and `newton_raphson` in rounded arithmetic: they return, leave bounded displacements and a
small error, and the stress of the result is near the homogenised one. -/
theorem fp_solve (hc : c.Ok) (hg : c.Geom) (he : c.Elastic) : ∃ K : ℝ, 1 ≤ K ∧ ∀ B : ℝ, 0 ≤ B →
    ∃ u0 n : ℝ, 0 < u0 ∧ ∀ (fp : Fp), fp.u < u0 → fp.eta ≤ fp.u ^ 2 → ∀ (c' : Cfg (Fl fp)), Computed c' c →
      ∀ (env : Env (Fl fp)), env.Patient n → ∀ (w : Work (Fl fp)) (eps : Nat → Fl fp), w.Ok c' →
      (∀ q, q < c.nn * c.dim → |(w.u.val q).val| ≤ K * (1 + B)) →
      (∀ v, v < c.nvoi → |(eps v).val| ≤ 2 * (1 + B)) →
      ∃ w1 out, setDispl c' w eps = .ok w1 ∧ newtonRaphson env c' w1 = .ok out ∧ Frame c' w out.work ∧
        (∀ q, q < c.nn * c.dim → |(out.work.u.val q).val| ≤ K * (1 + B)) ∧
        out.err.val ≤ (nrMaxTol : Fl fp).val ∧
        ∀ C, Props.IsStiffness c C → ∀ (vo : Buf (Fl fp)) v, v < c.nvoi →
          |(c'.aveV out.work.u.val vo v).val - ∑ j ∈ range c.nvoi, C v j * (eps j).val| ≤ K * 1e-5 := by
  have hF := c.good hc hg
  have hL := c.law_ok hc he
  have hN := c.fe_nn hc
  have ht := Props.thick_pos hc hg
  obtain ⟨Ke, hKe, herr⟩ := FpRun.errors hc hg he
  obtain ⟨L, hL0, hst⟩ := Fe.stable hF hL
  obtain ⟨K2, hK2, hresid⟩ := Fe.bil_resid hF hL
  obtain ⟨K3, hK3, hlow⟩ := Fe.bil_lower hF hL
  obtain ⟨Λ, hΛ, hup⟩ := Fe.bil_upper hF hL
  obtain ⟨κ, hκ, hdrop⟩ := pass_drop hc hg he
  set t := c.thick
  let g : ℝ := K3 * (Real.sqrt K2 * 5e-5)
  have hg0 : 0 ≤ g := by positivity
  let K : ℝ := 1 + 4 * L * Ke + g + (1 + t * (5 * (K3 * Real.sqrt K2) + L))
  have hK1 : 1 + (1 + t * (5 * (K3 * Real.sqrt K2) + L)) ≤ K := by
    show _ ≤ 1 + 4 * L * Ke + g + (1 + t * (5 * (K3 * Real.sqrt K2) + L))
    have : 0 ≤ 4 * L * Ke := by positivity
    linarith
  have hK0 : 0 ≤ t * (5 * (K3 * Real.sqrt K2) + L) := by positivity
  refine ⟨K, by linarith, fun B hB => ?_⟩
  let M : ℝ := 2 * (1 + B)
  have hM : 1 ≤ M := by show 1 ≤ 2 * (1 + B); linarith
  let B0 : ℝ := K * (1 + B) + 2 * Ke * M
  let E0 : ℝ := Λ * (((c.nn * c.dim : ℕ) : ℝ) * B0 ^ 2)
  have hE0 : 0 ≤ E0 := by positivity
  let B2 : ℝ := L * (2 * Ke * M) + K3 * Real.sqrt E0
  have hB2 : 0 ≤ B2 := by positivity
  obtain ⟨u1, hu1, hdrop⟩ := hdrop B2
  let R : ℝ := 1 + B2 + K * (1 + B) + M
  have hKB : 0 ≤ K * (1 + B) := mul_nonneg (by linarith) (by linarith)
  have hR : 1 ≤ R := by show 1 ≤ 1 + B2 + K * (1 + B) + M; linarith
  refine ⟨min u1 (1e-5 / (Ke * R)), E0 / κ + 1, by positivity, ?_⟩
  intro fp hu heta c' hcomp env hp w eps hw hwu heps
  have hu0 := fp.u_nonneg
  have hult : fp.u < u1 := lt_of_lt_of_le hu (min_le_left _ _)
  have hule : Ke * fp.u * R ≤ 1e-5 := by
    have h1 : fp.u ≤ 1e-5 / (Ke * R) := hu.le.trans (min_le_right _ _)
    rw [le_div_iff₀ (by positivity)] at h1
    linarith
  have huM : Ke * fp.u * M ≤ 1e-5 := by
    refine le_trans (mul_le_mul_of_nonneg_left ?_ (by positivity)) hule
    show M ≤ 1 + B2 + K * (1 + B) + M
    linarith
  have huK : Ke * fp.u ≤ 1e-5 := by
    have : Ke * fp.u * 1 ≤ Ke * fp.u * M := mul_le_mul_of_nonneg_left hM (by positivity)
    linarith
  have huu : fp.u ≤ 1e-5 := by nlinarith
  have hKeu : Ke * fp.u ≤ 1 := huK.trans (by norm_num)
  have hok := hcomp.ok hc
  -- the displacements after `set_displ`
  obtain ⟨u', e0, -⟩ := setDispl_ok hok hw eps
  have hw1 := setDispl_gen hok hw.u e0
  rw [hw1] at e0
  have hok1 : Work.Ok c' { w with u := ⟨c'.nn * c'.dim, c'.displV eps w.u.val⟩ } :=
    ⟨rfl, hw.du, hw.b, hw.elemStress, hw.elemStrain, hw.varsOld, hw.varsNew, hw.A2, hw.A3⟩
  have hfr : Frame c' w { w with u := ⟨c'.nn * c'.dim, c'.displV eps w.u.val⟩ } :=
    ⟨hok1, rfl, rfl, rfl, rfl, SameElastic.rfl', le_refl _⟩
  set w1 : Work (Fl fp) := { w with u := ⟨c'.nn * c'.dim, c'.displV eps w.u.val⟩ } with hw1d
  -- boundary values
  have e3 := (herr ⟨fp, heta, c', hcomp, fun _ => 0, w.u, fun _ => 0, eps, M, hM,
    fun q _ => by show |(0 : ℝ)| ≤ M; rw [abs_zero]; linarith, heps⟩ hKeu).2.2
  have e4 : ∀ q, q < c.nn * c.dim → c.fe.Bd q →
      |(w1.u.val q).val - c.fe.affine (c.fe.symGrad fun v => (eps v).val) (fun _ => 0) q| ≤ Ke * fp.u * M ∧
      |c.fe.affine (c.fe.symGrad fun v => (eps v).val) (fun _ => 0) q| ≤ Ke * M := by
    intro q hq hb
    have h2 : c'.displV eps (fun _ => 0) q = c'.displV eps w.u.val q :=
      displV_bd hok eps _ _ (hcomp.dofs ▸ hq) ((hcomp.onBdry q).mpr ((onBdry_iff hc q).mpr hb))
    show |(c'.displV eps w.u.val q).val - _| ≤ _ ∧ _
    rw [← h2]
    exact e3 q hq hb
  have hKuM : Ke * fp.u * M ≤ Ke * M := by
    have := mul_le_mul_of_nonneg_right hKeu (show 0 ≤ M by linarith)
    have h1 : M ≤ Ke * M := by nlinarith
    linarith
  have hbd1 : ∀ q, q < c.nn * c.dim → c.fe.Bd q → |(w1.u.val q).val| ≤ 2 * Ke * M := by
    intro q hq hb
    obtain ⟨h1, h2⟩ := e4 q hq hb
    have h1 := abs_le.mp h1
    have h2 := abs_le.mp h2
    rw [abs_le]
    constructor <;> linarith [h1.1, h1.2, h2.1, h2.2]
  have hw1u : ∀ q, q < c.nn * c.dim → |(w1.u.val q).val| ≤ B0 := by
    intro q hq
    have hp0 : 0 ≤ 2 * Ke * M := by positivity
    by_cases hb : c.fe.Bd q
    · have := hbd1 q hq hb
      show _ ≤ K * (1 + B) + 2 * Ke * M
      linarith
    · have h1 : w1.u.val q = w.u.val q :=
        displV_in hok eps _ fun h => hb ((onBdry_iff hc q).mp ((hcomp.onBdry q).mp h))
      rw [h1]
      have := hwu q hq
      show _ ≤ K * (1 + B) + 2 * Ke * M
      linarith
  -- the equilibrium with these boundary values
  obtain ⟨s, s1, s2⟩ := Fe.exists_sol hF hL (fun q => (w1.u.val q).val) fun _ => 0
  obtain ⟨s3, -⟩ := hst s (2 * Ke * M) (by positivity)
    (fun r hr hb => by rw [s1 r hr hb]; exact hbd1 r (by rw [← hN]; exact hr) hb)
    (fun r hr hb => by rw [s2 r hr hb, abs_zero]; positivity)
  have hb : ∀ r, r < c.fe.nn * c.fe.dim → c.fe.Bd r → (w1.u.val r).val = s r := fun r hr hb => (s1 r hr hb).symm
  have hE : c.fe.bil c.law (fun q => (w1.u.val q).val) (fun q => (w1.u.val q).val) ≤ E0 := by
    refine (hup _).trans (mul_le_mul_of_nonneg_left ?_ hΛ.le)
    unfold dot
    have h6 : ∀ r ∈ range (c.fe.nn * c.fe.dim), (w1.u.val r).val * (w1.u.val r).val ≤ B0 ^ 2 := by
      intro r hr
      have := hw1u r (by rw [← hN]; exact mem_range.mp hr)
      rw [← sq]
      exact sq_le_sq' (abs_le.mp this).1 (abs_le.mp this).2
    have := sum_le_sum h6
    rw [sum_const, card_range, nsmul_eq_mul, hN] at this
    rw [hN]
    exact this
  have hbound : ∀ u : Nat → ℝ, (∀ r, r < c.fe.nn * c.fe.dim → c.fe.Bd r → u r = s r) →
      c.fe.bil c.law u u ≤ E0 → ∀ q, q < c.nn * c.dim → |u q| ≤ B2 := by
    intro u hu hE q hq
    have h1 := Fe.bil_split hF hL s2 hu
    have h2 := Fe.bil_nonneg hF hL s
    have h3 := (hlow (fun r => u r - s r) (Real.sqrt E0) (Real.sqrt_nonneg _)
      (fun r hr hb => sub_eq_zero.mpr (hu r hr hb)) (by rw [Real.sq_sqrt hE0]; linarith)).1 q
      (by rw [hN]; exact hq)
    have h4 := s3 q (by rw [hN]; exact hq)
    have h5 : |u q| ≤ |u q - s q| + |s q| := by
      have := abs_add_le (u q - s q) (s q)
      rwa [sub_add_cancel] at this
    show _ ≤ L * (2 * Ke * M) + K3 * Real.sqrt E0
    linarith
  have hfuel : c.fe.bil c.law (fun q => (w1.u.val q).val) (fun q => (w1.u.val q).val) < κ * env.fuel := by
    have h7 := mul_le_mul_of_nonneg_left hp.fuel hκ.le
    have h8 : κ * (E0 / κ + 1) = E0 + κ := by field_simp
    linarith
  have huB2 : Ke * fp.u * (1 + B2) ≤ 1e-5 := by
    refine le_trans (mul_le_mul_of_nonneg_left ?_ (by positivity)) hule
    show 1 + B2 ≤ 1 + B2 + K * (1 + B) + M
    linarith
  obtain ⟨out, ho, herrO, hgap⟩ := fp_loop hc hg he hresid hκ (T := 5e-5) (B2 := B2) (E0 := E0)
    (by norm_num) hcomp (env := env) hp.peek s2 hbound
    (fun w r w' hw hB hr hlt h3 => hdrop ⟨fp, heta, c', hcomp, env, w, hw, hB, r, hr, hlt⟩ hult w' h3)
    (by
      intro w r hw hB hr hle q hq hb
      obtain ⟨g1, -⟩ := herr ⟨fp, heta, c', hcomp, w.u.val, w.varsOld, w.b.val, fun _ => 0, 1 + B2,
        by linarith, fun q hq => by have := hB q hq; linarith,
        fun v _ => by show |(0 : ℝ)| ≤ _; rw [abs_zero]; linarith⟩ hKeu
      have g1 := g1 q hq
      rw [if_neg hb] at g1
      rw [nrMaxTol_val, (assemblyRhs_full hok hw hr).1] at hle
      have g2 := norm_small (huu.trans (by norm_num)) heta (by norm_num) hle (hcomp.dofs ▸ hq)
      have g1 := abs_le.mp g1
      have g2 := abs_le.mp g2
      have g3 : -(Ke * fp.u * (1 + B2)) ≤ (c'.residV w.u.val w.varsOld w.b.val q).val
        - -c.fe.force (c.fe.stress c.law fun q => (w.u.val q).val) q := g1.1
      have g4 : (c'.residV w.u.val w.varsOld w.b.val q).val
        - -c.fe.force (c.fe.stress c.law fun q => (w.u.val q).val) q ≤ Ke * fp.u * (1 + B2) := g1.2
      rw [abs_le]
      constructor <;> linarith [g2.1, g2.2]) env.fuel w1 hok1 hb hE hfuel
  have ho : newtonRaphson env c' w1 = .ok out := ho
  have hbo : ∀ r, r < c.fe.nn * c.fe.dim → c.fe.Bd r → (out.work.u.val r).val = s r := by
    intro r hr hb'
    rw [newtonRaphson_bdry hok hok1 ho (by rw [hcomp.dofs, ← hN]; exact hr)
      ((hcomp.onBdry r).mpr ((onBdry_iff hc r).mpr hb'))]
    exact hb r hr hb'
  obtain ⟨d1, d2⟩ := hlow (fun q => (out.work.u.val q).val - s q) (Real.sqrt K2 * 5e-5) (by positivity)
    (fun r hr hb => sub_eq_zero.mpr (hbo r hr hb)) (by rw [mul_pow, Real.sq_sqrt hK2.le]; exact hgap)
  have hsmall : ∀ q, q < c.nn * c.dim → |(out.work.u.val q).val| ≤ K * (1 + B) := by
    intro q hq
    have h3 := d1 q (by rw [hN]; exact hq)
    have h4 := s3 q (by rw [hN]; exact hq)
    have h5 : |(out.work.u.val q).val| ≤ |(out.work.u.val q).val - s q| + |s q| := by
      have := abs_add_le ((out.work.u.val q).val - s q) (s q)
      rwa [sub_add_cancel] at this
    have h6 : g ≤ g * (1 + B) := by nlinarith
    have h7 : 0 ≤ (1 + (1 + t * (5 * (K3 * Real.sqrt K2) + L))) * (1 + B) :=
      mul_nonneg (by linarith) (by linarith)
    have h8 : K * (1 + B) = L * (2 * Ke * M) + g * (1 + B)
        + (1 + (1 + t * (5 * (K3 * Real.sqrt K2) + L))) * (1 + B) := by
      show (1 + 4 * L * Ke + g + (1 + t * (5 * (K3 * Real.sqrt K2) + L))) * (1 + B)
        = L * (2 * Ke * (2 * (1 + B))) + g * (1 + B)
        + (1 + (1 + t * (5 * (K3 * Real.sqrt K2) + L))) * (1 + B)
      ring
    have h9 : |(out.work.u.val q).val - s q| ≤ g := h3
    linarith
  refine ⟨w1, out, e0, ho, hfr.trans ((newtonRaphson_safe (env := env) hok hok1).post ho), hsmall, herrO, ?_⟩
  -- the stress
  intro C hC vo v hv
  obtain ⟨y, y1, y2, y3⟩ := stiff_sol hc hg he hC fun v => (eps v).val
  obtain ⟨-, z2⟩ := hst (fun r => 1 * s r + (-1) * y r) (Ke * fp.u * M) (by positivity)
    (fun r hr hb' => by
      have h1 := y1 r hr hb'
      have h2 := (e4 r (by rw [← hN]; exact hr) hb').1
      rw [hb r hr hb', ← h1] at h2
      rw [show 1 * s r + (-1) * y r = s r - y r by ring]
      exact h2)
    (fun r hr hb' => by
      rw [Fe.force_lin hL, s2 r hr hb', y2 r hr hb']
      simp only [mul_zero, add_zero, abs_zero]
      positivity)
  have hv' : v < c.fe.nvoi := by rw [c.fe_nvoi]; exact hv
  have z3 := z2 v hv'
  have d3 := d2 v hv'
  rw [Fe.aveStress_lin hL _ _ _ _ hv'] at z3
  have e : (fun q => (out.work.u.val q).val - s q) = fun q => 1 * (out.work.u.val q).val + (-1) * s q := by
    funext q; ring
  rw [e, Fe.aveStress_lin hL _ _ _ _ hv'] at d3
  obtain ⟨-, g2, -⟩ := herr ⟨fp, heta, c', hcomp, out.work.u.val, vo, fun _ => 0, fun _ => 0, 1 + K * (1 + B),
    by linarith, fun q hq => by have := hsmall q hq; linarith,
    fun v _ => by show |(0 : ℝ)| ≤ _; rw [abs_zero]; linarith⟩ hKeu
  have g2 : |(c'.aveV out.work.u.val vo v).val
      - t * c.fe.aveStress (c.fe.stress c.law fun q => (out.work.u.val q).val) v|
        ≤ Ke * fp.u * (1 + K * (1 + B)) := g2 v hv
  have huKB : Ke * fp.u * (1 + K * (1 + B)) ≤ 1e-5 := by
    refine le_trans (mul_le_mul_of_nonneg_left ?_ (by positivity)) hule
    show 1 + K * (1 + B) ≤ 1 + B2 + K * (1 + B) + M
    linarith
  rw [← y3 v hv]
  set sa := c.fe.aveStress (c.fe.stress c.law fun q => (out.work.u.val q).val) v
  set ss := c.fe.aveStress (c.fe.stress c.law s) v
  set sy := c.fe.aveStress (c.fe.stress c.law y) v
  have hfin : |(c'.aveV out.work.u.val vo v).val - t * sy|
      ≤ 1e-5 + t * (K3 * (Real.sqrt K2 * 5e-5) + L * 1e-5) := by
    calc _ = |((c'.aveV out.work.u.val vo v).val - t * sa) + t * ((1 * sa + -1 * ss) + (1 * ss + -1 * sy))| := by
          ring_nf
      _ ≤ _ := abs_add_le _ _
      _ ≤ _ := by
        rw [abs_mul, abs_of_pos ht]
        refine add_le_add (g2.trans huKB) (mul_le_mul_of_nonneg_left ?_ ht.le)
        refine (abs_add_le _ _).trans (add_le_add d3 (z3.trans (mul_le_mul_of_nonneg_left huM hL0.le)))
  refine hfin.trans ?_
  have := mul_le_mul_of_nonneg_right hK1 (show (0:ℝ) ≤ 1e-5 by norm_num)
  refine le_trans ?_ this
  have : (1:ℝ) * 1e-5 + t * (K3 * (Real.sqrt K2 * 5e-5) + L * 1e-5)
      = (1 + t * (5 * (K3 * Real.sqrt K2) + L)) * 1e-5 := by ring
  linarith

end Verif
