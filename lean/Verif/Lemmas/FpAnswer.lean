import Verif.Lemmas.FpCell
import Verif.Lemmas.Build

/-! # The answer of an elastic cell in rounded arithmetic -/

namespace Verif
open Spec Finset

theorem Work.exists_ok {α : Type} [Scalar α] {c : Cfg α} (hc : c.Ok) : ∃ w : Work α, w.Ok c := by
  have hA : ∃ A : Ell α, (c.dim = 2 → Pattern2Weak A 2 c.nx c.ny) ∧
      (c.dim = 3 → Pattern3 A 3 c.nx c.ny c.nz) := by
    rcases hc.dim with hd | hd
    · obtain ⟨A, -, e2⟩ := pattern2_init (fun _ => 0) (fun _ => (0 : α)) (nF := 2) hc.nx hc.ny
      exact ⟨A, fun _ => e2, fun h => by omega⟩
    · obtain ⟨A, -, e2⟩ := pattern3_init (fun _ => 0) (fun _ => (0 : α)) (nF := 3) hc.nx hc.ny (hc.nz3 hd)
      exact ⟨A, fun h => by omega, fun _ => e2⟩
  obtain ⟨A, h1, h2⟩ := hA
  let z : Nat → α := fun _ => 0
  exact ⟨⟨0, A, ⟨_, z⟩, ⟨_, z⟩, ⟨_, z⟩, ⟨_, z⟩, ⟨_, z⟩, ⟨_, z⟩, ⟨_, z⟩, 0⟩,
    rfl, rfl, rfl, rfl, rfl, rfl, rfl, h1, h2⟩

theorem Spec.Near.all {ι : Type} {S : Fam ι} {d N : Nat} {P : Nat → Prop} {a x : Nat → ι → ℝ}
    (h : ∀ q, q < N → P q → Near S d (a q) (x q)) :
    ∃ K, 1 ≤ K ∧ ∀ q, q < N → P q → ∀ i, K * (S.fp i).u ≤ 1 →
      |a q i - x q i| ≤ K * (S.fp i).u * S.m i ^ d ∧ |x q i| ≤ K * S.m i ^ d := by
  classical
  induction N with
  | zero => exact ⟨1, le_refl _, fun q hq => absurd hq (by omega)⟩
  | succ N ih =>
    obtain ⟨K, hK, h1⟩ := ih fun q hq => h q (by omega)
    by_cases hP : P N
    · obtain ⟨L, hL, h2⟩ := h N (by omega) hP
      refine ⟨max K L, le_trans hK (le_max_left _ _), fun q hq hPq i hi => ?_⟩
      rcases Nat.lt_succ_iff_lt_or_eq.mp hq with hlt | rfl
      · exact Near.up (le_max_left _ _) (h1 q hlt hPq) i hi
      · exact Near.up (le_max_right _ _) h2 i hi
    · refine ⟨K, hK, fun q hq hPq => ?_⟩
      rcases Nat.lt_succ_iff_lt_or_eq.mp hq with hlt | rfl
      · exact h1 q hlt hPq
      · exact absurd hPq hP

/-- The largest of finitely many absolute values, at least `b`. -/
theorem exists_max (f : Nat → ℝ) (b : ℝ) (n : Nat) :
    ∃ M, b ≤ M ∧ (∀ q, q < n → |f q| ≤ M) ∧ (M = b ∨ ∃ q, q < n ∧ M = |f q|) := by
  induction n with
  | zero => exact ⟨b, le_refl _, fun q hq => absurd hq (by omega), Or.inl rfl⟩
  | succ n ih =>
    obtain ⟨M, h1, h2, h3⟩ := ih
    by_cases h : |f n| ≤ M
    · refine ⟨M, h1, fun q hq => ?_, ?_⟩
      · rcases Nat.lt_succ_iff_lt_or_eq.mp hq with hlt | rfl
        · exact h2 q hlt
        · exact h
      · rcases h3 with h3 | ⟨q, hq, h3⟩
        · exact Or.inl h3
        · exact Or.inr ⟨q, by omega, h3⟩
    · refine ⟨|f n|, by linarith, fun q hq => ?_, Or.inr ⟨n, by omega, rfl⟩⟩
      rcases Nat.lt_succ_iff_lt_or_eq.mp hq with hlt | rfl
      · have := h2 q hlt; linarith
      · exact le_refl _

/-- A displacement field and a macro strain in a format. -/
structure FpRun (c : Cfg ℝ) where
  fp : Fp
  eta : fp.eta ≤ fp.u ^ 2
  c' : Cfg (Fl fp)
  comp : Computed c' c
  u : Nat → Fl fp
  vo : Buf (Fl fp)
  f : Nat → Fl fp
  eps : Nat → Fl fp
  M : ℝ
  one_le : 1 ≤ M
  u_le : ∀ q, q < c.nn * c.dim → |(u q).val| ≤ M
  eps_le : ∀ v, v < c.nvoi → |(eps v).val| ≤ M

def FpRun.fam (c : Cfg ℝ) : Fam (FpRun c) := ⟨FpRun.fp, FpRun.M, FpRun.one_le, FpRun.eta⟩

variable {c : Cfg ℝ}

/-- Residual, average stress and prescribed displacements are computed with small errors. -/
theorem FpRun.errors (hc : c.Ok) (hg : c.Geom) (he : c.Elastic) :
    ∃ K, 1 ≤ K ∧ ∀ R : FpRun c, K * R.fp.u ≤ 1 →
      (∀ q, q < c.nn * c.dim → |(R.c'.residV R.u R.vo R.f q).val
        - (if c.fe.Bd q then 0 else -c.fe.force (c.fe.stress c.law fun q => (R.u q).val) q)|
          ≤ K * R.fp.u * R.M) ∧
      (∀ v, v < c.nvoi → |(R.c'.aveV R.u R.vo v).val
        - c.thick * c.fe.aveStress (c.fe.stress c.law fun q => (R.u q).val) v| ≤ K * R.fp.u * R.M) ∧
      (∀ q, q < c.nn * c.dim → c.fe.Bd q → |(R.c'.displV R.eps R.u q).val
        - c.fe.affine (c.fe.symGrad fun v => (R.eps v).val) (fun _ => 0) q| ≤ K * R.fp.u * R.M ∧
        |c.fe.affine (c.fe.symGrad fun v => (R.eps v).val) (fun _ => 0) q| ≤ K * R.M) := by
  have hN : NearCfg (FpRun.fam c) (fun R => R.c') c := Computed.near (fun R => R.comp) hc hg he
  have hu : NearV (FpRun.fam c) (c.nn * c.dim) (fun R => R.u) (fun R q => (R.u q).val) :=
    fun q hq => NearF.self fun R => R.u_le q hq
  have hE : NearV (FpRun.fam c) c.nvoi (fun R => R.eps) (fun R v => (R.eps v).val) :=
    fun q hq => NearF.self fun R => R.eps_le q hq
  obtain ⟨K1, k1, h1⟩ := Near.all (S := FpRun.fam c) (d := 1) (N := c.nn * c.dim) (P := fun _ => True)
    (a := fun q R => (R.c'.residV R.u R.vo R.f q).val)
    (x := fun q R => c.residV (fun q => (R.u q).val) ⟨0, fun _ => 0⟩ (fun _ => 0) q)
    fun q hq _ => near_residV hN hc hu (fun R => R.vo) (fun _ => ⟨0, fun _ => 0⟩) (fun R => R.f)
      (fun _ _ => 0) hq
  obtain ⟨K2, k2, h2⟩ := Near.all (S := FpRun.fam c) (d := 1) (N := c.nvoi) (P := fun _ => True)
    (a := fun v R => (R.c'.aveV R.u R.vo v).val)
    (x := fun v R => c.aveV (fun q => (R.u q).val) ⟨0, fun _ => 0⟩ v)
    fun v hv _ => near_aveV hN hc hu (fun R => R.vo) (fun _ => ⟨0, fun _ => 0⟩) hv
  obtain ⟨K3, k3, h3⟩ := Near.all (S := FpRun.fam c) (d := 1) (N := c.nn * c.dim) (P := fun q => c.OnBdry q)
    (a := fun q R => (R.c'.displV R.eps R.u q).val)
    (x := fun q R => c.displV (fun v => (R.eps v).val) (fun q => (R.u q).val) q)
    fun q hq hb => near_displV hN.toNearGrid hc hE (fun R => R.u) (fun R q => (R.u q).val) hq hb
  refine ⟨max K1 (max K2 K3), le_trans k1 (le_max_left _ _), fun R hR => ⟨?_, ?_, ?_⟩⟩
  · intro q hq
    have := (Near.up (le_max_left _ _) (h1 q hq trivial) R hR).1
    rw [residV_real hc he _ _ _ hq, pow_one] at this
    exact this
  · intro v hv
    have := (Near.up (le_trans (le_max_left _ _) (le_max_right _ _)) (h2 v hv trivial) R hR).1
    rw [aveV_real hc hg he _ _ hv, pow_one] at this
    exact this
  · intro q hq hb
    have := Near.up (le_trans (le_max_right _ _) (le_max_right _ _)) (h3 q hq ((onBdry_iff hc q).mpr hb)) R hR
    rw [displV_real hc hg.toDivided _ _ q (by rw [c.fe_nn hc]; exact hq) hb, pow_one] at this
    exact this

theorem Spec.Computed.ok {fp : Fp} {c' : Cfg (Fl fp)} (h : Computed c' c) (hc : c.Ok) : c'.Ok := by
  refine ⟨?_, ?_, ?_, ?_, ?_, ?_, ?_⟩
  · rw [h.dim]; exact hc.dim
  · rw [h.nx]; exact hc.nx
  · rw [h.ny]; exact hc.ny
  · rw [h.dim, h.nz]; exact hc.nz2
  · rw [h.dim, h.nz]; exact hc.nz3
  · have : c'.nelem = c.nelem := by unfold Cfg.nelem; rw [h.dim, h.nx, h.ny, h.nz]
    rw [h.size, this]; exact hc.elem
  · rw [h.micro]; exact hc.micro

theorem Spec.Computed.nvoi {fp : Fp} {c' : Cfg (Fl fp)} (h : Computed c' c) : c'.nvoi = c.nvoi := by
  unfold Cfg.nvoi; rw [h.dim]

theorem Spec.Computed.dofs {fp : Fp} {c' : Cfg (Fl fp)} (h : Computed c' c) :
    c'.nn * c'.dim = c.nn * c.dim := by
  unfold Cfg.nn; rw [h.dim, h.nx, h.ny, h.nz]

theorem Spec.Computed.onBdry {fp : Fp} {c' : Cfg (Fl fp)} (h : Computed c' c) (q : Nat) :
    c'.OnBdry q ↔ c.OnBdry q := by
  unfold Cfg.OnBdry; rw [h.dim, h.nx, h.ny, h.nz]

/-- The homogenised stiffness times the strain is the average stress of the equilibrium field. -/
theorem stiff_sol (hc : c.Ok) (hg : c.Geom) (he : c.Elastic) {C : Nat → Nat → ℝ}
    (hC : Props.IsStiffness c C) (eps : Nat → ℝ) :
    ∃ y : Nat → ℝ, c.fe.OnBd eps y ∧
      (∀ r, r < c.fe.nn * c.fe.dim → ¬ c.fe.Bd r → c.fe.force (c.fe.stress c.law y) r = 0) ∧
      ∀ v, v < c.nvoi → c.thick * c.fe.aveStress (c.fe.stress c.law y) v
        = ∑ j ∈ range c.nvoi, C v j * eps j := by
  obtain ⟨w, hw⟩ := Work.exists_ok hc
  obtain ⟨u, hq⟩ := Props.equilibrium_exists hc hg he hw eps
  obtain ⟨a, a1, a2⟩ := hC _ _ hq
  refine ⟨u.val, hq.onBd hc,
    (Props.equil_law hc he _ _).mp ((Props.zeroResidual_iff hc hq.work).mp hq.residual), fun v hv => ?_⟩
  rw [← a2 v hv, calcAveStress_gen hc hq.work a1, aveV_real hc hg he _ _ hv]

/-- The stress of a rounded field with small residual is near the homogenised one. -/
theorem rounded_close (hc : c.Ok) (hg : c.Geom) (he : c.Elastic) :
    ∃ K u0 : ℝ, 0 < K ∧ 0 < u0 ∧ ∀ (fp : Fp), fp.u ≤ u0 → fp.eta ≤ fp.u ^ 2 →
      ∀ (c' : Cfg (Fl fp)), Computed c' c → ∀ (u eps : Nat → Fl fp) (x : Nat → Fl fp) (vo : Buf (Fl fp))
        (f : Nat → Fl fp) (T M : ℝ), 0 ≤ T → T ≤ 1 → 1 ≤ M →
      (∀ v, v < c.nvoi → |(eps v).val| ≤ M) →
      (∀ q, q < c.nn * c.dim → c.fe.Bd q → u q = c'.displV eps x q) →
      (∀ q, q < c.nn * c.dim → |(c'.residV u vo f q).val| ≤ T) →
      ∀ C, Props.IsStiffness c C → ∀ v, v < c.nvoi →
        |(c'.aveV u vo v).val - ∑ j ∈ range c.nvoi, C v j * (eps j).val| ≤ K * (T + fp.u * M) := by
  obtain ⟨K, hK, H⟩ := FpRun.errors hc hg he
  obtain ⟨L, hL, HL⟩ := Fe.stable (c.good hc hg) (c.law_ok hc he)
  have ht := Props.thick_pos hc hg
  set t := c.thick
  have hN := c.fe_nn hc
  let D := 2 * (L * K + 1 + L)
  have hD : 0 < D := by positivity
  refine ⟨K * D + t * L * (1 + K * D), 1 / (2 * K * (L + 1)), by positivity, by positivity, ?_⟩
  intro fp hu heta c' hcomp u eps x vo f T M hT hT1 hM heps hbd hres C hC v hv
  have hu0 := fp.u_nonneg
  have hKu : K * fp.u ≤ 1 / (2 * (L + 1)) := by
    calc K * fp.u ≤ K * (1 / (2 * K * (L + 1))) := mul_le_mul_of_nonneg_left hu (by linarith)
      _ = 1 / (2 * (L + 1)) := by field_simp
  have hKu1 : K * fp.u ≤ 1 := by
    refine le_trans hKu ?_
    rw [div_le_one (by positivity)]; linarith
  have hLKu : L * (K * fp.u) ≤ 1 / 2 := by
    refine le_trans (mul_le_mul_of_nonneg_left hKu hL.le) ?_
    rw [mul_one_div, div_le_div_iff₀ (by positivity) (by norm_num)]
    linarith
  obtain ⟨y, y1, y2, y3⟩ := stiff_sol hc hg he hC fun v => (eps v).val
  -- the magnitude
  obtain ⟨B, hB, hB1, hB2⟩ := exists_max (fun q => (u q).val) M (c.nn * c.dim)
  -- the field
  obtain ⟨e1, e2, -⟩ := H ⟨fp, heta, c', hcomp, u, vo, f, eps, B, le_trans hM hB, hB1,
    fun v hv => le_trans (heps v hv) hB⟩ hKu1
  -- its boundary values
  have e3 := (H ⟨fp, heta, c', hcomp, fun _ => 0, vo, f, eps, M, hM,
    fun q _ => by show |(0 : ℝ)| ≤ M; rw [abs_zero]; linarith, heps⟩ hKu1).2.2
  have e4 : ∀ q, q < c.nn * c.dim → c.fe.Bd q →
      |(u q).val - c.fe.affine (c.fe.symGrad fun v => (eps v).val) (fun _ => 0) q| ≤ K * fp.u * M := by
    intro q hq hb
    have h1 := (e3 q hq hb).1
    have h2 : c'.displV eps (fun _ => 0) q = c'.displV eps x q := by
      have hb' := (hcomp.onBdry q).mpr ((onBdry_iff hc q).mpr hb)
      have hq' := hcomp.dofs ▸ hq
      unfold Cfg.OnBdry at hb'
      unfold Cfg.displV
      rcases (hcomp.ok hc).dim with hd | hd
      · rw [if_pos hd] at hb' ⊢
        rw [if_pos hd]
        rw [(hcomp.ok hc).nn2 hd, hd] at hq'
        unfold displ2
        rw [if_pos ⟨hq', hb'⟩, if_pos ⟨hq', hb'⟩]
      · rw [if_neg (by omega)] at hb' ⊢
        rw [if_neg (by omega)]
        rw [hd] at hq'
        unfold displ3
        rw [if_pos ⟨hq', hb'⟩, if_pos ⟨hq', hb'⟩]
    rw [hbd q hq hb, ← h2]
    exact h1
  have hKuM : 0 ≤ K * fp.u * M := by positivity
  have hKuB : K * fp.u * M ≤ K * fp.u * B := mul_le_mul_of_nonneg_left hB (by positivity)
  -- the equilibrium field
  obtain ⟨y4, -⟩ := HL y (K * M) (by positivity)
    (fun r hr hb => by
      rw [y1 r hr hb]; rw [hN] at hr
      exact (e3 r hr hb).2)
    (fun r hr hb => by rw [y2 r hr hb, abs_zero]; positivity)
  -- the difference
  obtain ⟨z1, z2⟩ := HL (fun r => 1 * (u r).val + (-1) * y r) (T + K * fp.u * B) (by linarith)
    (fun r hr hb => by
      have h1 := y1 r hr hb
      rw [hN] at hr
      have h2 := e4 r hr hb
      rw [← h1] at h2
      rw [show 1 * (u r).val + (-1) * y r = (u r).val - y r by ring]
      linarith)
    (fun r hr hb => by
      rw [Fe.force_lin (c.law_ok hc he), y2 r hr hb]
      rw [hN] at hr
      have h1 := e1 r hr
      rw [if_neg hb] at h1
      have h2 := hres r hr
      have h1 := abs_le.mp h1
      have h2 := abs_le.mp h2
      rw [abs_le]
      have h1' : -(K * fp.u * B) ≤ (c'.residV u vo f r).val
        - -c.fe.force (c.fe.stress c.law fun q => (u q).val) r := h1.1
      have h1'' : (c'.residV u vo f r).val
        - -c.fe.force (c.fe.stress c.law fun q => (u q).val) r ≤ K * fp.u * B := h1.2
      constructor <;> linarith)
  rw [hN] at y4 z1
  have hBM : B ≤ D * M := by
    have hB0 : 0 ≤ B := by linarith
    have hM0 : 0 ≤ M := by linarith
    have hcase : B ≤ M + L * (K * M) + L * (T + K * fp.u * B) := by
      rcases hB2 with h | ⟨q, hq, h⟩
      · have : 0 ≤ L * (K * M) + L * (T + K * fp.u * B) := by positivity
        linarith
      · have h1 := z1 q hq
        have h2 := y4 q hq
        have h3 : |(u q).val| ≤ |1 * (u q).val + (-1) * y q| + |y q| := by
          calc |(u q).val| = |(1 * (u q).val + (-1) * y q) + y q| := by ring_nf
            _ ≤ _ := abs_add_le _ _
        have h4 : B = |(u q).val| := h
        linarith
    have h1 : L * (K * fp.u * B) ≤ 1 / 2 * B := by
      have := mul_le_mul_of_nonneg_right hLKu (show 0 ≤ B by linarith)
      nlinarith
    have h2 : L * T ≤ L * M := mul_le_mul_of_nonneg_left (by linarith) hL.le
    show B ≤ 2 * (L * K + 1 + L) * M
    nlinarith
  have hv' : v < c.fe.nvoi := by rw [c.fe_nvoi]; exact hv
  have z3 := z2 v hv'
  rw [Fe.aveStress_lin (c.law_ok hc he) _ _ _ _ hv'] at z3
  have e5 : |(c'.aveV u vo v).val - t * c.fe.aveStress (c.fe.stress c.law fun q => (u q).val) v|
    ≤ K * fp.u * B := e2 v hv
  rw [← y3 v hv]
  have hfin : |(c'.aveV u vo v).val - t * c.fe.aveStress (c.fe.stress c.law y) v|
      ≤ K * fp.u * B + t * (L * (T + K * fp.u * B)) := by
    calc _ = |((c'.aveV u vo v).val - t * c.fe.aveStress (c.fe.stress c.law fun q => (u q).val) v)
        + t * (1 * c.fe.aveStress (c.fe.stress c.law fun q => (u q).val) v
          + -1 * c.fe.aveStress (c.fe.stress c.law y) v)| := by ring_nf
      _ ≤ _ := abs_add_le _ _
      _ ≤ _ := by
        rw [abs_mul, abs_of_pos ht]
        exact add_le_add e5 (mul_le_mul_of_nonneg_left z3 ht.le)
  refine le_trans hfin ?_
  have h1 : K * fp.u * B ≤ K * D * (T + fp.u * M) := by
    have : K * fp.u * B ≤ K * fp.u * (D * M) := mul_le_mul_of_nonneg_left hBM (by positivity)
    have : 0 ≤ K * D * T := by positivity
    nlinarith
  have h2 : T ≤ 1 * (T + fp.u * M) := by nlinarith
  have h3 : t * (L * (T + K * fp.u * B)) ≤ t * (L * ((1 + K * D) * (T + fp.u * M))) := by
    refine mul_le_mul_of_nonneg_left (mul_le_mul_of_nonneg_left ?_ hL.le) ht.le
    linarith
  nlinarith

end Verif
