import Verif.Lemmas.PlasticMore
import Verif.Lemmas.Stress
import Mathlib.Topology.Algebra.Order.Field
import Mathlib.Topology.MetricSpace.Pseudo.Pi

/-!
# Plasticity: properties C32 to C37

Tensors are read through their six components 11, 22, 33, 12, 13, 23.
-/

namespace Verif.Props
open Spec

/-- A material the constructor can build, as far as plasticity is concerned: positive shear
modulus, no softening, non-negative yield stress for the hardening variable `a`. -/
structure PlasticOk (m : Material ℝ) (a : ℝ) : Prop where
  mu : 0 < m.mu
  Ka : 0 ≤ m.Ka
  yield : 0 ≤ m.Sy + m.Ka * a

theorem PlasticOk.radius {m : Material ℝ} {a : ℝ} (h : PlasticOk m a) :
    0 ≤ yieldRadius m.Sy m.Ka a := mul_nonneg sqrt_two_thirds_pos.le h.yield

/-- The material of the examples: `mu = 1`, hardening modulus `Ka`, yield stress `Sy`. -/
noncomputable def exMat (Sy Ka : ℝ) (pl : Bool) : Material ℝ :=
  { E := 5 / 2, nu := 1 / 4, k := 5 / 3, mu := 1, lambda := 1, Ka := Ka, Sy := Sy,
    plasticity := pl, damage := false }

theorem exMat_ok {Sy Ka a : ℝ} (hS : 0 ≤ Sy) (hK : 0 ≤ Ka) (ha : 0 ≤ a) (pl : Bool) :
    PlasticOk (exMat Sy Ka pl) a :=
  ⟨by simp [exMat], hK, by simp only [exMat]; positivity⟩

/-- A uniaxial-type strain `(1, -1, 0, s, 0, 0)`. -/
def exStrain (s : ℝ) (i : Nat) : ℝ := if i = 0 then 1 else if i = 1 then -1 else if i = 3 then s else 0

/-- The example strain yields: its trial stress has norm at least `2`. -/
theorem exStrain_yields (Sy Ka s : ℝ) (hS : Sy ≤ 1) (pl : Bool) :
    (plasticStep (exMat Sy Ka pl) (exStrain s) (fun _ => 0) 0).nl = true := by
  rw [plasticStep_nl]
  have h1 : stressNorm (sigTrial (exMat Sy Ka pl) (exStrain s) (fun _ => 0)) ^ 2
      = 8 + 2 * s ^ 2 := by
    rw [stressNorm_sq]
    simp only [sigTrial_real, dev, tr, exStrain, exMat]
    norm_num
  have h2 : yieldRadius (exMat Sy Ka pl).Sy (exMat Sy Ka pl).Ka 0 ≤ 1 := by
    unfold yieldRadius exMat
    simp only [mul_zero, add_zero]
    have h3 : Real.sqrt (2 / 3) ≤ 1 := Real.sqrt_le_one.mpr (by norm_num)
    nlinarith [Real.sqrt_nonneg (2 / 3 : ℝ)]
  nlinarith [stressNorm_nonneg (sigTrial (exMat Sy Ka pl) (exStrain s) (fun _ => 0)), sq_nonneg s]

/-! ### C34 -/

/-- Hardening variable: increases exactly when plastic flow is reported. -/
theorem C34_hardening (m : Material ℝ) (eps epsP : Nat → ℝ) (alpha : ℝ) (hmu : 0 < m.mu) :
    alpha ≤ (plasticStep m eps epsP alpha).alpha ∧
    (alpha < (plasticStep m eps epsP alpha).alpha ↔ (plasticStep m eps epsP alpha).nl = true) := by
  by_cases h : 0 < fTrial m eps epsP alpha
  · rw [plasticStep_flow m eps epsP alpha h]
    have : 0 < Real.sqrt (2 / 3) * (fTrial m eps epsP alpha / (2 * m.mu)) :=
      mul_pos sqrt_two_thirds_pos (by positivity)
    exact ⟨by simp only; linarith, by simp only [iff_true]; linarith⟩
  · rw [plasticStep_elastic m eps epsP alpha h]; simp

example : (0 : ℝ) < (plasticStep (exMat 1 1 true) (exStrain 1) (fun _ => 0) 0).alpha :=
  ((C34_hardening _ _ _ _ (by norm_num [exMat])).2).mpr (exStrain_yields 1 1 1 le_rfl true)

/-- Plastic flow is isochoric, and without flow nothing is changed. -/
theorem C34_isochoric (m : Material ℝ) (eps epsP : Nat → ℝ) (alpha : ℝ) :
    tr (plasticStep m eps epsP alpha).epsP = tr epsP ∧
    ((plasticStep m eps epsP alpha).nl = false →
      (plasticStep m eps epsP alpha).epsP = epsP ∧ (plasticStep m eps epsP alpha).alpha = alpha) := by
  refine ⟨plasticStep_eps_tr m eps epsP alpha, fun hnl => ?_⟩
  by_cases h : 0 < fTrial m eps epsP alpha
  · rw [plasticStep_flow m eps epsP alpha h] at hnl; cases hnl
  · rw [plasticStep_elastic m eps epsP alpha h]; exact ⟨rfl, rfl⟩

/-- With flow. -/
example : (plasticStep (exMat 1 1 true) (exStrain 1) (fun i => i) 0).nl = true →
    tr (plasticStep (exMat 1 1 true) (exStrain 1) (fun i => i) 0).epsP = 3 := fun _ => by
  rw [(C34_isochoric _ _ _ _).1]; norm_num [tr]

/-- The mean stress depends on the strain only. -/
theorem C34_mean (m : Material ℝ) (eps epsP epsP' : Nat → ℝ) (alpha alpha' : ℝ) :
    tr (plasticStep m eps epsP alpha).stress / 3 = m.k * tr eps ∧
    tr (plasticStep m eps epsP alpha).stress = tr (plasticStep m eps epsP' alpha').stress := by
  rw [plasticStep_tr, plasticStep_tr]; exact ⟨by ring, rfl⟩

example : tr (plasticStep (exMat 1 1 true) (fun _ => 2) (fun i => i) 5).stress / 3 = (exMat 1 1 true).k * 6 := by
  rw [(C34_mean _ _ _ (fun _ => 0) _ 0).1]; norm_num [tr]

/-- Plastic work is non-negative, and positive when plastic flow is reported and the yield
radius is positive. -/
theorem C34_work (m : Material ℝ) (eps epsP : Nat → ℝ) (alpha : ℝ) (hm : PlasticOk m alpha) :
    0 ≤ power (plasticStep m eps epsP alpha).stress
      (fun i => (plasticStep m eps epsP alpha).epsP i - epsP i) ∧
    ((plasticStep m eps epsP alpha).nl = true → 0 < m.Sy + m.Ka * alpha →
      0 < power (plasticStep m eps epsP alpha).stress
        (fun i => (plasticStep m eps epsP alpha).epsP i - epsP i)) := by
  have hmu := hm.mu
  have hR := hm.radius
  by_cases h : 0 < fTrial m eps epsP alpha
  · have hf := fTrial_real m eps epsP alpha
    have hN : 0 < stressNorm (sigTrial m eps epsP) := by linarith
    have ht := sigTrial_tr m eps epsP
    have hdev := plasticStep_dev m eps epsP alpha hmu.ne' hR
    have hfac := retFactor_nonneg hN.le hR
    have hpos : 0 < m.Sy + m.Ka * alpha →
        0 < retFactor (stressNorm (sigTrial m eps epsP)) (yieldRadius m.Sy m.Ka alpha) := by
      intro hy
      have : 0 < yieldRadius m.Sy m.Ka alpha := mul_pos sqrt_two_thirds_pos hy
      unfold retFactor
      rw [if_pos (by linarith)]
      positivity
    have hps : ∀ i, (plasticStep m eps epsP alpha).epsP i - epsP i
        = fTrial m eps epsP alpha / (2 * m.mu) / stressNorm (sigTrial m eps epsP)
          * sigTrial m eps epsP i := by
      intro i; rw [plasticStep_flow m eps epsP alpha h]; ring
    have hd : 0 < fTrial m eps epsP alpha / (2 * m.mu) / stressNorm (sigTrial m eps epsP) := by
      positivity
    have hpow : power (plasticStep m eps epsP alpha).stress
        (fun i => (plasticStep m eps epsP alpha).epsP i - epsP i)
        = fTrial m eps epsP alpha / (2 * m.mu) / stressNorm (sigTrial m eps epsP)
          * (retFactor (stressNorm (sigTrial m eps epsP)) (yieldRadius m.Sy m.Ka alpha)
            * (sigTrial m eps epsP 0 ^ 2 + sigTrial m eps epsP 1 ^ 2 + sigTrial m eps epsP 2 ^ 2
              + sigTrial m eps epsP 3 ^ 2 + sigTrial m eps epsP 4 ^ 2
              + sigTrial m eps epsP 5 ^ 2)) := by
      unfold power
      simp only [hps]
      have d0 := hdev 0 (by omega)
      have d1 := hdev 1 (by omega)
      have d2 := hdev 2 (by omega)
      have d3 := hdev 3 (by omega)
      have d4 := hdev 4 (by omega)
      have d5 := hdev 5 (by omega)
      simp only [dev, show (0:Nat) < 3 by omega, show (1:Nat) < 3 by omega,
        show (2:Nat) < 3 by omega, show ¬ (3:Nat) < 3 by omega, show ¬ (4:Nat) < 3 by omega,
        show ¬ (5:Nat) < 3 by omega, if_true, if_false] at d0 d1 d2 d3 d4 d5
      generalize (plasticStep m eps epsP alpha).stress = S at *
      generalize fTrial m eps epsP alpha / (2 * m.mu) / stressNorm (sigTrial m eps epsP) = dl at *
      generalize retFactor (stressNorm (sigTrial m eps epsP)) (yieldRadius m.Sy m.Ka alpha) = rf at *
      generalize sigTrial m eps epsP = s at *
      unfold tr at ht
      linear_combination dl * s 0 * d0 + dl * s 1 * d1 + dl * s 2 * d2 + dl * s 3 * d3
        + dl * s 4 * d4 + dl * s 5 * d5 + dl * tr S / 3 * ht
    have hsum : 0 < sigTrial m eps epsP 0 ^ 2 + sigTrial m eps epsP 1 ^ 2
        + sigTrial m eps epsP 2 ^ 2 + sigTrial m eps epsP 3 ^ 2 + sigTrial m eps epsP 4 ^ 2
        + sigTrial m eps epsP 5 ^ 2 := by
      have h2 := stressNorm_sq (sigTrial m eps epsP)
      have : 0 < stressNorm (sigTrial m eps epsP) ^ 2 := by positivity
      nlinarith [sq_nonneg (sigTrial m eps epsP 0), sq_nonneg (sigTrial m eps epsP 1),
        sq_nonneg (sigTrial m eps epsP 2)]
    rw [hpow]
    exact ⟨mul_nonneg hd.le (mul_nonneg hfac hsum.le),
      fun _ hy => mul_pos hd (mul_pos (hpos hy) hsum)⟩
  · rw [plasticStep_elastic m eps epsP alpha h]
    simp [power]

example : 0 < power (plasticStep (exMat 1 1 true) (exStrain 1) (fun _ => 0) 0).stress
    (fun i => (plasticStep (exMat 1 1 true) (exStrain 1) (fun _ => 0) 0).epsP i - 0) :=
  (C34_work _ _ _ _ (exMat_ok zero_le_one zero_le_one le_rfl true)).2
    (exStrain_yields 1 1 1 le_rfl true) (by norm_num [exMat])

/-- A history: the internal variables after a list of strains, each evaluated with the internal
variables left by the previous one. -/
noncomputable def history (m : Material ℝ) : List (Nat → ℝ) → (Nat → ℝ) × ℝ → (Nat → ℝ) × ℝ
  | [], s => s
  | e :: es, s => history m es ((plasticStep m e s.1 s.2).epsP, (plasticStep m e s.1 s.2).alpha)

/-- Along every history the hardening variable never decreases, the plastic strain keeps its
trace, and a history that leaves the hardening variable unchanged leaves the state unchanged. -/
theorem C34_history (m : Material ℝ) (hmu : 0 < m.mu) (es : List (Nat → ℝ)) (s : (Nat → ℝ) × ℝ) :
    s.2 ≤ (history m es s).2 ∧ tr (history m es s).1 = tr s.1 ∧
      ((history m es s).2 = s.2 → history m es s = s) := by
  induction es generalizing s with
  | nil => exact ⟨le_rfl, rfl, fun _ => rfl⟩
  | cons e es ih =>
    obtain ⟨h1, h2, h3⟩ := ih ((plasticStep m e s.1 s.2).epsP, (plasticStep m e s.1 s.2).alpha)
    have ha := C34_hardening m e s.1 s.2 hmu
    have hi := C34_isochoric m e s.1 s.2
    refine ⟨le_trans ha.1 h1, h2.trans hi.1, fun heq => ?_⟩
    simp only [history] at heq ⊢
    have hal : (plasticStep m e s.1 s.2).alpha = s.2 := by
      have := ha.1; simp only at h1; linarith
    have hnl : (plasticStep m e s.1 s.2).nl = false := by
      by_contra hc
      have := ha.2.mpr (by simpa using hc)
      linarith
    obtain ⟨hp, hq⟩ := hi.2 hnl
    rw [hp, hq] at h3 ⊢
    rw [hp, hq] at heq
    exact h3 heq

example : (0 : ℝ) < (history (exMat 1 1 true) [exStrain 1, exStrain 0] (fun _ => 0, 0)).2 := by
  have h := (C34_history (exMat 1 1 true) (by norm_num [exMat]) [exStrain 0]
    ((plasticStep (exMat 1 1 true) (exStrain 1) (fun _ => 0) 0).epsP,
     (plasticStep (exMat 1 1 true) (exStrain 1) (fun _ => 0) 0).alpha)).1
  have h2 := ((C34_hardening (exMat 1 1 true) (exStrain 1) (fun _ => 0) 0
    (by norm_num [exMat])).2).mpr (exStrain_yields 1 1 1 le_rfl true)
  exact lt_of_lt_of_le h2 h

/-! ### C32, C33 -/

theorem yieldRadius_mono {Sy Ka a b : ℝ} (hK : 0 ≤ Ka) (h : a ≤ b) :
    yieldRadius Sy Ka a ≤ yieldRadius Sy Ka b := by
  unfold yieldRadius
  have := mul_le_mul_of_nonneg_left h hK
  exact mul_le_mul_of_nonneg_left (by linarith) sqrt_two_thirds_pos.le

/-- C32: the stress returned by `plastic_step` satisfies the yield inequality with the returned
hardening variable. -/
theorem C32_yield (m : Material ℝ) (eps epsP : Nat → ℝ) (alpha : ℝ) (hm : PlasticOk m alpha) :
    stressNorm (dev (plasticStep m eps epsP alpha).stress)
      ≤ yieldRadius m.Sy m.Ka (plasticStep m eps epsP alpha).alpha := by
  rw [plasticStep_norm m eps epsP alpha hm.mu.ne' hm.radius]
  have hmono := yieldRadius_mono (Sy := m.Sy) hm.Ka (C34_hardening m eps epsP alpha hm.mu).1
  split <;> linarith

/-- A strain that yields. -/
example : (plasticStep (exMat 1 1 true) (exStrain 1) (fun _ => 0) 0).nl = true ∧
    stressNorm (dev (plasticStep (exMat 1 1 true) (exStrain 1) (fun _ => 0) 0).stress)
      ≤ yieldRadius 1 1 (plasticStep (exMat 1 1 true) (exStrain 1) (fun _ => 0) 0).alpha :=
  ⟨exStrain_yields 1 1 1 le_rfl true,
    C32_yield (exMat 1 1 true) _ _ _ (exMat_ok zero_le_one zero_le_one le_rfl true)⟩

/-- The yield condition stays admissible along a history. -/
theorem C32_admissible (m : Material ℝ) (es : List (Nat → ℝ)) (s : (Nat → ℝ) × ℝ)
    (hm : PlasticOk m s.2) : PlasticOk m (history m es s).2 := by
  refine ⟨hm.mu, hm.Ka, ?_⟩
  have := mul_le_mul_of_nonneg_left (C34_history m hm.mu es s).1 hm.Ka
  have := hm.yield
  linarith

example : PlasticOk (exMat 1 1 true) (history (exMat 1 1 true) [exStrain 1, exStrain 0] (fun _ => 0, 0)).2 :=
  C32_admissible _ _ _ (exMat_ok zero_le_one zero_le_one le_rfl true)

/-- C32 along histories: after any history, evaluating any strain gives a stress inside the
yield surface of the hardening variable it returns. -/
theorem C32_history (m : Material ℝ) (es : List (Nat → ℝ)) (s : (Nat → ℝ) × ℝ) (eps : Nat → ℝ)
    (hm : PlasticOk m s.2) :
    stressNorm (dev (plasticStep m eps (history m es s).1 (history m es s).2).stress)
      ≤ yieldRadius m.Sy m.Ka (history m (es ++ [eps]) s).2 := by
  have happ : ∀ (es : List (Nat → ℝ)) (s : (Nat → ℝ) × ℝ), history m (es ++ [eps]) s
      = ((plasticStep m eps (history m es s).1 (history m es s).2).epsP,
         (plasticStep m eps (history m es s).1 (history m es s).2).alpha) := by
    intro es
    induction es with
    | nil => intro s; rfl
    | cons e es ih => intro s; simp only [List.cons_append, history]; exact ih _
  rw [happ]
  exact C32_yield m eps _ _ (C32_admissible m es s hm)

example : stressNorm (dev (plasticStep (exMat 1 1 true) (exStrain 3)
      (history (exMat 1 1 true) [exStrain 1] (fun _ => 0, 0)).1
      (history (exMat 1 1 true) [exStrain 1] (fun _ => 0, 0)).2).stress)
    ≤ yieldRadius 1 1 (history (exMat 1 1 true) [exStrain 1, exStrain 3] (fun _ => 0, 0)).2 :=
  C32_history (exMat 1 1 true) [exStrain 1] _ (exStrain 3)
    (exMat_ok zero_le_one zero_le_one le_rfl true)

/-- C32 for the API: `get_stress3D` on a plastic element gives a stress inside the yield surface
of the hardening variable it stores in `vars_new`. -/
theorem C32_get_stress (c : Cfg ℝ) (varsOld varsNew : Buf ℝ) (ex ey ez gp : Nat) (eps : Nat → ℝ)
    (out : StressOut ℝ) (m : Material ℝ)
    (hmat : getMaterial c (gloElem3D c.nx c.ny ex ey ez) = .ok m) (hpl : m.plasticity = true)
    (hout : getStress3D c varsOld varsNew ex ey ez gp eps = .ok out)
    (hm : PlasticOk m (varsOld.val (intvarIx (gloElem3D c.nx c.ny ex ey ez) gp 6))) :
    stressNorm (dev out.stress) ≤ yieldRadius m.Sy m.Ka
      (out.varsNew.val (intvarIx (gloElem3D c.nx c.ny ex ey ez) gp 6)) := by
  have ht : c.microType = 0 ∨ c.microType = 1 := by
    by_contra hc; unfold getMaterial at hmat; rw [if_neg hc] at hmat; cases hmat
  have he : gloElem3D c.nx c.ny ex ey ez < c.elemType.size := by
    by_contra hc
    unfold getMaterial Buf.read at hmat
    rw [if_pos ht, if_neg hc] at hmat; cases hmat
  have hmm : m = matOf c (gloElem3D c.nx c.ny ex ey ez) := by
    rw [getMaterial_eq ht he] at hmat; cases hmat; rfl
  have hO : intvarIx (gloElem3D c.nx c.ny ex ey ez) gp 6 < varsOld.size := by
    by_contra hc
    unfold getStress3D at hout
    simp only [hmat, M_bind_ok', hpl, if_true] at hout
    cases hg : gather 6 varsOld (fun i => intvarIx (gloElem3D c.nx c.ny ex ey ez) gp i) with
    | error e => rw [hg] at hout; cases hout
    | ok p =>
      rw [hg] at hout
      simp only [M_bind_ok', Buf.read, if_neg hc] at hout
      cases hout
  have hN : intvarIx (gloElem3D c.nx c.ny ex ey ez) gp 6 < varsNew.size := by
    by_contra hc
    unfold getStress3D at hout
    simp only [hmat, M_bind_ok', hpl, if_true] at hout
    rw [gather_eq (by intro i hi; rw [intvarIx_eq] at hO ⊢; omega), M_bind_ok',
      Buf.read_ok hO, M_bind_ok'] at hout
    have key : ∀ (r : PlasticOut ℝ) n (v : Buf ℝ), v.size = varsNew.size →
        ∀ v', loop n (fun i v => v.write (intvarIx (gloElem3D c.nx c.ny ex ey ez) gp i)
          (r.epsP i)) v = .ok v' → v'.size = varsNew.size := by
      intro r n
      induction n with
      | zero => intro v hv v' h; cases h; exact hv
      | succ n ih =>
        intro v hv v' h
        rw [loop_succ] at h
        cases hl : loop n (fun i v => v.write (intvarIx (gloElem3D c.nx c.ny ex ey ez) gp i)
          (r.epsP i)) v with
        | error e => rw [hl] at h; cases h
        | ok v1 =>
          rw [hl] at h
          have h1 := ih v hv v1 hl
          simp only [M_bind_ok, Buf.write] at h
          split at h
          · cases h; exact h1
          · cases h
    revert hout
    generalize (plasticStep m eps _ _ : PlasticOut ℝ) = r
    intro hout
    cases hl : loop 6 (fun i v => v.write (intvarIx (gloElem3D c.nx c.ny ex ey ez) gp i)
          (r.epsP i)) varsNew with
    | error e => rw [hl] at hout; cases hout
    | ok v1 =>
      rw [hl] at hout
      have h1 := key r 6 varsNew rfl v1 hl
      simp only [M_bind_ok', Buf.write] at hout
      rw [if_neg (by rw [h1]; exact hc)] at hout
      cases hout
  rw [getStress3D_eq ht he hO hN] at hout
  cases hout
  rw [← hmm]
  unfold stressOut
  simp only [hpl, if_true]
  have hix : (putVars (gloElem3D c.nx c.ny ex ey ez) gp
      (plasticStep m eps (epsPAt varsOld (gloElem3D c.nx c.ny ex ey ez) gp)
        (alphaAt varsOld (gloElem3D c.nx c.ny ex ey ez) gp)) varsNew).val
      (intvarIx (gloElem3D c.nx c.ny ex ey ez) gp 6)
      = (plasticStep m eps (epsPAt varsOld (gloElem3D c.nx c.ny ex ey ez) gp)
        (alphaAt varsOld (gloElem3D c.nx c.ny ex ey ez) gp)).alpha := by
    simp only [putVars, intvarIx_eq, mul_add_div' (show 6 < 7 by omega),
      mul_add_mod' (show 6 < 7 by omega), if_true]
  rw [hix]
  exact C32_yield m eps _ _ hm

/-- One plastic element with zero internal variables. -/
noncomputable def exCfg (Sy Ka : ℝ) (pl : Bool) : Cfg ℝ :=
  { dim := 3, nx := 2, ny := 2, nz := 2, lx := 1, ly := 1, lz := 1, dx := 1, dy := 1, dz := 1,
    width := 0, invTol := 0, microType := 0, mats := fun _ => exMat Sy Ka pl,
    elemType := ⟨1, fun _ => 0⟩, ctanLin := fun _ => 0 }

/-- Zeroed internal variables. -/
def exVars : Buf ℝ := ⟨56, fun _ => 0⟩

theorem exCfg_stress (Sy Ka : ℝ) (pl : Bool) (eps : Nat → ℝ) :
    getStress3D (exCfg Sy Ka pl) exVars exVars 0 0 0 0 eps =
      .ok (stressOut (exMat Sy Ka pl) exVars 0 0 eps exVars) :=
  getStress3D_eq (c := exCfg Sy Ka pl) (Or.inl rfl) (show 0 < 1 by omega)
    (show 6 < 56 by omega) (show 6 < 56 by omega)

example : stressNorm (dev (stressOut (exMat 1 1 true) exVars 0 0 (exStrain 1) exVars).stress)
    ≤ yieldRadius 1 1 ((stressOut (exMat 1 1 true) exVars 0 0 (exStrain 1) exVars).varsNew.val 6) :=
  C32_get_stress (exCfg 1 1 true) exVars exVars 0 0 0 0 (exStrain 1) _ (exMat 1 1 true)
    (getMaterial_eq (c := exCfg 1 1 true) (Or.inl rfl) (by decide)) rfl (exCfg_stress 1 1 true _)
    (exMat_ok zero_le_one zero_le_one le_rfl true)

/-- C33, what holds: with plastic flow the stress lies on the yield surface of the OLD hardening
variable, hence on the updated one exactly when there is no hardening.  The full claim
(`= yieldRadius m.Sy m.Ka (plasticStep …).alpha` for every `Ka`) is false: next theorem. -/
theorem C33_consistency_partial (m : Material ℝ) (eps epsP : Nat → ℝ) (alpha : ℝ)
    (hm : PlasticOk m alpha) (hnl : (plasticStep m eps epsP alpha).nl = true) :
    stressNorm (dev (plasticStep m eps epsP alpha).stress) = yieldRadius m.Sy m.Ka alpha ∧
    (stressNorm (dev (plasticStep m eps epsP alpha).stress)
      = yieldRadius m.Sy m.Ka (plasticStep m eps epsP alpha).alpha ↔ m.Ka = 0) := by
  have h1 := (plasticStep_nl m eps epsP alpha).mp hnl
  have h2 := (C34_hardening m eps epsP alpha hm.mu).2.mpr hnl
  rw [plasticStep_norm m eps epsP alpha hm.mu.ne' hm.radius, if_pos h1]
  refine ⟨rfl, ⟨fun h => ?_, fun h => ?_⟩⟩
  · unfold yieldRadius at h
    have h3 := mul_left_cancel₀ sqrt_two_thirds_pos.ne' h
    by_contra hK
    have hK' : 0 < m.Ka := lt_of_le_of_ne hm.Ka (Ne.symm hK)
    have := mul_lt_mul_of_pos_left h2 hK'
    linarith
  · unfold yieldRadius; rw [h]; ring

example : stressNorm (dev (plasticStep (exMat 1 0 true) (exStrain 1) (fun _ => 0) 0).stress)
    = yieldRadius 1 0 (plasticStep (exMat 1 0 true) (exStrain 1) (fun _ => 0) 0).alpha :=
  (C33_consistency_partial _ _ _ _ (exMat_ok zero_le_one le_rfl le_rfl true)
    (exStrain_yields 1 0 1 le_rfl true)).2.mpr rfl

/-- C33 is violated: for every positive hardening modulus there is a strain at which plastic flow
is reported and the stress is strictly inside the updated yield surface. -/
theorem C33_consistency_fails (Ka : ℝ) (hK : 0 < Ka) :
    ∃ (m : Material ℝ) (eps epsP : Nat → ℝ), m.Ka = Ka ∧ PlasticOk m 0 ∧
      (plasticStep m eps epsP 0).nl = true ∧
      stressNorm (dev (plasticStep m eps epsP 0).stress)
        < yieldRadius m.Sy m.Ka (plasticStep m eps epsP 0).alpha := by
  have hok := exMat_ok (Sy := 1) (Ka := Ka) (a := 0) zero_le_one hK.le le_rfl true
  have hy := exStrain_yields 1 Ka 1 le_rfl true
  refine ⟨exMat 1 Ka true, exStrain 1, fun _ => 0, rfl, hok, hy, ?_⟩
  refine lt_of_le_of_ne (C32_yield _ _ _ _ hok) fun h => hK.ne' ?_
  exact (C33_consistency_partial _ _ _ _ hok hy).2.mp h

/-! ### C35 -/

/-- Re-evaluation at the same strain with the updated internal variables. -/
noncomputable def again (m : Material ℝ) (eps epsP : Nat → ℝ) (alpha : ℝ) : PlasticOut ℝ :=
  plasticStep m eps (plasticStep m eps epsP alpha).epsP (plasticStep m eps epsP alpha).alpha

/-- C35, exactly when it holds: the re-evaluation gives the same stress and no further flow if
and only if there was no flow or the elastic trial strain has no shear components.  The full claim
(no condition) is false: `C35_idempotent_fails`. -/
theorem C35_idempotent_partial (m : Material ℝ) (eps epsP : Nat → ℝ) (alpha : ℝ)
    (hm : PlasticOk m alpha) :
    ((∀ i, i < 6 → (again m eps epsP alpha).stress i = (plasticStep m eps epsP alpha).stress i) ∧
      (again m eps epsP alpha).nl = false) ↔
    ((plasticStep m eps epsP alpha).nl = false ∨
      (eps 3 = epsP 3 ∧ eps 4 = epsP 4 ∧ eps 5 = epsP 5)) := by
  have hmu := hm.mu
  by_cases h : 0 < fTrial m eps epsP alpha
  · have hf := fTrial_real m eps epsP alpha
    have hR := hm.radius
    have hN : 0 < stressNorm (sigTrial m eps epsP) := by linarith
    have hnl : (plasticStep m eps epsP alpha).nl = true := by
      rw [plasticStep_flow m eps epsP alpha h]
    have hal := (C34_hardening m eps epsP alpha hmu).1
    have hR' := yieldRadius_mono (Sy := m.Sy) hm.Ka hal
    have hgain := sigTrial_again m eps epsP alpha hmu.ne' h
    have hdev := plasticStep_dev m eps epsP alpha hmu.ne' hR
    have hlt : yieldRadius m.Sy m.Ka alpha < stressNorm (sigTrial m eps epsP) := by linarith
    have hrf : retFactor (stressNorm (sigTrial m eps epsP)) (yieldRadius m.Sy m.Ka alpha)
        = 1 - fTrial m eps epsP alpha / stressNorm (sigTrial m eps epsP) := by
      unfold retFactor; rw [if_pos hlt, hf]; field_simp; ring
    have hsh : ∀ i, 3 ≤ i → (sigTrial m eps epsP i = 0 ↔ eps i = epsP i) := by
      intro i hi
      rw [sigTrial_real, if_neg (by omega)]
      simp only [dev, if_neg (show ¬ i < 3 by omega)]
      rw [mul_eq_zero]
      constructor
      · rintro (h | h)
        · exact absurd h hmu.ne'
        · linarith
      · intro h; right; linarith
    rw [← hsh 3 (by omega), ← hsh 4 (by omega), ← hsh 5 (by omega)]
    constructor
    · rintro ⟨hst, hag⟩
      right
      have hno : ¬ yieldRadius m.Sy m.Ka (plasticStep m eps epsP alpha).alpha
          < stressNorm (sigTrial m eps (plasticStep m eps epsP alpha).epsP) := by
        intro hc
        have := (plasticStep_nl m eps (plasticStep m eps epsP alpha).epsP
          (plasticStep m eps epsP alpha).alpha).mpr hc
        unfold again at hag; rw [hag] at this; cases this
      have hdev2 := plasticStep_dev m eps (plasticStep m eps epsP alpha).epsP
        (plasticStep m eps epsP alpha).alpha hmu.ne' (by linarith)
      have key : ∀ i, 3 ≤ i → i < 6 → sigTrial m eps epsP i = 0 := by
        intro i h3 h6
        have e1 := hdev2 i h6
        have e2 := hdev i h6
        have e3 := hst i h6
        unfold again at e3
        simp only [dev, if_neg (show ¬ i < 3 by omega)] at e1 e2
        rw [retFactor, if_neg hno, one_mul] at e1
        have e4 := hgain i
        rw [if_neg (by omega)] at e4
        rw [hrf] at e2
        have : fTrial m eps epsP alpha / stressNorm (sigTrial m eps epsP) / 2
            * sigTrial m eps epsP i = 0 := by linear_combination -e4 - e1 + e3 + e2
        rcases mul_eq_zero.mp this with hz | hz
        · have : 0 < fTrial m eps epsP alpha / stressNorm (sigTrial m eps epsP) / 2 := by positivity
          linarith
        · exact hz
      exact ⟨key 3 (by omega) (by omega), key 4 (by omega) (by omega), key 5 (by omega) (by omega)⟩
    · rintro (hc | ⟨h3, h4, h5⟩)
      · rw [hnl] at hc; cases hc
      have htr : ∀ i, i < 6 → sigTrial m eps (plasticStep m eps epsP alpha).epsP i
          = dev (plasticStep m eps epsP alpha).stress i := by
        intro i hi
        rw [hgain, hdev i hi, hrf]
        split
        · rfl
        · have : sigTrial m eps epsP i = 0 := by
            have : i = 3 ∨ i = 4 ∨ i = 5 := by omega
            rcases this with rfl | rfl | rfl <;> assumption
          rw [this]; ring
      have hnorm : stressNorm (sigTrial m eps (plasticStep m eps epsP alpha).epsP)
          = yieldRadius m.Sy m.Ka alpha := by
        rw [stressNorm_congr htr, plasticStep_norm m eps epsP alpha hmu.ne' hR, if_pos hlt]
      have hno : ¬ yieldRadius m.Sy m.Ka (plasticStep m eps epsP alpha).alpha
          < stressNorm (sigTrial m eps (plasticStep m eps epsP alpha).epsP) := by
        rw [hnorm]; linarith
      refine ⟨stress_of_dev_tr (fun i hi => ?_) ?_, ?_⟩
      · unfold again
        rw [plasticStep_dev m eps _ _ hmu.ne' (by linarith) i hi, retFactor, if_neg hno, one_mul,
          htr i hi]
      · unfold again; rw [plasticStep_tr, plasticStep_tr]
      · cases hc : (again m eps epsP alpha).nl with
        | false => rfl
        | true =>
          exact absurd ((plasticStep_nl m eps (plasticStep m eps epsP alpha).epsP
            (plasticStep m eps epsP alpha).alpha).mp hc) hno
  · have he := plasticStep_elastic m eps epsP alpha h
    have hag : again m eps epsP alpha = plasticStep m eps epsP alpha := by
      unfold again; rw [he]; simp only; exact he
    rw [hag]
    constructor
    · rintro ⟨_, h⟩; exact Or.inl h
    · intro _; exact ⟨fun _ _ => rfl, by rw [he]⟩

/-- The shear-free case is reachable with flow. -/
example : (again (exMat 1 1 true) (exStrain 0) (fun _ => 0) 0).nl = false ∧
    (plasticStep (exMat 1 1 true) (exStrain 0) (fun _ => 0) 0).nl = true :=
  ⟨((C35_idempotent_partial _ _ _ _ (exMat_ok zero_le_one zero_le_one le_rfl true)).mpr
    (Or.inr (by simp [exStrain]))).2, exStrain_yields 1 1 0 le_rfl true⟩

/-- C35 is violated: with a shear strain the updated internal variables are not consistent with
the returned stress. -/
theorem C35_idempotent_fails : ∃ (m : Material ℝ) (eps epsP : Nat → ℝ), PlasticOk m 0 ∧
    ¬ ((∀ i, i < 6 → (again m eps epsP 0).stress i = (plasticStep m eps epsP 0).stress i) ∧
      (again m eps epsP 0).nl = false) := by
  have hok := exMat_ok (Sy := 1) (Ka := 1) (a := 0) zero_le_one zero_le_one le_rfl true
  refine ⟨exMat 1 1 true, exStrain 1, fun _ => 0, hok, fun h => ?_⟩
  rcases (C35_idempotent_partial _ _ _ _ hok).mp h with h | h
  · rw [exStrain_yields 1 1 1 le_rfl true] at h; cases h
  · norm_num [exStrain] at h

/-! ### C36 -/

/-- C36: for a fixed history the deviatoric stress moves by at most `2 mu` times the change of the
deviatoric strain, whether or not the material yields in between. -/
theorem C36_nonexpansive (m : Material ℝ) (eps1 eps2 epsP : Nat → ℝ) (alpha : ℝ)
    (hm : PlasticOk m alpha) :
    stressNorm (fun i => dev (plasticStep m eps1 epsP alpha).stress i
        - dev (plasticStep m eps2 epsP alpha).stress i)
      ≤ 2 * m.mu * strainNorm (fun i => dev eps1 i - dev eps2 i) := by
  rw [stressNorm_congr (fun i hi => by
    rw [plasticStep_dev m eps1 epsP alpha hm.mu.ne' hm.radius i hi,
      plasticStep_dev m eps2 epsP alpha hm.mu.ne' hm.radius i hi]),
    ← sigTrial_sub_norm m hm.mu.le eps1 eps2 epsP]
  exact ret_nonexpansive _ _ hm.radius

/-- The bound across yielding: one strain yields, the other does not. -/
example : stressNorm (fun i => dev (plasticStep (exMat 1 1 true) (exStrain 1) (fun _ => 0) 0).stress i
      - dev (plasticStep (exMat 1 1 true) (fun _ => 0) (fun _ => 0) 0).stress i)
    ≤ 2 * 1 * strainNorm (fun i => dev (exStrain 1) i - dev (fun _ => 0) i) :=
  C36_nonexpansive (exMat 1 1 true) _ _ _ _ (exMat_ok zero_le_one zero_le_one le_rfl true)

theorem stressNorm_le_sum (s : Nat → ℝ) (i : Nat) (hi : i < 6) : |s i| ≤ stressNorm s := by
  apply abs_le_of_sq_le_sq _ (stressNorm_nonneg s)
  rw [stressNorm_sq]
  interval_cases i <;>
    nlinarith [sq_nonneg (s 0), sq_nonneg (s 1), sq_nonneg (s 2), sq_nonneg (s 3),
      sq_nonneg (s 4), sq_nonneg (s 5)]

/-- A strain given by its six components. -/
def ofComp (x : Fin 6 → ℝ) (i : Nat) : ℝ := if h : i < 6 then x ⟨i, h⟩ else 0

theorem ofComp_continuous (i : Nat) : Continuous (fun x => ofComp x i) := by
  unfold ofComp
  split
  · exact continuous_apply _
  · exact continuous_const

theorem dev_continuous (i : Nat) : Continuous (fun x => dev (ofComp x) i) := by
  unfold dev tr
  split
  · exact (ofComp_continuous i).sub ((((ofComp_continuous 0).add (ofComp_continuous 1)).add
      (ofComp_continuous 2)).div_const 3)
  · exact ofComp_continuous i

/-- C36: every stress component is a continuous function of the six strain components. -/
theorem C36_continuous (m : Material ℝ) (epsP : Nat → ℝ) (alpha : ℝ) (hm : PlasticOk m alpha)
    (i : Nat) (hi : i < 6) :
    Continuous (fun x : Fin 6 → ℝ => (plasticStep m (ofComp x) epsP alpha).stress i) := by
  have hdev : Continuous (fun x : Fin 6 → ℝ => dev (plasticStep m (ofComp x) epsP alpha).stress i) := by
    rw [continuous_iff_continuousAt]
    intro y
    have hb : Continuous (fun x : Fin 6 → ℝ =>
        2 * m.mu * strainNorm (fun i => dev (ofComp x) i - dev (ofComp y) i)) := by
      have hc := fun i => (dev_continuous i).sub (continuous_const (y := dev (ofComp y) i))
      unfold strainNorm
      exact continuous_const.mul (Real.continuous_sqrt.comp
        (((((hc 0).pow 2).add ((hc 1).pow 2)).add ((hc 2).pow 2)).add
          (((((hc 3).pow 2).add ((hc 4).pow 2)).add ((hc 5).pow 2)).div_const 2)))
    have h0 : Filter.Tendsto (fun x : Fin 6 → ℝ =>
        2 * m.mu * strainNorm (fun i => dev (ofComp x) i - dev (ofComp y) i)) (nhds y) (nhds 0) := by
      have := hb.tendsto y
      simpa [strainNorm] using this
    rw [ContinuousAt, tendsto_iff_norm_sub_tendsto_zero]
    refine squeeze_zero (fun _ => norm_nonneg _) (fun x => ?_) h0
    rw [Real.norm_eq_abs]
    exact le_trans (stressNorm_le_sum (fun i => dev (plasticStep m (ofComp x) epsP alpha).stress i
        - dev (plasticStep m (ofComp y) epsP alpha).stress i) i hi)
      (C36_nonexpansive m _ _ _ _ hm)
  have heq : (fun x : Fin 6 → ℝ => (plasticStep m (ofComp x) epsP alpha).stress i)
      = fun x => dev (plasticStep m (ofComp x) epsP alpha).stress i
        + (if i < 3 then m.k * (ofComp x 0 + ofComp x 1 + ofComp x 2) else 0) := by
    funext x
    have ht := plasticStep_tr m (ofComp x) epsP alpha
    unfold dev
    split
    · rw [ht]; unfold tr; ring
    · ring
  rw [heq]
  refine hdev.add ?_
  split
  · exact continuous_const.mul (((ofComp_continuous 0).add (ofComp_continuous 1)).add
      (ofComp_continuous 2))
  · exact continuous_const

example : Continuous (fun x : Fin 6 → ℝ =>
    (plasticStep (exMat 1 1 true) (ofComp x) (fun _ => 0) 0).stress 3) :=
  C36_continuous _ _ _ (exMat_ok zero_le_one zero_le_one le_rfl true) 3 (by omega)

/-! ### C37 -/

/-- Below yield `plastic_step` is Hooke's law minus the stress of the plastic strain. -/
theorem plasticStep_below (m : Material ℝ) (hk : m.k = m.lambda + 2 / 3 * m.mu)
    (eps epsP : Nat → ℝ) (alpha : ℝ)
    (hy : stressNorm (dev (hooke m.lambda m.mu (fun j => eps j - epsP j)))
      ≤ yieldRadius m.Sy m.Ka alpha) (i : Nat) :
    (plasticStep m eps epsP alpha).stress i
      = hooke m.lambda m.mu eps i - (if i < 3 then 2 * m.mu * dev epsP i else m.mu * epsP i) := by
  have hs : stressNorm (sigTrial m eps epsP) ≤ yieldRadius m.Sy m.Ka alpha := by
    rw [stressNorm_congr (fun i _ => sigTrial_hooke m eps epsP i)]; exact hy
  rw [plasticStep_elastic m eps epsP alpha (by rw [fTrial_real]; linarith)]
  simp only [plasticStress_real, sigTrial_real, hooke, hk, dev, tr]
  split <;> ring

/-- The configuration in which every material is taken as linear elastic with the same constants. -/
def linearised (c : Cfg ℝ) : Cfg ℝ :=
  { c with mats := fun i => { c.mats i with plasticity := false } }

/-- C37: below yield and with zero plastic strain, `get_stress3D` for a plastic material returns
what it returns for the linear elastic material with the same constants. -/
theorem C37_elastic_stress (c : Cfg ℝ) (varsOld varsNew : Buf ℝ) (ex ey ez gp : Nat)
    (eps : Nat → ℝ) (m : Material ℝ) (hk : m.k = m.lambda + 2 / 3 * m.mu)
    (hmat : getMaterial c (gloElem3D c.nx c.ny ex ey ez) = .ok m) (hpl : m.plasticity = true)
    (hO : intvarIx (gloElem3D c.nx c.ny ex ey ez) gp 6 < varsOld.size)
    (hN : intvarIx (gloElem3D c.nx c.ny ex ey ez) gp 6 < varsNew.size)
    (hz : ∀ i, i < 6 → varsOld.val (intvarIx (gloElem3D c.nx c.ny ex ey ez) gp i) = 0)
    (hy : stressNorm (dev (hooke m.lambda m.mu eps)) ≤ yieldRadius m.Sy m.Ka
      (varsOld.val (intvarIx (gloElem3D c.nx c.ny ex ey ez) gp 6))) :
    ∃ o o', getStress3D c varsOld varsNew ex ey ez gp eps = .ok o ∧
      getStress3D (linearised c) varsOld varsNew ex ey ez gp eps = .ok o' ∧
      o.nl = false ∧ o'.nl = false ∧ (∀ i, i < 6 → o.stress i = o'.stress i) ∧
      (∀ i, i < 6 → o.stress i = hooke m.lambda m.mu eps i) := by
  have ht : c.microType = 0 ∨ c.microType = 1 := by
    by_contra hc; unfold getMaterial at hmat; rw [if_neg hc] at hmat; cases hmat
  have he : gloElem3D c.nx c.ny ex ey ez < c.elemType.size := by
    by_contra hc
    unfold getMaterial Buf.read at hmat
    rw [if_pos ht, if_neg hc] at hmat; cases hmat
  have hmm : matOf c (gloElem3D c.nx c.ny ex ey ez) = m := by
    rw [getMaterial_eq ht he] at hmat; cases hmat; rfl
  have hmm' : matOf (linearised c) (gloElem3D c.nx c.ny ex ey ez) = { m with plasticity := false } := by
    rw [← hmm]; rfl
  have hp0 : epsPAt varsOld (gloElem3D c.nx c.ny ex ey ez) gp = fun _ => 0 := by
    funext i; unfold epsPAt; split
    · exact hz i (by assumption)
    · rfl
  refine ⟨_, _, getStress3D_eq ht he hO hN,
    getStress3D_eq (c := linearised c) ht he hO hN, ?_⟩
  have hg : gloElem3D (linearised c).nx (linearised c).ny ex ey ez
      = gloElem3D c.nx c.ny ex ey ez := rfl
  rw [hg, hmm, hmm']
  unfold stressOut
  simp only [hpl, if_true, hp0, Bool.false_eq_true, if_false]
  have hy' : stressNorm (dev (hooke m.lambda m.mu (fun j => eps j - (fun _ => (0:ℝ)) j)))
      ≤ yieldRadius m.Sy m.Ka (alphaAt varsOld (gloElem3D c.nx c.ny ex ey ez) gp) := by
    simp only [sub_zero]; exact hy
  have hb := plasticStep_below m hk eps (fun _ => 0)
    (alphaAt varsOld (gloElem3D c.nx c.ny ex ey ez) gp) hy'
  have hst : ∀ i, (plasticStep m eps (fun _ => 0)
      (alphaAt varsOld (gloElem3D c.nx c.ny ex ey ez) gp)).stress i = hooke m.lambda m.mu eps i := by
    intro i; rw [hb i]; simp [dev, tr]
  refine ⟨?_, trivial, fun i _ => ?_, fun i _ => hst i⟩
  · cases hc : (plasticStep m eps (fun _ => 0)
        (alphaAt varsOld (gloElem3D c.nx c.ny ex ey ez) gp)).nl with
    | false => rfl
    | true =>
      have := (plasticStep_nl _ _ _ _).mp hc
      rw [stressNorm_congr (fun i _ => sigTrial_hooke m eps (fun _ => 0) i)] at this
      exact absurd hy' (not_le.mpr this)
  · rw [hst i]; unfold hooke elasticStress3D tr; push_cast; rfl

/-- A strain below yield: `Sy = 10` and a strain whose stress has norm `√8`. -/
theorem exStrain_below (d : ℝ) (l : Nat) (hd : 0 ≤ d) (hd1 : d ≤ 1) :
    stressNorm (dev (hooke 1 1 (fun j => if j = l then exStrain 0 j + d else exStrain 0 j)))
      ≤ yieldRadius 100 1 0 := by
  have h1 : stressNorm (dev (hooke 1 1 (fun j => if j = l then exStrain 0 j + d else exStrain 0 j))) ^ 2
      ≤ 100 := by
    rw [stressNorm_sq]
    simp only [dev, hooke, tr, exStrain]
    by_cases h : l < 6
    · interval_cases l <;> norm_num <;> nlinarith
    · simp only [show ¬ 0 = l by omega, show ¬ 1 = l by omega, show ¬ 2 = l by omega,
        show ¬ 3 = l by omega, show ¬ 4 = l by omega, show ¬ 5 = l by omega, if_false]
      norm_num
  have h2 : (1 / 2 : ℝ) ≤ Real.sqrt (2 / 3) := by
    apply Real.le_sqrt_of_sq_le; norm_num
  unfold yieldRadius
  nlinarith [stressNorm_nonneg (dev (hooke 1 1
    (fun j => if j = l then exStrain 0 j + d else exStrain 0 j)))]

example : ∃ o o', getStress3D (exCfg 100 1 true) exVars exVars 0 0 0 0 (exStrain 0) = .ok o ∧
      getStress3D (linearised (exCfg 100 1 true)) exVars exVars 0 0 0 0 (exStrain 0) = .ok o' ∧
      o.nl = false ∧ o'.nl = false ∧ (∀ i, i < 6 → o.stress i = o'.stress i) ∧
      (∀ i, i < 6 → o.stress i = hooke 1 1 (exStrain 0) i) :=
  C37_elastic_stress (exCfg 100 1 true) exVars exVars 0 0 0 0 (exStrain 0) (exMat 100 1 true)
    (by norm_num [exMat]) (getMaterial_eq (c := exCfg 100 1 true) (Or.inl rfl) (by decide)) rfl
    (by decide) (by decide) (fun _ _ => rfl) (by
      have := exStrain_below 0 6 le_rfl zero_le_one
      simpa [exMat, exVars] using this)

/-- The strain perturbed in component `l` by the step of the code. -/
noncomputable def perturbed (eps : Nat → ℝ) (l j : Nat) : ℝ :=
  if j = l then eps j + 1 / 10 ^ 8 else eps j

/-- C37: while the strain and its six perturbations stay below yield, the perturbation tangent is
the elastic tangent (for every stored plastic strain). -/
theorem C37_elastic_tangent (c : Cfg ℝ) (u varsOld varsNew : Buf ℝ) (ex ey ez gp : Nat)
    (eps : Nat → ℝ) (m : Material ℝ) (hk : m.k = m.lambda + 2 / 3 * m.mu)
    (hmat : getMaterial c (gloElem3D c.nx c.ny ex ey ez) = .ok m) (hpl : m.plasticity = true)
    (hO : intvarIx (gloElem3D c.nx c.ny ex ey ez) gp 6 < varsOld.size)
    (hN : intvarIx (gloElem3D c.nx c.ny ex ey ez) gp 6 < varsNew.size)
    (heps : getStrain3D c u ex ey ez gp = .ok eps)
    (hy : ∀ l, l ≤ 6 → stressNorm (dev (hooke m.lambda m.mu (fun j => perturbed eps l j
        - (if j < 6 then varsOld.val (intvarIx (gloElem3D c.nx c.ny ex ey ez) gp j) else 0))))
      ≤ yieldRadius m.Sy m.Ka (varsOld.val (intvarIx (gloElem3D c.nx c.ny ex ey ez) gp 6))) :
    ∃ o, getCtanPlastPert c u varsOld varsNew ex ey ez gp = .ok o ∧
      ∀ i l, i < 6 → l < 6 →
        o.ctan i l = hooke m.lambda m.mu (fun j => if j = l then 1 else 0) i := by
  have ht : c.microType = 0 ∨ c.microType = 1 := by
    by_contra hc; unfold getMaterial at hmat; rw [if_neg hc] at hmat; cases hmat
  have he : gloElem3D c.nx c.ny ex ey ez < c.elemType.size := by
    by_contra hc
    unfold getMaterial Buf.read at hmat
    rw [if_pos ht, if_neg hc] at hmat; cases hmat
  have hmm : matOf c (gloElem3D c.nx c.ny ex ey ez) = m := by
    rw [getMaterial_eq ht he] at hmat; cases hmat; rfl
  have hdeps : (1.0e-8 : ℝ) = 1 / 10 ^ 8 := by norm_num
  have hstress : ∀ (eps' : Nat → ℝ) (v : Buf ℝ),
      intvarIx (gloElem3D c.nx c.ny ex ey ez) gp 6 < v.size →
      (stressNorm (dev (hooke m.lambda m.mu (fun j => eps' j
        - (if j < 6 then varsOld.val (intvarIx (gloElem3D c.nx c.ny ex ey ez) gp j) else 0))))
      ≤ yieldRadius m.Sy m.Ka (varsOld.val (intvarIx (gloElem3D c.nx c.ny ex ey ez) gp 6))) →
      ∃ o, getStress3D c varsOld v ex ey ez gp eps' = .ok o ∧ o.varsNew.size = v.size ∧
        ∀ i, o.stress i = hooke m.lambda m.mu eps' i
          - (if i < 3 then 2 * m.mu * dev (epsPAt varsOld (gloElem3D c.nx c.ny ex ey ez) gp) i
             else m.mu * epsPAt varsOld (gloElem3D c.nx c.ny ex ey ez) gp i) := by
    intro eps' v hv hy'
    refine ⟨_, getStress3D_eq ht he hO hv, ?_⟩
    rw [hmm]; unfold stressOut; simp only [hpl, if_true]
    exact ⟨rfl, plasticStep_below m hk eps' _ _ hy'⟩
  obtain ⟨s0, hs0, hz0, hv0⟩ := hstress eps varsNew hN (by
    have := hy 6 le_rfl
    refine le_trans (le_of_eq (stressNorm_congr fun i hi => ?_)) this
    unfold dev hooke tr perturbed
    simp only [show ¬ (0:Nat) = 6 by omega, show ¬ (1:Nat) = 6 by omega,
      show ¬ (2:Nat) = 6 by omega, show ¬ i = 6 by omega, if_false])
  unfold getCtanPlastPert
  simp only [heps, M_bind_ok', hs0]
  obtain ⟨o, h1, h2⟩ := loop_inv (n := 6) (s := ({ ctan := fun _ _ => 0, varsNew := s0.varsNew } : CtanOut ℝ))
    (f := fun i s => do
      let r ← getStress3D c varsOld s.varsNew ex ey ez gp
        (fun j => if j = i then eps j + 1.0e-8 else eps j)
      pure { ctan := fun j l => if l = i then (r.stress j - s0.stress j) / 1.0e-8 else s.ctan j l
             varsNew := r.varsNew })
    (P := fun k s => intvarIx (gloElem3D c.nx c.ny ex ey ez) gp 6 < s.varsNew.size ∧
      ∀ i l, l < k → s.ctan i l = hooke m.lambda m.mu (fun j => if j = l then 1 else 0) i)
    ⟨by simp only; omega, by intro i l hl; omega⟩ (by
      rintro k s hk6 ⟨hsz, hc⟩
      obtain ⟨r, hr, hrz, hrv⟩ := hstress (fun j => if j = k then eps j + 1.0e-8 else eps j)
        s.varsNew hsz (by
          have := hy k (by omega)
          rw [hdeps]; exact this)
      refine ⟨_, by rw [hr]; rfl, ?_, ?_⟩
      · simp only; omega
      · intro i l hl
        simp only
        by_cases hlk : l = k
        · subst hlk
          rw [if_pos rfl, hrv, hv0, hdeps]
          simp only [hooke, tr]
          by_cases hi : i < 3
          · simp only [hi, if_true]
            split_ifs <;> simp_all <;> ring
          · simp only [hi, if_false]
            split_ifs <;> simp_all
            ring
        · rw [if_neg hlk]; exact hc i l (by omega))
  exact ⟨o, h1, fun i l _ hl => h2.2 i l hl⟩

theorem exStrain_zero : getStrain3D (exCfg 100 1 true) ⟨24, fun _ => 0⟩ 0 0 0 0
    = .ok (fun _ => 0) := by
  unfold getStrain3D getElemDisp3D
  rw [gather_eq (fun i hi => by
    simp only [exCfg]
    interval_cases i <;> decide)]
  simp only [M_bind_ok', M_pure]
  congr 1
  funext v
  rw [accum_sum]
  simp

example : ∃ o, getCtanPlastPert (exCfg 100 1 true) ⟨24, fun _ => 0⟩ exVars exVars 0 0 0 0 = .ok o ∧
    ∀ i l, i < 6 → l < 6 → o.ctan i l = hooke 1 1 (fun j => if j = l then 1 else 0) i :=
  C37_elastic_tangent (exCfg 100 1 true) _ exVars exVars 0 0 0 0 _ (exMat 100 1 true)
    (by norm_num [exMat]) (getMaterial_eq (c := exCfg 100 1 true) (Or.inl rfl) (by decide)) rfl
    (by decide) (by decide) exStrain_zero (fun l _ => by
      have h2 : (1 / 2 : ℝ) ≤ Real.sqrt (2 / 3) := by
        apply Real.le_sqrt_of_sq_le; norm_num
      have h1 : stressNorm (dev (hooke 1 1 (fun j => perturbed (fun _ => 0) l j
          - (if j < 6 then (exVars.val j) else 0)))) ^ 2 ≤ 100 := by
        rw [stressNorm_sq]
        simp only [dev, hooke, tr, perturbed, exVars]
        interval_cases l <;> norm_num
      have h3 := stressNorm_nonneg (dev (hooke 1 1 (fun j => perturbed (fun _ => 0) l j
          - (if j < 6 then (exVars.val j) else 0))))
      show stressNorm (dev (hooke 1 1 (fun j => perturbed (fun _ => 0) l j
          - (if j < 6 then (0:ℝ) else 0)))) ≤ yieldRadius 100 1 0
      simp only [exVars] at h1 h3
      unfold yieldRadius
      nlinarith)

end Verif.Props
