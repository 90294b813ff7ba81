import Verif.Lemmas.FemLaw

/-! # Energy of cell problems: minimum principle, bounds, monotonicity -/

namespace Verif.Spec.Fe
open Finset

variable {F : Fe} {L L' : Nat × Nat × Nat → (Nat → ℝ) → Nat → ℝ}

theorem integral_mono (hF : F.Good) {f g : Nat × Nat × Nat → Nat → ℝ}
    (h : ∀ e ∈ F.elems, ∀ gp, gp < F.npe → f e gp ≤ g e gp) : F.integral f ≤ F.integral g := by
  have := integral_nonneg hF (f := fun e gp => g e gp - f e gp) fun e he gp hg => sub_nonneg.mpr (h e he gp hg)
  rw [integral_sub] at this
  linarith

/-- Expansion of the energy density. -/
theorem dens_lin (hL : F.Law L) {e : Nat × Nat × Nat} (he : e ∈ F.elems) (x y : Nat → ℝ) (a b : ℝ) :
    F.pair (L e fun v => a * x v + b * y v) (fun v => a * x v + b * y v)
      = a ^ 2 * F.pair (L e x) x + 2 * a * b * F.pair (L e x) y + b ^ 2 * F.pair (L e y) y := by
  rw [pair_congr (s' := fun v => a * L e x v + b * L e y v) (e' := fun v => a * x v + b * y v)
    (fun v hv => hL.lin e he x y a b v hv) fun _ _ => rfl, pair_comm_left, pair_lin, pair_lin,
    hL.sym e he y x]
  ring

theorem bil_lin_sq (hL : F.Law L) (u w : Nat → ℝ) (a b : ℝ) :
    F.bil L (fun r => a * u r + b * w r) (fun r => a * u r + b * w r)
      = a ^ 2 * F.bil L u u + 2 * a * b * F.bil L u w + b ^ 2 * F.bil L w w := by
  unfold bil
  have h : ∀ x y z : ℝ, a ^ 2 * x + 2 * a * b * y + b ^ 2 * z
      = a ^ 2 * x + 1 * (2 * a * b * y + b ^ 2 * z) := fun x y z => by ring
  rw [h, ← integral_lin, ← integral_lin]
  refine integral_congr fun e he gp _ => ?_
  rw [← h]
  refine Eq.trans ?_ (dens_lin hL he (F.strain u e gp) (F.strain w e gp) a b)
  exact pair_congr (fun v hv => hL.cong e he _ _ (fun v _ => strain_lin u w a b e gp v) v hv)
    fun v _ => strain_lin u w a b e gp v

/-- Equilibrium does no work on fields that vanish on the boundary. -/
theorem bil_equil (hF : F.Good) {u w : Nat → ℝ} (he : F.Equil (F.stress L u))
    (hw : ∀ r, r < F.nn * F.dim → F.Bd r → w r = 0) : F.bil L u w = 0 := by
  rw [← bil_force hF]
  refine sum_eq_zero fun r hr => ?_
  have hr := mem_range.mp hr
  by_cases hb : F.Bd r
  · rw [hw r hr hb, mul_zero]
  · rw [he r hr hb, zero_mul]

/-- Energy of a competitor of the equilibrium. -/
theorem bil_split (hF : F.Good) (hL : F.Law L) {u w : Nat → ℝ} (he : F.Equil (F.stress L u))
    (hb : ∀ r, r < F.nn * F.dim → F.Bd r → w r = u r) :
    F.bil L w w = F.bil L u u + F.bil L (fun r => w r - u r) (fun r => w r - u r) := by
  have h := bil_lin_sq hL u (fun r => w r - u r) 1 1
  rw [bil_equil (u := u) (w := fun r => w r - u r) hF he fun r hr h => by rw [hb r hr h, sub_self]] at h
  have e : (fun r => 1 * u r + 1 * (w r - u r)) = w := by funext r; ring
  rw [e] at h
  rw [h]
  ring

/-- **Minimum energy.** -/
theorem energy_min (hF : F.Good) (hL : F.Law L) {u w : Nat → ℝ} (he : F.Equil (F.stress L u))
    (hb : ∀ r, r < F.nn * F.dim → F.Bd r → w r = u r) :
    F.bil L u u ≤ F.bil L w w ∧
    (F.bil L w w = F.bil L u u → ∀ r, r < F.nn * F.dim → w r = u r) := by
  have h := bil_split hF hL he hb
  refine ⟨by have := bil_nonneg hF hL fun r => w r - u r; linarith, fun h0 r hr => ?_⟩
  have h1 : F.bil L (fun r => w r - u r) (fun r => w r - u r) = 0 := by linarith
  have := rigid hF (w := fun r => w r - u r) (fun r hr h => by rw [hb r hr h, sub_self])
    (bil_strain hF hL h1) r hr
  linarith

theorem macro_energy (hF : F.Good) {eps u : Nat → ℝ} (hu : F.OnBd eps u) (he : F.Equil (F.stress L u)) :
    F.vol * F.pair (F.aveStress (F.stress L u)) eps = F.bil L u u := by
  rw [macro_work (eps := eps) hF hu he, mul_div_cancel₀ _ (vol_pos hF).ne']

/-- **Voigt bound.** -/
theorem voigt_bound (hF : F.Good) (hL : F.Law L) {eps u : Nat → ℝ} (hu : F.OnBd eps u)
    (he : F.Equil (F.stress L u)) :
    F.vol * F.pair (F.aveStress (F.stress L u)) eps ≤ F.integral fun e _ => F.pair (L e eps) eps := by
  rw [macro_energy hF hu he]
  have h := (energy_min hF hL (w := F.affine (F.symGrad eps) fun _ => 0) he
    fun r hr hb => (hu r hr hb).symm).1
  refine h.trans (le_of_eq (integral_congr fun e hm gp _ => ?_))
  have hs : ∀ v, v < F.nvoi → F.strain (F.affine (F.symGrad eps) fun _ => 0) e gp v = eps v :=
    fun v hv => by rw [strain_affine hF _ _ hm gp hv, voigt_symGrad hF eps hv]
  exact pair_congr (fun v hv => hL.cong e hm _ _ hs v hv) hs

theorem pair_right_sum (f : Nat × Nat × Nat → Nat → Nat → ℝ) (s : Nat → ℝ) :
    F.integral (fun e gp => F.pair s (f e gp)) = F.pair s fun v => F.integral fun e gp => f e gp v := by
  unfold pair
  rw [integral_sum]
  refine sum_congr rfl fun v _ => ?_
  have := integral_lin (F := F) (fun e gp => f e gp v) (fun _ _ => 0) (s v) 0
  simp only [zero_mul, add_zero] at this
  exact this

/-- **Reuss bound**: `x e` is the strain of element `e` under the uniform stress `s`. -/
theorem reuss_bound (hF : F.Good) (hL : F.Law L) {eps u s : Nat → ℝ} (hu : F.OnBd eps u)
    (he : F.Equil (F.stress L u)) {x : Nat × Nat × Nat → Nat → ℝ}
    (hx : ∀ e ∈ F.elems, ∀ v, v < F.nvoi → L e (x e) v = s v) :
    2 * F.vol * F.pair s eps - F.integral (fun e _ => F.pair s (x e))
      ≤ F.vol * F.pair (F.aveStress (F.stress L u)) eps := by
  rw [macro_energy hF hu he]
  have h := integral_nonneg hF (f := fun e gp => F.pair (L e fun v => 1 * F.strain u e gp v + (-1) * x e v)
    (fun v => 1 * F.strain u e gp v + (-1) * x e v)) fun e hm _ _ => hL.nonneg hm _
  have h2 : F.integral (fun e gp => F.pair (L e fun v => 1 * F.strain u e gp v + (-1) * x e v)
      (fun v => 1 * F.strain u e gp v + (-1) * x e v))
      = 1 * F.bil L u u + 1 * (-2 * F.integral (fun e gp => F.pair s (F.strain u e gp))
        + 1 * F.integral (fun e _ => F.pair s (x e))) := by
    rw [← integral_lin]
    unfold bil
    rw [← integral_lin]
    refine integral_congr fun e hm gp _ => ?_
    rw [dens_lin hL hm, hL.sym e hm (F.strain u e gp) (x e),
      pair_congr (s := L e (x e)) (s' := s) (e := F.strain u e gp) (e' := F.strain u e gp) (hx e hm) fun _ _ => rfl,
      pair_congr (s := L e (x e)) (s' := s) (e := x e) (e' := x e) (hx e hm) fun _ _ => rfl]
    unfold stress
    ring
  rw [h2, pair_right_sum] at h
  have h3 : F.pair s (fun v => F.integral fun e gp => F.strain u e gp v) = F.vol * F.pair s eps := by
    unfold pair
    rw [mul_sum]
    exact sum_congr rfl fun v hv => by beta_reduce; rw [integral_strain hF hu (mem_range.mp hv)]; ring
  rw [h3] at h
  linarith

/-- **Monotonicity**: stiffer elements, stiffer cell. -/
theorem macro_mono (hF : F.Good) (hL : F.Law L)
    (hle : ∀ e ∈ F.elems, ∀ x, F.pair (L e x) x ≤ F.pair (L' e x) x) {eps u u' : Nat → ℝ}
    (hu : F.OnBd eps u) (hu' : F.OnBd eps u') (he : F.Equil (F.stress L u))
    (he' : F.Equil (F.stress L' u')) :
    F.pair (F.aveStress (F.stress L u)) eps ≤ F.pair (F.aveStress (F.stress L' u')) eps := by
  have h1 := macro_energy hF hu he
  have h2 := macro_energy hF hu' he'
  have h3 := (energy_min hF hL (w := u') he fun r hr hb => (hu' r hr hb).trans (hu r hr hb).symm).1
  have h4 : F.bil L u' u' ≤ F.bil L' u' u' := integral_mono hF fun e hm gp _ => hle e hm _
  exact le_of_mul_le_mul_left (by linarith) (vol_pos hF)

end Verif.Spec.Fe
