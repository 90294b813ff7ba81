import Verif.Lemmas.Newton
import Verif.Lemmas.Bounds
import Verif.Lemmas.Stab

/-! # Energy of the cell problem and descent of conjugate gradients -/

namespace Verif.Spec.Fe
open Finset

variable {F : Fe} {L : Nat × Nat × Nat → (Nat → ℝ) → Nat → ℝ}

/-- Nodal forces as a sum over unit displacements. -/
theorem force_sum (hF : F.Good) (hL : F.Law L) (u : Nat → ℝ) (r : Nat) :
    F.force (F.stress L u) r = ∑ j ∈ range (F.nn * F.dim), u j * F.force (F.stress L (Spec.unit j)) r := by
  have h : ∀ n, F.force (F.stress L fun q => if q < n then u q else 0) r
      = ∑ j ∈ range n, u j * F.force (F.stress L (Spec.unit j)) r := by
    intro n
    induction n with
    | zero =>
      have h0 := force_lin hL u u 0 0 r
      have e : (fun q => 0 * u q + 0 * u q) = fun q => if q < 0 then u q else 0 := by
        funext q; rw [if_neg (by omega)]; ring
      rw [e] at h0
      rw [h0, range_zero, sum_empty]; ring
    | succ n ih =>
      have h0 := force_lin hL (fun q => if q < n then u q else 0) (Spec.unit n) 1 (u n) r
      have e : (fun q => 1 * (if q < n then u q else 0) + u n * Spec.unit n q)
          = fun q => if q < n + 1 then u q else 0 := by
        funext q
        unfold Spec.unit
        rcases lt_trichotomy q n with h | h | h
        · rw [if_pos h, if_neg (by omega), if_pos (by omega)]; ring
        · subst h; rw [if_neg (lt_irrefl _), if_pos rfl, if_pos (by omega)]; ring
        · rw [if_neg (by omega), if_neg (by omega), if_neg (by omega)]; ring
      rw [e] at h0
      rw [h0, ih, sum_range_succ]; ring
  rw [← h]
  exact force_congr hF hL (fun q hq => by rw [if_pos hq]) r

theorem mul_le_dot {n i j : Nat} (hi : i < n) (hj : j < n) (u : Nat → ℝ) : |u i| * |u j| ≤ dot n u u := by
  have a : ∀ i, i < n → u i * u i ≤ dot n u u := fun i hi =>
    single_le_sum (f := fun i => u i * u i) (fun i _ => mul_self_nonneg _) (mem_range.mpr hi)
  have h1 := a i hi
  have h2 := a j hj
  rw [← abs_mul_abs_self] at h1 h2
  nlinarith [mul_self_nonneg (|u i| - |u j|)]

/-- The energy is bounded by the square of the displacement. -/
theorem bil_upper (hF : F.Good) (hL : F.Law L) :
    ∃ K : ℝ, 0 < K ∧ ∀ u : Nat → ℝ, F.bil L u u ≤ K * dot (F.nn * F.dim) u u := by
  let N := F.nn * F.dim
  let M : ℝ := ∑ r ∈ range N, ∑ j ∈ range N, |F.force (F.stress L (Spec.unit j)) r|
  have hM : 0 ≤ M := sum_nonneg fun _ _ => sum_nonneg fun _ _ => abs_nonneg _
  refine ⟨M + 1, by linarith, fun u => ?_⟩
  have hd : 0 ≤ dot N u u := sum_nonneg fun i _ => mul_self_nonneg _
  rw [← bil_force hF]
  have : ∑ r ∈ range N, F.force (F.stress L u) r * u r ≤ M * dot N u u := by
    show _ ≤ (∑ r ∈ range N, ∑ j ∈ range N, |F.force (F.stress L (Spec.unit j)) r|) * _
    rw [sum_mul]
    refine sum_le_sum fun r hr => ?_
    rw [force_sum hF hL, sum_mul, sum_mul]
    refine sum_le_sum fun j hj => ?_
    have h1 := mul_le_dot (mem_range.mp hj) (mem_range.mp hr) u
    calc u j * F.force (F.stress L (Spec.unit j)) r * u r
        ≤ |u j * F.force (F.stress L (Spec.unit j)) r * u r| := le_abs_self _
      _ = |F.force (F.stress L (Spec.unit j)) r| * (|u j| * |u r|) := by rw [abs_mul, abs_mul]; ring
      _ ≤ _ := mul_le_mul_of_nonneg_left h1 (abs_nonneg _)
  have h2 : M * dot N u u ≤ (M + 1) * dot N u u := by nlinarith
  exact this.trans h2

/-- Interior forces bound the energy of a field that vanishes on the boundary. -/
theorem bil_resid (hF : F.Good) (hL : F.Law L) :
    ∃ K : ℝ, 0 < K ∧ ∀ (w : Nat → ℝ) (B : ℝ), 0 ≤ B →
      (∀ r, r < F.nn * F.dim → F.Bd r → w r = 0) →
      (∀ r, r < F.nn * F.dim → ¬ F.Bd r → |F.force (F.stress L w) r| ≤ B) →
      F.bil L w w ≤ K * B ^ 2 := by
  obtain ⟨K, hK, h⟩ := stable hF hL
  refine ⟨(F.nn * F.dim : ℕ) * K + 1, by positivity, fun w B hB h0 hf => ?_⟩
  have h1 := (h w B hB (fun r hr hb => by rw [h0 r hr hb, abs_zero]; exact hB) hf).1
  rw [← bil_force hF]
  have : ∑ r ∈ range (F.nn * F.dim), F.force (F.stress L w) r * w r
      ≤ ∑ _r ∈ range (F.nn * F.dim), K * B ^ 2 := by
    refine sum_le_sum fun r hr => ?_
    have hr := mem_range.mp hr
    by_cases hb : F.Bd r
    · rw [h0 r hr hb, mul_zero]; positivity
    · calc F.force (F.stress L w) r * w r ≤ |F.force (F.stress L w) r * w r| := le_abs_self _
        _ = |F.force (F.stress L w) r| * |w r| := abs_mul _ _
        _ ≤ B * (K * B) := mul_le_mul (hf r hr hb) (h1 r hr) (abs_nonneg _) hB
        _ = K * B ^ 2 := by ring
  rw [sum_const, card_range, nsmul_eq_mul] at this
  nlinarith [sq_nonneg B]

/-- Cauchy-Schwarz against a field of positive energy. -/
theorem bil_cauchy (hF : F.Good) (hL : F.Law L) (u w : Nat → ℝ) (hw : 0 < F.bil L w w) :
    F.bil L u w ^ 2 ≤ F.bil L w w * F.bil L u u := by
  have h := bil_nonneg hF hL fun r => F.bil L w w * u r + (-F.bil L u w) * w r
  rw [bil_lin_sq hL] at h
  have e : F.bil L w w ^ 2 * F.bil L u u + 2 * F.bil L w w * -F.bil L u w * F.bil L u w
      + (-F.bil L u w) ^ 2 * F.bil L w w
      = F.bil L w w * (F.bil L w w * F.bil L u u - F.bil L u w ^ 2) := by ring
  rw [e] at h
  have := nonneg_of_mul_nonneg_right h hw
  linarith

/-- The energy of a field that vanishes on the boundary bounds the field and its average stress. -/
theorem bil_lower (hF : F.Good) (hL : F.Law L) :
    ∃ K : ℝ, 0 < K ∧ ∀ (w : Nat → ℝ) (B : ℝ), 0 ≤ B →
      (∀ r, r < F.nn * F.dim → F.Bd r → w r = 0) → F.bil L w w ≤ B ^ 2 →
      (∀ r, r < F.nn * F.dim → |w r| ≤ K * B) ∧
      ∀ v, v < F.nvoi → |F.aveStress (F.stress L w) v| ≤ K * B := by
  obtain ⟨K, hK, h⟩ := stable hF hL
  let M : ℝ := ∑ r ∈ range (F.nn * F.dim), F.bil L (Spec.unit r) (Spec.unit r)
  have hM : 0 ≤ M := sum_nonneg fun _ _ => bil_nonneg hF hL _
  refine ⟨K * (M + 1), by positivity, fun w B hB h0 hE => ?_⟩
  have hb : 0 ≤ (M + 1) * B := by positivity
  have key := h w ((M + 1) * B) hb (fun r hr hb' => by rw [h0 r hr hb', abs_zero]; exact hb) ?_
  · rw [← mul_assoc] at key
    exact key
  intro r hr hb'
  have hz : ∀ q, q < F.nn * F.dim → F.Bd q → Spec.unit r q = 0 := fun q _ hq => by
    show (if q = r then (1 : ℝ) else 0) = 0
    rw [if_neg]; rintro rfl; exact hb' hq
  have hp := bil_pos hF hL hz ⟨r, hr, by
    show (if r = r then (1 : ℝ) else 0) ≠ 0
    rw [if_pos rfl]; exact one_ne_zero⟩
  have hc := bil_cauchy hF hL w (Spec.unit r) hp
  have hf : F.bil L w (Spec.unit r) = F.force (F.stress L w) r := by
    rw [← bil_force hF, sum_eq_single r]
    · show _ * (if r = r then (1 : ℝ) else 0) = _
      rw [if_pos rfl, mul_one]
    · intro q _ hq
      show _ * (if q = r then (1 : ℝ) else 0) = _
      rw [if_neg hq, mul_zero]
    · intro h; exact absurd (mem_range.mpr hr) h
  rw [hf] at hc
  have hMr : F.bil L (Spec.unit r) (Spec.unit r) ≤ M :=
    single_le_sum (f := fun r => F.bil L (Spec.unit r) (Spec.unit r)) (fun r _ => bil_nonneg hF hL _)
      (mem_range.mpr hr)
  refine abs_le_of_sq_le_sq (le_trans hc ?_) hb
  have h1 : F.bil L (Spec.unit r) (Spec.unit r) * F.bil L w w ≤ M * B ^ 2 :=
    mul_le_mul hMr hE (bil_nonneg hF hL _) hM
  have h2 : M * B ^ 2 ≤ ((M + 1) * B) ^ 2 := by
    have : M ≤ (M + 1) ^ 2 := by nlinarith
    nlinarith [mul_le_mul_of_nonneg_right this (sq_nonneg B)]
  exact h1.trans h2

end Verif.Spec.Fe

namespace Verif
open Spec Finset

section pcg
variable {n N : Nat} {I : Finset Nat} {A : (Nat → ℝ) → Nat → ℝ} {k b : Nat → ℝ}
  {x r p : Nat → Nat → ℝ}

/-- The first step of conjugate gradients lowers the energy by a multiple of the squared residual, and
later steps do not raise it. -/
theorem Spec.Pcg.drop (h : Pcg n A k b N x r p) (hA : SpdOn n I A) {lo hi Λ : ℝ} (hlo : 0 < lo)
    (hk : ∀ i ∈ I, lo ≤ k i ∧ k i ≤ hi) (hΛ : 0 < Λ)
    (hub : ∀ u, OnI n I u → dot n u (A u) ≤ Λ * dot n u u)
    (hx0 : OnI n I (x 0)) (hb : OnI n I b) (hne : ∀ j, j < N → ∃ i, i < n ∧ r j i ≠ 0) (hN : 0 < N) :
    energy n A b (x N) ≤ energy n A b (x 0) - lo ^ 2 / (2 * Λ * hi ^ 2) * dot n (r 0) (r 0) := by
  have hk0 : ∀ i ∈ I, 0 < k i := fun i hi => lt_of_lt_of_le hlo (hk i hi).1
  have hstep : ∀ j, j < N → energy n A b (x (j + 1)) ≤ energy n A b (x j) := by
    intro j hj
    have a := (h.inv hA hk0 hx0 hb hne j hj).2
    rw [h.energy_lt hA hk0 hx0 hb hne hj]
    have : 0 < rho n k (r j) ^ 2 / dot n (p j) (A (p j)) / 2 := by
      have := a.1; have := a.2; positivity
    linarith
  have hall : ∀ j, 1 ≤ j → j ≤ N → energy n A b (x j) ≤ energy n A b (x 1) := by
    intro j h1
    induction j, h1 using Nat.le_induction with
    | base => intro _; exact le_rfl
    | succ j h1 ih => intro hj; exact le_trans (hstep j (by omega)) (ih (by omega))
  have a := (h.inv hA hk0 hx0 hb hne 0 hN).2
  have on := h.onI hA.fixed hx0 hb
  have h1 := h.energy_lt hA hk0 hx0 hb hne hN
  have hr : OnI n I (r 0) := (on 0 (by omega)).2.1
  have hp : OnI n I (p 0) := (on 0 (by omega)).2.2 hN
  have hd : 0 < dot n (r 0) (r 0) := by
    obtain ⟨i, hi, hi0⟩ := hne 0 hN
    exact sum_pos' (fun i _ => mul_self_nonneg _) ⟨i, mem_range.mpr hi, mul_self_pos.mpr hi0⟩
  have hrho : lo * dot n (r 0) (r 0) ≤ rho n k (r 0) := by
    unfold rho dot
    rw [mul_sum]
    refine sum_le_sum fun i hi => ?_
    by_cases hI : i ∈ I
    · nlinarith [(hk i hI).1, mul_self_nonneg (r 0 i)]
    · rw [hr i (mem_range.mp hi) hI]; simp
  have hpp : dot n (p 0) (p 0) ≤ hi ^ 2 * dot n (r 0) (r 0) := by
    unfold dot
    rw [mul_sum]
    refine sum_le_sum fun i hi' => ?_
    rw [h.p0 hN i (mem_range.mp hi')]
    by_cases hI : i ∈ I
    · have h2 : k i ^ 2 ≤ hi ^ 2 := by
        have := (hk i hI).2
        have := hk0 i hI
        nlinarith
      nlinarith [mul_le_mul_of_nonneg_right h2 (mul_self_nonneg (r 0 i))]
    · rw [hr i (mem_range.mp hi') hI]; simp
  have hpAp : dot n (p 0) (A (p 0)) ≤ Λ * (hi ^ 2 * dot n (r 0) (r 0)) :=
    (hub _ hp).trans (mul_le_mul_of_nonneg_left hpp hΛ.le)
  have hhi : 0 < hi ^ 2 * dot n (r 0) (r 0) := by
    by_contra hc
    have h3 : Λ * (hi ^ 2 * dot n (r 0) (r 0)) ≤ 0 := mul_nonpos_of_nonneg_of_nonpos hΛ.le (not_lt.mp hc)
    linarith [a.2]
  have hhi2 : 0 < hi ^ 2 := (pos_iff_pos_of_mul_pos hhi).mpr hd
  have hdrop : lo ^ 2 / (2 * Λ * hi ^ 2) * dot n (r 0) (r 0)
      ≤ rho n k (r 0) ^ 2 / dot n (p 0) (A (p 0)) / 2 := by
    have e : lo ^ 2 / (2 * Λ * hi ^ 2) * dot n (r 0) (r 0)
        = (lo * dot n (r 0) (r 0)) ^ 2 / (Λ * (hi ^ 2 * dot n (r 0) (r 0))) / 2 := by
      have := hd.ne'
      have := hΛ.ne'
      have := hhi2.ne'
      field_simp
    rw [e]
    have h3 : (lo * dot n (r 0) (r 0)) ^ 2 ≤ rho n k (r 0) ^ 2 := by
      have : 0 ≤ lo * dot n (r 0) (r 0) := by positivity
      nlinarith
    have h4 := div_le_div₀ (sq_nonneg (rho n k (r 0))) h3 a.2 hpAp
    linarith
  have h5 := hall N hN le_rfl
  simp only [zero_add] at h1
  linarith

end pcg

/-- What a CG call from zero does to the energy. -/
theorem Props.CgApi.drop {c : Props.CgApi} {m : Ell ℝ} {b x : Buf ℝ} (h : c.Fits m b x)
    (junk : Nat → Nat → ℝ) (solver : EllSolver ℝ) {I : Finset Nat} (hA : SpdOn m.nrow I (op m))
    (hdiag : DiagSlot m c.fields c.nodes c.slot) (hb : OnI m.nrow I b.val)
    (hx : ∀ i, i < m.nrow → x.val i = 0) (htol : 0 < solver.minTol) {lo hi Λ : ℝ} (hlo : 0 < lo)
    (hk : ∀ i ∈ I, lo ≤ 1 / op m (unit i) i ∧ 1 / op m (unit i) i ≤ hi) (hΛ : 0 < Λ)
    (hub : ∀ u, OnI m.nrow I u → dot m.nrow u (op m u) ≤ Λ * dot m.nrow u u)
    (hbig : solver.minTol ≤ norm2 m.nrow b.val) :
    ∃ solver' x', c.call junk solver m b x = .ok (0, solver', some x') ∧
      energy m.nrow (op m) b.val x'.val ≤ - (lo ^ 2 / (2 * Λ * hi ^ 2) * dot m.nrow b.val b.val) := by
  obtain ⟨N, x', err, k, xs, r, p, h1, h2, h3, R⟩ := Props.CgApi.call_real h junk solver
  refine ⟨_, _, h1, ?_⟩
  have hkI : ∀ i ∈ I, lo ≤ k i ∧ k i ≤ hi := by
    intro i hi'
    obtain ⟨n, d, a1, a2, a3⟩ := h.row (mem_range.mp (hA.sub hi'))
    have e : k i = 1 / op m (unit i) i := by rw [a3, h3 n d a1 a2, hdiag n d a1 a2]
    rw [e]
    exact hk i hi'
  have hx0 : OnI m.nrow I (xs 0) := by rw [R.first]; exact fun i hi _ => hx i hi
  have hne : ∀ j, j < N → ∃ i, i < m.nrow ∧ r j i ≠ 0 := by
    intro j hj
    by_contra hc
    push Not at hc
    have h0 : norm2 m.nrow (r j) = 0 := by
      unfold norm2 dot
      rw [sum_eq_zero (fun i hi => by rw [hc i (mem_range.mp hi)]; ring), Real.sqrt_zero]
    have := R.notYet j hj
    linarith
  have hz : ∀ i, i < m.nrow → op m (xs 0) i = 0 := by
    intro i hi
    rw [hA.local' (xs 0) (fun j => xs 0 j + 0 * xs 0 j) (fun i _ => by ring) i hi, R.first,
      hA.local' _ (fun j => x.val j + (-1) * x.val j) (fun i hi => by rw [hx i hi]; ring) i hi, hA.lin]
    ring
  have hr0 : ∀ i, i < m.nrow → r 0 i = - b.val i := by
    intro i hi
    rw [R.steps.r0 i hi, hz i hi]; ring
  have hrb : dot m.nrow (r 0) (r 0) = dot m.nrow b.val b.val := by
    unfold dot
    refine sum_congr rfl fun i hi => ?_
    rw [hr0 i (mem_range.mp hi)]; ring
  have hN : 0 < N := by
    rcases R.stop with ⟨h4, -, -⟩ | ⟨h4, -, -⟩
    · rcases Nat.eq_zero_or_pos N with h5 | h5
      · exfalso
        rw [h5] at h4
        unfold norm2 at h4 hbig
        rw [hrb] at h4
        linarith
      · exact h5
    · omega
  have := R.steps.drop hA hlo hkI hΛ hub hx0 hb hne hN
  rw [R.last, hrb] at this
  have e0 : energy m.nrow (op m) b.val (xs 0) = 0 := by
    unfold energy dot
    rw [R.first, sum_eq_zero (fun i hi => by rw [hx i (mem_range.mp hi)]; ring),
      sum_eq_zero (fun i hi => by rw [hx i (mem_range.mp hi)]; ring)]
    ring
  rw [e0] at this
  linarith

end Verif
