import Verif.Lemmas.FemGrid
import Mathlib.LinearAlgebra.FiniteDimensional.Lemmas
import Mathlib.Tactic.Linarith

/-! # Cell problems with prescribed boundary displacement -/

namespace Verif.Spec.Fe
open Finset

variable {F : Fe}

theorem integral_sub (f g : Nat × Nat × Nat → Nat → ℝ) :
    F.integral (fun e gp => f e gp - g e gp) = F.integral f - F.integral g := by
  have := integral_lin (F := F) f g 1 (-1)
  simp only [one_mul, neg_mul, ← sub_eq_add_neg] at this
  exact this

/-- Average strain of a field with prescribed boundary values. -/
theorem integral_strain (hF : F.Good) {eps u : Nat → ℝ} (hu : F.OnBd eps u) {v : Nat}
    (hv : v < F.nvoi) : F.integral (fun e gp => F.strain u e gp v) = F.vol * eps v := by
  have h0 := integral_strain_zero hF
    (w := fun r => u r - F.affine (F.symGrad eps) (fun _ => 0) r)
    (fun r hr hb => by rw [hu r hr hb, sub_self]) hv
  simp only [strain_sub] at h0
  rw [integral_sub] at h0
  have h1 : F.integral (fun e gp => F.strain (F.affine (F.symGrad eps) fun _ => 0) e gp v)
      = F.vol * eps v := by
    rw [← integral_const hF]
    exact integral_congr fun e he gp _ => by
      rw [strain_affine hF _ _ he gp hv, voigt_symGrad hF eps hv]
  linarith

/-- **Hill-Mandel**: an equilibrated stress does the same work on any field with affine boundary
values as its average on the average strain. -/
theorem hill_mandel (hF : F.Good) {s : Nat × Nat × Nat → Nat → Nat → ℝ} (hs : F.Equil s)
    {eps u : Nat → ℝ} (hu : F.OnBd eps u) :
    F.integral (fun e gp => F.pair (s e gp) (F.strain u e gp))
      = F.pair (fun v => F.integral fun e gp => s e gp v) eps := by
  rw [← virtual_work hF]
  have h1 : ∑ r ∈ range (F.nn * F.dim), F.force s r * u r
      = ∑ r ∈ range (F.nn * F.dim), F.force s r * F.affine (F.symGrad eps) (fun _ => 0) r := by
    refine sum_congr rfl fun r hr => ?_
    have hr := mem_range.mp hr
    by_cases hb : F.Bd r
    · rw [hu r hr hb]
    · rw [hs r hr hb, zero_mul, zero_mul]
  rw [h1, virtual_work hF]
  have h2 : F.integral (fun e gp =>
        F.pair (s e gp) (F.strain (F.affine (F.symGrad eps) fun _ => 0) e gp))
      = F.integral (fun e gp => ∑ v ∈ range F.nvoi, s e gp v * eps v) := by
    refine integral_congr fun e he gp _ => ?_
    unfold pair
    refine sum_congr rfl fun v hv => ?_
    have hv := mem_range.mp hv
    rw [strain_affine hF _ _ he gp hv, voigt_symGrad hF eps hv]
  rw [h2, integral_sum]
  unfold pair
  refine sum_congr rfl fun v _ => ?_
  have := integral_lin (F := F) (fun e gp => s e gp v) (fun _ _ => 0) (eps v) 0
  simp only [zero_mul, add_zero] at this
  rw [mul_comm, ← this]
  exact integral_congr fun e _ gp _ => by ring

/-! ## Linear laws -/

/-- A linear elastic law, element by element. -/
structure Law (F : Fe) (L : Nat × Nat × Nat → (Nat → ℝ) → Nat → ℝ) : Prop where
  cong : ∀ e ∈ F.elems, ∀ x y, (∀ v, v < F.nvoi → x v = y v) → ∀ v, v < F.nvoi → L e x v = L e y v
  lin : ∀ e ∈ F.elems, ∀ x y (a b : ℝ) v, v < F.nvoi →
    L e (fun v => a * x v + b * y v) v = a * L e x v + b * L e y v
  sym : ∀ e ∈ F.elems, ∀ x y, F.pair (L e x) y = F.pair (L e y) x
  pos : ∀ e ∈ F.elems, ∀ x, (∃ v, v < F.nvoi ∧ x v ≠ 0) → 0 < F.pair (L e x) x

variable {L : Nat × Nat × Nat → (Nat → ℝ) → Nat → ℝ}

/-- Work of the stress of `u` on `w`. -/
noncomputable def bil (F : Fe) (L : Nat × Nat × Nat → (Nat → ℝ) → Nat → ℝ) (u w : Nat → ℝ) : ℝ :=
  F.integral fun e gp => F.pair (F.stress L u e gp) (F.strain w e gp)

theorem bil_force (hF : F.Good) (u w : Nat → ℝ) :
    ∑ r ∈ range (F.nn * F.dim), F.force (F.stress L u) r * w r = F.bil L u w :=
  virtual_work hF _ w

theorem bil_sym (hL : F.Law L) (u w : Nat → ℝ) : F.bil L u w = F.bil L w u :=
  integral_congr fun e he _ _ => hL.sym e he _ _

theorem weight_pos (hF : F.Good) : 0 < F.cell / (F.npe : ℝ) :=
  div_pos (cell_pos hF) (by exact_mod_cast npe_pos hF)

theorem integral_nonneg (hF : F.Good) {f : Nat × Nat × Nat → Nat → ℝ}
    (h : ∀ e ∈ F.elems, ∀ gp, gp < F.npe → 0 ≤ f e gp) : 0 ≤ F.integral f :=
  sum_nonneg fun e he => sum_nonneg fun gp hg =>
    mul_nonneg (h e he gp (mem_range.mp hg)) (weight_pos hF).le

theorem integral_eq_zero (hF : F.Good) {f : Nat × Nat × Nat → Nat → ℝ}
    (h : ∀ e ∈ F.elems, ∀ gp, gp < F.npe → 0 ≤ f e gp) (h0 : F.integral f = 0) :
    ∀ e ∈ F.elems, ∀ gp, gp < F.npe → f e gp = 0 := by
  intro e he gp hg
  unfold integral at h0
  have h1 := (sum_eq_zero_iff_of_nonneg fun e he => sum_nonneg fun gp hg =>
    mul_nonneg (h e he gp (mem_range.mp hg)) (weight_pos hF).le).mp h0 e he
  have h2 := (sum_eq_zero_iff_of_nonneg fun gp hg =>
    mul_nonneg (h e he gp (mem_range.mp hg)) (weight_pos hF).le).mp h1 gp (mem_range.mpr hg)
  exact (mul_eq_zero.mp h2).resolve_right (weight_pos hF).ne'

theorem Law.nonneg (hL : F.Law L) {e : Nat × Nat × Nat} (he : e ∈ F.elems) (x : Nat → ℝ) :
    0 ≤ F.pair (L e x) x := by
  by_cases h : ∃ v, v < F.nvoi ∧ x v ≠ 0
  · exact (hL.pos e he x h).le
  · push Not at h
    refine le_of_eq ?_
    unfold pair
    exact (sum_eq_zero fun v hv => by rw [h v (mem_range.mp hv), mul_zero]).symm

theorem bil_nonneg (hF : F.Good) (hL : F.Law L) (u : Nat → ℝ) : 0 ≤ F.bil L u u :=
  integral_nonneg hF fun _ he _ _ => hL.nonneg he _

/-- No energy, no strain. -/
theorem bil_strain (hF : F.Good) (hL : F.Law L) {u : Nat → ℝ} (h : F.bil L u u = 0) :
    ∀ e ∈ F.elems, ∀ gp, gp < F.npe → ∀ v, v < F.nvoi → F.strain u e gp v = 0 := by
  intro e he gp hg v hv
  have h1 := integral_eq_zero hF (fun _ he _ _ => hL.nonneg he _) h e he gp hg
  by_contra hne
  exact (hL.pos e he _ ⟨v, hv, hne⟩).ne' h1

/-- **Positive definiteness** on the fields that vanish on the boundary. -/
theorem bil_pos (hF : F.Good) (hL : F.Law L) {w : Nat → ℝ}
    (hw : ∀ r, r < F.nn * F.dim → F.Bd r → w r = 0) (hne : ∃ r, r < F.nn * F.dim ∧ w r ≠ 0) :
    0 < F.bil L w w := by
  refine lt_of_le_of_ne (bil_nonneg hF hL w) fun h => ?_
  obtain ⟨r, hr, hne⟩ := hne
  exact hne (rigid hF hw (bil_strain hF hL h.symm) r hr)

theorem pair_comm_left (s t e : Nat → ℝ) (a b : ℝ) :
    F.pair (fun v => a * s v + b * t v) e = a * F.pair s e + b * F.pair t e := by
  unfold pair
  rw [mul_sum, mul_sum, ← sum_add_distrib]
  exact sum_congr rfl fun v _ => by ring

theorem stress_lin (hL : F.Law L) {e : Nat × Nat × Nat} (he : e ∈ F.elems) (u w : Nat → ℝ)
    (a b : ℝ) (gp : Nat) {v : Nat} (hv : v < F.nvoi) :
    F.stress L (fun r => a * u r + b * w r) e gp v
      = a * F.stress L u e gp v + b * F.stress L w e gp v := by
  unfold stress
  rw [← hL.lin e he _ _ a b v hv]
  exact hL.cong e he _ _ (fun v _ => strain_lin u w a b e gp v) v hv

theorem force_lin (hL : F.Law L) (u w : Nat → ℝ) (a b : ℝ) (r : Nat) :
    F.force (F.stress L fun r => a * u r + b * w r) r
      = a * F.force (F.stress L u) r + b * F.force (F.stress L w) r := by
  unfold force
  rw [← integral_lin]
  refine integral_congr fun e he gp _ => ?_
  rw [← pair_comm_left]
  exact pair_congr (fun v hv => stress_lin hL he u w a b gp hv) fun _ _ => rfl

theorem force_congr (hF : F.Good) (hL : F.Law L) {u w : Nat → ℝ}
    (h : ∀ r, r < F.nn * F.dim → u r = w r) (r : Nat) :
    F.force (F.stress L u) r = F.force (F.stress L w) r := by
  unfold force
  refine integral_congr fun e he gp _ => ?_
  exact pair_congr (fun v hv => hL.cong e he _ _ (fun v hv => strain_congr hF h he gp hv) v hv)
    fun _ _ => rfl

/-- The forces of a field that vanishes on the boundary, if zero in the interior, determine it. -/
theorem force_zero (hF : F.Good) (hL : F.Law L) {w : Nat → ℝ}
    (hw : ∀ r, r < F.nn * F.dim → F.Bd r → w r = 0) (he : F.Equil (F.stress L w)) :
    ∀ r, r < F.nn * F.dim → w r = 0 := by
  have h0 : F.bil L w w = 0 := by
    rw [← bil_force hF]
    refine sum_eq_zero fun r hr => ?_
    have hr := mem_range.mp hr
    by_cases hb : F.Bd r
    · rw [hw r hr hb, mul_zero]
    · rw [he r hr hb, zero_mul]
  exact rigid hF hw (bil_strain hF hL h0)

/-- **Uniqueness.** -/
theorem unique (hF : F.Good) (hL : F.Law L) {u w : Nat → ℝ}
    (hb : ∀ r, r < F.nn * F.dim → F.Bd r → u r = w r) (hu : F.Equil (F.stress L u))
    (hw : F.Equil (F.stress L w)) : ∀ r, r < F.nn * F.dim → u r = w r := by
  have := force_zero hF hL (w := fun r => 1 * u r + (-1) * w r)
    (fun r hr h => by rw [hb r hr h]; ring)
    (fun r hr h => by rw [force_lin hL, hu r hr h, hw r hr h]; ring)
  intro r hr
  have := this r hr
  linarith

/-- **Existence.** -/
theorem exists_sol (hF : F.Good) (hL : F.Law L) (g f : Nat → ℝ) :
    ∃ u : Nat → ℝ, (∀ r, r < F.nn * F.dim → F.Bd r → u r = g r) ∧
      ∀ r, r < F.nn * F.dim → ¬ F.Bd r → F.force (F.stress L u) r = f r := by
  let ι := { r : Fin (F.nn * F.dim) // ¬ F.Bd r.1 }
  let ext : (ι → ℝ) → Nat → ℝ := fun x r =>
    if h : r < F.nn * F.dim then if hb : F.Bd r then 0 else x ⟨⟨r, h⟩, hb⟩ else 0
  have ext_lin : ∀ x y (a b : ℝ) r, ext (fun i => a * x i + b * y i) r
      = a * ext x r + b * ext y r := by
    intro x y a b r
    simp only [ext]
    split
    · split
      · ring
      · rfl
    · ring
  let T : (ι → ℝ) →ₗ[ℝ] (ι → ℝ) :=
    { toFun := fun x i => F.force (F.stress L (ext x)) i.1.1
      map_add' := by
        intro x y
        funext i
        have e : ext (x + y) = fun r => 1 * ext x r + 1 * ext y r := by
          funext r
          have hz : x + y = fun i => 1 * x i + 1 * y i := by funext i; simp
          rw [hz, ext_lin]
        show F.force (F.stress L (ext (x + y))) i.1.1 = _
        rw [e, force_lin hL]
        simp
      map_smul' := by
        intro a x
        funext i
        have e : ext (a • x) = fun r => a * ext x r + 0 * ext x r := by
          funext r
          have hz : a • x = fun i => a * x i + 0 * x i := by funext i; simp
          rw [hz, ext_lin]
        show F.force (F.stress L (ext (a • x))) i.1.1 = _
        rw [e, force_lin hL]
        simp }
  have ext_bd : ∀ x r, r < F.nn * F.dim → F.Bd r → ext x r = 0 := by
    intro x r hr hb
    simp only [ext]
    rw [dif_pos hr, dif_pos hb]
  have inj : Function.Injective T := by
    rw [injective_iff_map_eq_zero]
    intro x hx
    have h0 := force_zero hF hL (w := ext x) (ext_bd x) (fun r hr hb => by
      have := congrFun hx ⟨⟨r, hr⟩, hb⟩
      exact this)
    funext i
    have := h0 i.1.1 i.1.2
    simp only [ext] at this
    rw [dif_pos i.1.2, dif_neg i.2] at this
    exact this
  have surj : Function.Surjective T := LinearMap.injective_iff_surjective.mp inj
  let g0 : Nat → ℝ := fun r => if F.Bd r then g r else 0
  obtain ⟨x, hx⟩ := surj (fun i => f i.1.1 - F.force (F.stress L g0) i.1.1)
  refine ⟨fun r => 1 * ext x r + 1 * g0 r, fun r hr hb => ?_, fun r hr hb => ?_⟩
  · show 1 * ext x r + 1 * g0 r = g r
    rw [ext_bd x r hr hb]; simp only [g0]; rw [if_pos hb]; ring
  · rw [force_lin hL]
    have := congrFun hx ⟨⟨r, hr⟩, hb⟩
    have h2 : F.force (F.stress L (ext x)) r = f r - F.force (F.stress L g0) r := this
    rw [h2]; ring

/-! ## Homogenised law -/

theorem pair_aveStress (s : Nat × Nat × Nat → Nat → Nat → ℝ) (eps : Nat → ℝ) :
    F.pair (F.aveStress s) eps = F.pair (fun v => F.integral fun e gp => s e gp v) eps / F.vol := by
  unfold pair aveStress
  rw [div_eq_mul_inv, sum_mul]
  exact sum_congr rfl fun v _ => by ring

theorem macro_work (hF : F.Good) {eps eps' u u' : Nat → ℝ}
    (hu' : F.OnBd eps' u') (he : F.Equil (F.stress L u)) :
    F.pair (F.aveStress (F.stress L u)) eps' = F.bil L u u' / F.vol := by
  rw [pair_aveStress, ← hill_mandel hF he hu']
  rfl

/-- The homogenised law is symmetric. -/
theorem macro_sym (hF : F.Good) (hL : F.Law L) {eps eps' u u' : Nat → ℝ} (hu : F.OnBd eps u)
    (hu' : F.OnBd eps' u') (he : F.Equil (F.stress L u)) (he' : F.Equil (F.stress L u')) :
    F.pair (F.aveStress (F.stress L u)) eps' = F.pair (F.aveStress (F.stress L u')) eps := by
  rw [macro_work (eps := eps) hF hu' he, macro_work (eps := eps') hF hu he', bil_sym hL]

/-- The homogenised law is positive definite. -/
theorem macro_pos (hF : F.Good) (hL : F.Law L) {eps u : Nat → ℝ} (hu : F.OnBd eps u)
    (he : F.Equil (F.stress L u)) (hne : ∃ v, v < F.nvoi ∧ eps v ≠ 0) :
    0 < F.pair (F.aveStress (F.stress L u)) eps := by
  rw [macro_work (eps := eps) hF hu he]
  refine div_pos (lt_of_le_of_ne (bil_nonneg hF hL u) fun h => ?_) (vol_pos hF)
  obtain ⟨v, hv, hne⟩ := hne
  have h1 := bil_strain hF hL h.symm
  have h2 := integral_strain hF hu hv
  rw [integral_congr (g := fun _ _ => 0) (fun e he gp hg => h1 e he gp hg v hv),
    integral_const hF, mul_zero] at h2
  rcases mul_eq_zero.mp h2.symm with h | h
  · exact (vol_pos hF).ne' h
  · exact hne h

theorem affine_lin (eps eps' : Nat → ℝ) (a b : ℝ) (r : Nat) :
    F.affine (F.symGrad fun v => a * eps v + b * eps' v) (fun _ => 0) r
      = a * F.affine (F.symGrad eps) (fun _ => 0) r
        + b * F.affine (F.symGrad eps') (fun _ => 0) r := by
  unfold affine
  simp only [zero_add]
  rw [mul_sum, mul_sum, ← sum_add_distrib]
  refine sum_congr rfl fun j _ => ?_
  unfold symGrad
  split <;> ring

theorem OnBd.lin {eps eps' u u' : Nat → ℝ} (hu : F.OnBd eps u) (hu' : F.OnBd eps' u') (a b : ℝ) :
    F.OnBd (fun v => a * eps v + b * eps' v) (fun r => a * u r + b * u' r) :=
  fun r hr hb => by
    show a * u r + b * u' r = _
    rw [affine_lin, hu r hr hb, hu' r hr hb]

theorem Equil.lin (hL : F.Law L) {u u' : Nat → ℝ} (he : F.Equil (F.stress L u))
    (he' : F.Equil (F.stress L u')) (a b : ℝ) :
    F.Equil (F.stress L fun r => a * u r + b * u' r) :=
  fun r hr hb => by rw [force_lin hL, he r hr hb, he' r hr hb]; ring

theorem aveStress_congr {s s' : Nat × Nat × Nat → Nat → Nat → ℝ} {v : Nat}
    (h : ∀ e ∈ F.elems, ∀ gp, gp < F.npe → s e gp v = s' e gp v) :
    F.aveStress s v = F.aveStress s' v := by
  unfold aveStress; rw [integral_congr h]

/-- The homogenised law is linear (and well defined: equal strains give equal stresses). -/
theorem macro_lin (hF : F.Good) (hL : F.Law L) {eps eps' u u' u'' : Nat → ℝ} {a b : ℝ}
    (hu : F.OnBd eps u) (hu' : F.OnBd eps' u') (hu'' : F.OnBd (fun v => a * eps v + b * eps' v) u'')
    (he : F.Equil (F.stress L u)) (he' : F.Equil (F.stress L u'))
    (he'' : F.Equil (F.stress L u'')) {v : Nat} (hv : v < F.nvoi) :
    F.aveStress (F.stress L u'') v
      = a * F.aveStress (F.stress L u) v + b * F.aveStress (F.stress L u') v := by
  have h := unique hF hL (u := u'') (w := fun r => a * u r + b * u' r)
    (fun r hr hb => by rw [hu'' r hr hb, ← hu.lin hu' a b r hr hb]) he'' (Equil.lin hL he he' a b)
  have h1 : F.aveStress (F.stress L u'') v
      = F.aveStress (F.stress L fun r => a * u r + b * u' r) v :=
    aveStress_congr fun e he gp _ =>
      hL.cong e he _ _ (fun v hv => strain_congr hF h he gp hv) v hv
  rw [h1]
  unfold aveStress
  rw [integral_congr (g := fun e gp => a * F.stress L u e gp v + b * F.stress L u' e gp v)
    (fun e he gp _ => stress_lin hL he u u' a b gp hv), integral_lin]
  ring

theorem symGrad_congr (hF : F.Good) {eps eps' : Nat → ℝ} (h : ∀ v, v < F.nvoi → eps v = eps' v)
    {i j : Nat} (hi : i < F.dim) (hj : j < F.dim) : F.symGrad eps i j = F.symGrad eps' i j := by
  have hn : (F.dim = 2 ∧ F.nvoi = 3) ∨ (F.dim = 3 ∧ F.nvoi = 6) := by
    rcases hF.kind with ⟨h1, -, h2, -⟩ | ⟨h1, -, h2, -⟩
    · exact Or.inl ⟨h1, h2⟩
    · exact Or.inr ⟨h1, h2⟩
  unfold symGrad
  split
  · exact h _ (by omega)
  · rw [h]
    split <;> omega

theorem OnBd.congr (hF : F.Good) {eps eps' u : Nat → ℝ} (h : ∀ v, v < F.nvoi → eps v = eps' v)
    (hu : F.OnBd eps u) : F.OnBd eps' u := by
  intro r hr hb
  rw [hu r hr hb]
  have hd : 0 < F.dim := by rcases hF.kind with ⟨h1, -⟩ | ⟨h1, -⟩ <;> omega
  unfold affine
  congr 1
  exact sum_congr rfl fun j hj => by
    rw [symGrad_congr hF h (Nat.mod_lt _ hd) (mem_range.mp hj)]

/-- The homogenised stiffness. -/
theorem macro_tensor (hF : F.Good) (hL : F.Law L) :
    ∃ C : Nat → Nat → ℝ,
      (∀ i j, i < F.nvoi → j < F.nvoi → C i j = C j i) ∧
      (∀ eps : Nat → ℝ, (∃ v, v < F.nvoi ∧ eps v ≠ 0) →
        0 < ∑ i ∈ range F.nvoi, ∑ j ∈ range F.nvoi, eps i * C i j * eps j) ∧
      ∀ eps u : Nat → ℝ, F.OnBd eps u → F.Equil (F.stress L u) → ∀ v, v < F.nvoi →
        F.aveStress (F.stress L u) v = ∑ j ∈ range F.nvoi, C v j * eps j := by
  have hex : ∀ eps : Nat → ℝ, ∃ u, F.OnBd eps u ∧ F.Equil (F.stress L u) := fun eps =>
    exists_sol hF hL (F.affine (F.symGrad eps) fun _ => 0) fun _ => 0
  choose sol hb he using hex
  let e1 : Nat → Nat → ℝ := fun j v => if v = j then 1 else 0
  let C : Nat → Nat → ℝ := fun v j => F.aveStress (F.stress L (sol (e1 j))) v
  have hpair : ∀ s : Nat → ℝ, ∀ j, j < F.nvoi → F.pair s (e1 j) = s j := by
    intro s j hj
    unfold pair
    rw [sum_eq_single j]
    · simp [e1]
    · intro b _ hbj; simp [e1, hbj]
    · intro h; exact absurd (mem_range.mpr hj) h
  have hlin : ∀ eps : Nat → ℝ, ∀ k, k ≤ F.nvoi → ∀ u, F.OnBd (fun v => if v < k then eps v else 0) u →
      F.Equil (F.stress L u) → ∀ v, v < F.nvoi →
      F.aveStress (F.stress L u) v = ∑ j ∈ range k, C v j * eps j := by
    intro eps k
    induction k with
    | zero =>
      intro _ u hu hq v hv
      have := macro_lin hF hL (a := 0) (b := 0) (hb (e1 0)) (hb (e1 0)) (u'' := u)
        (by simpa using hu) (he _) (he _) hq hv
      rw [this]; simp
    | succ k ih =>
      intro hk u hu hq v hv
      have := macro_lin hF hL (a := 1) (b := eps k) (hb (fun v => if v < k then eps v else 0)) (hb (e1 k))
        (u'' := u) (by
          convert hu using 2
          rename_i v
          rcases Nat.lt_trichotomy v k with h | h | h
          · simp [e1, h, h.ne, Nat.lt_succ_of_lt h]
          · subst h; simp [e1]
          · have h1 : ¬ v < k := by omega
            have h2 : ¬ v < k + 1 := by omega
            simp [e1, h.ne', h1, h2]) (he _) (he _) hq hv
      rw [this, ih (by omega) _ (hb _) (he _) v hv, sum_range_succ]
      show _ + eps k * C v k = _
      ring
  have hall : ∀ eps u : Nat → ℝ, F.OnBd eps u → F.Equil (F.stress L u) → ∀ v, v < F.nvoi →
      F.aveStress (F.stress L u) v = ∑ j ∈ range F.nvoi, C v j * eps j := fun eps u hu hq v hv =>
    hlin eps F.nvoi le_rfl u (hu.congr hF fun v hv => by rw [if_pos hv]) hq v hv
  refine ⟨C, fun i j hi hj => ?_, fun eps hne => ?_, hall⟩
  · have := macro_sym hF hL (hb (e1 j)) (hb (e1 i)) (he _) (he _)
    rwa [hpair _ i hi, hpair _ j hj] at this
  · have := macro_pos hF hL (hb eps) (he eps) hne
    unfold pair at this
    convert this using 1
    refine sum_congr rfl fun i hi => ?_
    rw [hall eps _ (hb eps) (he eps) i (mem_range.mp hi), sum_mul]
    exact sum_congr rfl fun j _ => by ring

/-! ## Homogeneous cells -/

/-- A uniform stress is equilibrated. -/
theorem equil_const (hF : F.Good) {s : Nat × Nat × Nat → Nat → Nat → ℝ} {s0 : Nat → ℝ}
    (h : ∀ e ∈ F.elems, ∀ gp, gp < F.npe → ∀ v, v < F.nvoi → s e gp v = s0 v) : F.Equil s := by
  intro r hr hb
  unfold force
  have h1 : F.integral (fun e gp => F.pair (s e gp)
        (F.strain (fun q => if q = r then 1 else 0) e gp))
      = F.integral (fun e gp => ∑ v ∈ range F.nvoi,
        (s0 v * F.strain (fun q => if q = r then 1 else 0) e gp v + 0 * 0)) := by
    refine integral_congr fun e he gp hg => ?_
    unfold pair
    exact sum_congr rfl fun v hv => by rw [h e he gp hg v (mem_range.mp hv)]; ring
  rw [h1, integral_sum]
  refine sum_eq_zero fun v hv => ?_
  rw [integral_lin (F := F) (fun e gp => F.strain (fun q => if q = r then 1 else 0) e gp v)
    (fun _ _ => 0) (s0 v) 0, integral_strain_zero hF _ (mem_range.mp hv)]
  · ring
  · intro q _ hq
    exact if_neg (by rintro rfl; exact hb hq)

/-- The affine field of a homogeneous law is equilibrated, and its average stress is the law. -/
theorem homogeneous (hF : F.Good) (hL : F.Law L) {L0 : (Nat → ℝ) → Nat → ℝ}
    (h0 : ∀ e ∈ F.elems, ∀ x v, v < F.nvoi → L e x v = L0 x v) (G : Nat → Nat → ℝ) (t : Nat → ℝ)
    {eps : Nat → ℝ} (hG : ∀ v, v < F.nvoi → voigt F.dim G v = eps v) :
    (∀ e ∈ F.elems, ∀ gp, gp < F.npe → ∀ v, v < F.nvoi → F.stress L (F.affine G t) e gp v = L0 eps v)
    ∧ F.Equil (F.stress L (F.affine G t)) ∧
      ∀ v, v < F.nvoi → F.aveStress (F.stress L (F.affine G t)) v = L0 eps v := by
  have h1 : ∀ e ∈ F.elems, ∀ gp, gp < F.npe → ∀ v, v < F.nvoi →
      F.stress L (F.affine G t) e gp v = L0 eps v := by
    intro e he gp _ v hv
    unfold stress
    rw [hL.cong e he _ eps (fun v hv => by rw [strain_affine hF G t he gp hv, hG v hv]) v hv,
      h0 e he _ v hv]
  refine ⟨h1, equil_const hF h1, fun v hv => ?_⟩
  unfold aveStress
  rw [integral_congr (g := fun _ _ => L0 eps v) (fun e he gp hg => h1 e he gp hg v hv),
    integral_const hF]
  have := (vol_pos hF).ne'
  field_simp

end Verif.Spec.Fe
