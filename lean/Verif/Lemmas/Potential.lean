import Verif.Lemmas.Stab
import Verif.Lemmas.Bounds
import Mathlib.Analysis.Normed.Group.Constructions
import Mathlib.Topology.Order.Compact
import Mathlib.Topology.Semicontinuity.Basic
import Mathlib.Topology.MetricSpace.ProperSpace.Real
import Mathlib.Topology.MetricSpace.ProperSpace

/-! # Cell problems with a convex potential -/

namespace Verif.Spec
open Finset

/-- A law at every Gauss point that derives from a convex potential. -/
structure Pot (F : Fe) where
  S : Nat × Nat × Nat → Nat → (Nat → ℝ) → Nat → ℝ
  W : Nat × Nat × Nat → Nat → (Nat → ℝ) → ℝ
  /-- constants -/
  kap : Nat × Nat × Nat → Nat → ℝ
  cap : Nat × Nat × Nat → Nat → ℝ
  slope : Nat × Nat × Nat → Nat → ℝ
  shift : Nat × Nat × Nat → Nat → ℝ
  kap_pos : ∀ e ∈ F.elems, ∀ gp, gp < F.npe → 0 < kap e gp
  slope_pos : ∀ e ∈ F.elems, ∀ gp, gp < F.npe → 0 < slope e gp
  below : ∀ e ∈ F.elems, ∀ gp, gp < F.npe → ∀ x y, W e gp x + F.pair (S e gp x) (fun v => y v - x v)
    + kap e gp * ∑ v ∈ range F.nvoi, (S e gp y v - S e gp x v) ^ 2 ≤ W e gp y
  above : ∀ e ∈ F.elems, ∀ gp, gp < F.npe → ∀ x y, W e gp y ≤ W e gp x
    + F.pair (S e gp x) (fun v => y v - x v) + cap e gp * ∑ v ∈ range F.nvoi, (y v - x v) ^ 2
  grow : ∀ e ∈ F.elems, ∀ gp, gp < F.npe → ∀ x,
    slope e gp * ∑ v ∈ range F.nvoi, |x v| - shift e gp ≤ W e gp x

namespace Fe

theorem exists_lower {ι : Type} (s : Finset ι) (f : ι → ℝ) (h : ∀ i ∈ s, 0 < f i) :
    ∃ g : ℝ, 0 < g ∧ ∀ i ∈ s, g ≤ f i := by
  classical
  induction s using Finset.induction_on with
  | empty => exact ⟨1, one_pos, fun i hi => by simp at hi⟩
  | insert a s _ ih =>
    obtain ⟨g, hg, hs⟩ := ih fun i hi => h i (mem_insert_of_mem hi)
    refine ⟨min g (f a), lt_min hg (h a (mem_insert_self ..)), fun i hi => ?_⟩
    rcases mem_insert.mp hi with rfl | hi
    · exact min_le_right _ _
    · exact (min_le_left _ _).trans (hs i hi)

variable {F : Fe}

theorem nn_pos (hF : F.Good) : 0 < F.nn := by
  have := node_lt hF (e := (0, 0, 0)) (by
    rw [mem_elems]
    have := layers_pos hF
    have h1 := hF.nx; have h2 := hF.ny
    exact ⟨by show 0 < _; omega, by show 0 < _; omega, by show 0 < _; omega⟩) (a := 0) (npe_pos hF)
  omega

/-- Size of the strains of a field. -/
noncomputable def strainSize (F : Fe) (w : Nat → ℝ) : ℝ :=
  F.integral fun e gp => ∑ v ∈ range F.nvoi, |F.strain w e gp v|

theorem idLaw (F : Fe) : F.Law (fun _ x v => x v) := by
  refine ⟨fun _ _ _ _ h v hv => h v hv, fun _ _ _ _ _ _ _ _ => rfl, fun _ _ x y => ?_, fun e _ x hx => ?_⟩
  · exact sum_congr rfl fun v _ => mul_comm _ _
  · obtain ⟨v, hv, hne⟩ := hx
    exact sum_pos' (fun v _ => mul_self_nonneg _) ⟨v, mem_range.mpr hv, mul_self_pos.mpr hne⟩

theorem strainSize_nonneg (hF : F.Good) (w : Nat → ℝ) : 0 ≤ F.strainSize w :=
  integral_nonneg hF fun _ _ _ _ => sum_nonneg fun _ _ => abs_nonneg _

/-- The strains of a field that vanishes on the boundary bound the field. -/
theorem korn (hF : F.Good) : ∃ K : ℝ, 0 < K ∧ ∀ w : Nat → ℝ,
    (∀ r, r < F.nn * F.dim → F.Bd r → w r = 0) → ∀ r, r < F.nn * F.dim → |w r| ≤ K * F.strainSize w := by
  obtain ⟨K, hK, h⟩ := stable hF (idLaw F)
  let u1 : Nat → Nat → ℝ := fun r q => if q = r then 1 else 0
  let M : ℝ := ∑ r ∈ range (F.nn * F.dim), ∑ e ∈ F.elems, ∑ gp ∈ range F.npe, ∑ v ∈ range F.nvoi,
    |F.strain (u1 r) e gp v|
  have hM0 : 0 ≤ M := sum_nonneg fun _ _ => sum_nonneg fun _ _ => sum_nonneg fun _ _ =>
    sum_nonneg fun _ _ => abs_nonneg _
  have hM : ∀ r, r < F.nn * F.dim → ∀ e ∈ F.elems, ∀ gp, gp < F.npe → ∀ v, v < F.nvoi →
      |F.strain (u1 r) e gp v| ≤ M := by
    intro r hr e he gp hg v hv
    calc |F.strain (u1 r) e gp v| ≤ ∑ v ∈ range F.nvoi, |F.strain (u1 r) e gp v| :=
          single_le_sum (f := fun v => |F.strain (u1 r) e gp v|) (fun _ _ => abs_nonneg _) (mem_range.mpr hv)
      _ ≤ ∑ gp ∈ range F.npe, ∑ v ∈ range F.nvoi, |F.strain (u1 r) e gp v| :=
          single_le_sum (f := fun gp => ∑ v ∈ range F.nvoi, |F.strain (u1 r) e gp v|)
            (fun _ _ => sum_nonneg fun _ _ => abs_nonneg _) (mem_range.mpr hg)
      _ ≤ ∑ e ∈ F.elems, ∑ gp ∈ range F.npe, ∑ v ∈ range F.nvoi, |F.strain (u1 r) e gp v| :=
          single_le_sum (f := fun e => ∑ gp ∈ range F.npe, ∑ v ∈ range F.nvoi, |F.strain (u1 r) e gp v|)
            (fun _ _ => sum_nonneg fun _ _ => sum_nonneg fun _ _ => abs_nonneg _) he
      _ ≤ M := single_le_sum (f := fun r => ∑ e ∈ F.elems, ∑ gp ∈ range F.npe, ∑ v ∈ range F.nvoi,
              |F.strain (u1 r) e gp v|)
            (fun _ _ => sum_nonneg fun _ _ => sum_nonneg fun _ _ => sum_nonneg fun _ _ => abs_nonneg _)
            (mem_range.mpr hr)
  refine ⟨K * (M + 1), by positivity, fun w hw r hr => ?_⟩
  have hS := strainSize_nonneg hF w
  have := (h w ((M + 1) * F.strainSize w) (by positivity) (fun r hr hb => by
    rw [hw r hr hb, abs_zero]; positivity) ?_).1 r hr
  · calc |w r| ≤ _ := this
      _ = K * (M + 1) * F.strainSize w := by ring
  · intro r hr _
    have h1 : |F.force (F.stress (fun _ x v => x v) w) r| ≤ M * F.strainSize w := by
      unfold force strainSize
      rw [abs_le]
      have h2 : ∀ e ∈ F.elems, ∀ gp, gp < F.npe →
          |F.pair (F.stress (fun _ x v => x v) w e gp) (F.strain (u1 r) e gp)|
            ≤ M * ∑ v ∈ range F.nvoi, |F.strain w e gp v| := by
        intro e he gp hg
        unfold pair
        refine (abs_sum_le_sum_abs _ _).trans ?_
        rw [mul_sum]
        refine sum_le_sum fun v hv => ?_
        rw [abs_mul, mul_comm]
        exact mul_le_mul_of_nonneg_right (hM r hr e he gp hg v (mem_range.mp hv)) (abs_nonneg _)
      have hl : M * F.integral (fun e gp => ∑ v ∈ range F.nvoi, |F.strain w e gp v|)
          = F.integral fun e gp => M * ∑ v ∈ range F.nvoi, |F.strain w e gp v| := by
        have := integral_lin (F := F) (fun e gp => ∑ v ∈ range F.nvoi, |F.strain w e gp v|)
          (fun _ _ => 0) M 0
        simp only [zero_mul, add_zero] at this
        exact this.symm
      have hl' : -(M * F.integral (fun e gp => ∑ v ∈ range F.nvoi, |F.strain w e gp v|))
          = F.integral fun e gp => -(M * ∑ v ∈ range F.nvoi, |F.strain w e gp v|) := by
        have := integral_lin (F := F) (fun e gp => ∑ v ∈ range F.nvoi, |F.strain w e gp v|)
          (fun _ _ => 0) (-M) 0
        simp only [zero_mul, add_zero, neg_mul] at this
        exact this.symm
      constructor
      · rw [hl']
        exact integral_mono hF fun e he gp hg => (abs_le.mp (h2 e he gp hg)).1
      · rw [hl]
        exact integral_mono hF fun e he gp hg => (abs_le.mp (h2 e he gp hg)).2
    nlinarith

variable (P : Pot F)

/-- The stress field of a displacement. -/
noncomputable def _root_.Verif.Spec.Pot.field (P : Pot F) (u : Nat → ℝ) (e : Nat × Nat × Nat) (gp v : Nat) : ℝ :=
  P.S e gp (F.strain u e gp) v

/-- The energy of a displacement. -/
noncomputable def _root_.Verif.Spec.Pot.energy (P : Pot F) (u : Nat → ℝ) : ℝ :=
  F.integral fun e gp => P.W e gp (F.strain u e gp)

/-- Distance of two stress fields, weighted. -/
noncomputable def _root_.Verif.Spec.Pot.gap (P : Pot F) (u w : Nat → ℝ) : ℝ :=
  F.integral fun e gp => P.kap e gp * ∑ v ∈ range F.nvoi, (P.field w e gp v - P.field u e gp v) ^ 2

theorem gap_nonneg (hF : F.Good) (u w : Nat → ℝ) : 0 ≤ P.gap u w :=
  integral_nonneg hF fun e he gp hg =>
    mul_nonneg (P.kap_pos e he gp hg).le (sum_nonneg fun _ _ => sq_nonneg _)

theorem pair_strain_sub (s : Nat → ℝ) (u w : Nat → ℝ) (e : Nat × Nat × Nat) (gp : Nat) :
    F.pair s (F.strain (fun r => w r - u r) e gp)
      = F.pair s (fun v => F.strain w e gp v - F.strain u e gp v) :=
  pair_congr (fun _ _ => rfl) fun v _ => strain_sub w u e gp v

theorem energy_below (hF : F.Good) (u w : Nat → ℝ) :
    P.energy u + ∑ r ∈ range (F.nn * F.dim), F.force (P.field u) r * (w r - u r) + P.gap u w
      ≤ P.energy w := by
  rw [virtual_work hF (P.field u) fun r => w r - u r]
  unfold Pot.energy Pot.gap
  have h := integral_lin (F := F) (fun e gp => P.W e gp (F.strain u e gp))
    (fun e gp => F.pair (P.field u e gp) (F.strain (fun r => w r - u r) e gp)) 1 1
  have h' := integral_lin (F := F) (fun e gp => 1 * P.W e gp (F.strain u e gp)
    + 1 * F.pair (P.field u e gp) (F.strain (fun r => w r - u r) e gp))
    (fun e gp => P.kap e gp * ∑ v ∈ range F.nvoi, (P.field w e gp v - P.field u e gp v) ^ 2) 1 1
  rw [h] at h'
  simp only [one_mul] at h'
  rw [← h']
  refine integral_mono hF fun e he gp hg => ?_
  rw [pair_strain_sub]
  exact P.below e he gp hg _ _

theorem energy_above (hF : F.Good) (u w : Nat → ℝ) :
    P.energy w ≤ P.energy u + ∑ r ∈ range (F.nn * F.dim), F.force (P.field u) r * (w r - u r)
      + F.integral fun e gp => P.cap e gp * ∑ v ∈ range F.nvoi, (F.strain (fun r => w r - u r) e gp v) ^ 2 := by
  rw [virtual_work hF (P.field u) fun r => w r - u r]
  unfold Pot.energy
  have h := integral_lin (F := F) (fun e gp => P.W e gp (F.strain u e gp))
    (fun e gp => F.pair (P.field u e gp) (F.strain (fun r => w r - u r) e gp)) 1 1
  have h' := integral_lin (F := F) (fun e gp => 1 * P.W e gp (F.strain u e gp)
    + 1 * F.pair (P.field u e gp) (F.strain (fun r => w r - u r) e gp))
    (fun e gp => P.cap e gp * ∑ v ∈ range F.nvoi, (F.strain (fun r => w r - u r) e gp v) ^ 2) 1 1
  rw [h] at h'
  simp only [one_mul] at h'
  rw [← h']
  refine integral_mono hF fun e he gp hg => ?_
  rw [pair_strain_sub]
  refine (P.above e he gp hg (F.strain u e gp) (F.strain w e gp)).trans (le_of_eq ?_)
  congr 2
  exact sum_congr rfl fun v _ => by rw [strain_sub]

theorem work_zero {s : Nat × Nat × Nat → Nat → Nat → ℝ} (hs : F.Equil s) {x : Nat → ℝ}
    (hx : ∀ r, r < F.nn * F.dim → F.Bd r → x r = 0) :
    ∑ r ∈ range (F.nn * F.dim), F.force s r * x r = 0 := by
  refine sum_eq_zero fun r hr => ?_
  have hr := mem_range.mp hr
  by_cases hb : F.Bd r
  · rw [hx r hr hb, mul_zero]
  · rw [hs r hr hb, zero_mul]

/-- An equilibrium has the least energy, and the stress of any other field costs energy. -/
theorem pot_min (hF : F.Good) {u w : Nat → ℝ} (hu : F.Equil (P.field u))
    (hb : ∀ r, r < F.nn * F.dim → F.Bd r → w r = u r) : P.energy u + P.gap u w ≤ P.energy w := by
  have h := energy_below P hF u w
  rw [work_zero hu (x := fun r => w r - u r) fun r hr h => by rw [hb r hr h, sub_self]] at h
  linarith

theorem gap_zero (hF : F.Good) {u w : Nat → ℝ} (h : P.gap u w = 0) :
    ∀ e ∈ F.elems, ∀ gp, gp < F.npe → ∀ v, v < F.nvoi → P.field w e gp v = P.field u e gp v := by
  intro e he gp hg v hv
  have h1 := integral_eq_zero hF (fun e he gp hg =>
    mul_nonneg (P.kap_pos e he gp hg).le (sum_nonneg fun _ _ => sq_nonneg _)) h e he gp hg
  have h2 := (mul_eq_zero.mp h1).resolve_left (P.kap_pos e he gp hg).ne'
  have h3 := (sum_eq_zero_iff_of_nonneg fun v _ => sq_nonneg _).mp h2 v (mem_range.mpr hv)
  have := pow_eq_zero_iff two_ne_zero |>.mp h3
  linarith

/-- The stresses of equilibria with the same boundary values agree. -/
theorem pot_unique (hF : F.Good) {u w : Nat → ℝ} (hu : F.Equil (P.field u)) (hw : F.Equil (P.field w))
    (hb : ∀ r, r < F.nn * F.dim → F.Bd r → w r = u r) :
    ∀ e ∈ F.elems, ∀ gp, gp < F.npe → ∀ v, v < F.nvoi → P.field w e gp v = P.field u e gp v := by
  have h1 := pot_min P hF hu hb
  have h2 := pot_min P hF hw (w := u) fun r hr h => (hb r hr h).symm
  exact gap_zero P hF (by linarith [gap_nonneg P hF u w, gap_nonneg P hF w u])

/-- A field of least energy is an equilibrium. -/
theorem pot_stationary (hF : F.Good) {u : Nat → ℝ}
    (hmin : ∀ w : Nat → ℝ, (∀ r, r < F.nn * F.dim → F.Bd r → w r = u r) → P.energy u ≤ P.energy w) :
    F.Equil (P.field u) := by
  intro q hq hb
  let x : Nat → ℝ := fun r => if r = q then 1 else 0
  let C : ℝ := F.integral fun e gp => P.cap e gp * ∑ v ∈ range F.nvoi, (F.strain x e gp v) ^ 2
  have key : ∀ t : ℝ, 0 ≤ t * F.force (P.field u) q + t ^ 2 * C := by
    intro t
    let w : Nat → ℝ := fun r => u r + t * x r
    have h1 := hmin w fun r hr h => by
      show u r + t * (if r = q then 1 else 0) = u r
      rw [if_neg (by rintro rfl; exact hb h)]; ring
    have h2 := energy_above P hF u w
    have e1 : (fun r => w r - u r) = fun r => t * x r + 0 * x r := by
      funext r; show u r + t * x r - u r = _; ring
    have e2 : ∑ r ∈ range (F.nn * F.dim), F.force (P.field u) r * (w r - u r)
        = t * F.force (P.field u) q := by
      rw [sum_eq_single q]
      · show _ * (u q + t * (if q = q then 1 else 0) - u q) = _
        rw [if_pos rfl]; ring
      · intro r _ hr
        show _ * (u r + t * (if r = q then 1 else 0) - u r) = _
        rw [if_neg hr]; ring
      · intro h; exact absurd (mem_range.mpr hq) h
    have e3 : (F.integral fun e gp => P.cap e gp * ∑ v ∈ range F.nvoi, (F.strain (fun r => w r - u r) e gp v) ^ 2)
        = t ^ 2 * C := by
      have := integral_lin (F := F) (fun e gp => P.cap e gp * ∑ v ∈ range F.nvoi, (F.strain x e gp v) ^ 2)
        (fun _ _ => 0) (t ^ 2) 0
      simp only [zero_mul, add_zero] at this
      rw [← this]
      refine integral_congr fun e _ gp _ => ?_
      rw [e1, mul_left_comm, mul_sum, mul_sum]
      congr 1
      rw [mul_sum]
      exact sum_congr rfl fun v _ => by rw [strain_lin]; ring
    rw [e2, e3] at h2
    linarith
  by_contra hne
  have h1 := key (-(F.force (P.field u) q) / (2 * (|C| + 1)))
  have hC : C ≤ |C| := le_abs_self C
  have hp : 0 < |C| + 1 := by positivity
  have hf : 0 < F.force (P.field u) q ^ 2 := by positivity
  have : -(F.force (P.field u) q) / (2 * (|C| + 1)) * F.force (P.field u) q
      + (-(F.force (P.field u) q) / (2 * (|C| + 1))) ^ 2 * C
      = F.force (P.field u) q ^ 2 / (4 * (|C| + 1) ^ 2) * (C - 2 * (|C| + 1)) := by
    field_simp; ring
  rw [this] at h1
  have h2 : 0 < F.force (P.field u) q ^ 2 / (4 * (|C| + 1) ^ 2) := by positivity
  have h3 : C - 2 * (|C| + 1) < 0 := by linarith [abs_nonneg C]
  nlinarith

theorem energy_congr (hF : F.Good) {u w : Nat → ℝ} (h : ∀ r, r < F.nn * F.dim → u r = w r) :
    P.energy u = P.energy w := by
  have h1 := energy_below P hF u w
  have h2 := energy_below P hF w u
  have e1 : ∑ r ∈ range (F.nn * F.dim), F.force (P.field u) r * (w r - u r) = 0 :=
    sum_eq_zero fun r hr => by rw [h r (mem_range.mp hr)]; ring
  have e2 : ∑ r ∈ range (F.nn * F.dim), F.force (P.field w) r * (u r - w r) = 0 :=
    sum_eq_zero fun r hr => by rw [h r (mem_range.mp hr)]; ring
  linarith [gap_nonneg P hF u w, gap_nonneg P hF w u]

/-- The energy grows with the distance from a given field. -/
theorem pot_coercive (hF : F.Good) (u0 : Nat → ℝ) : ∃ a b : ℝ, 0 < a ∧ ∀ w : Nat → ℝ,
    (∀ r, r < F.nn * F.dim → F.Bd r → w r = u0 r) → ∀ r, r < F.nn * F.dim →
      a * |w r - u0 r| - b ≤ P.energy w := by
  obtain ⟨K, hK, hk⟩ := korn hF
  obtain ⟨g, hg, hg'⟩ := exists_lower (F.elems ×ˢ range F.npe) (fun i => P.slope i.1 i.2) fun i hi =>
    P.slope_pos i.1 (mem_product.mp hi).1 i.2 (mem_range.mp (mem_product.mp hi).2)
  let b0 := F.integral P.shift
  refine ⟨g / K, g * F.strainSize u0 + b0, by positivity, fun w hw r hr => ?_⟩
  have h1 := hk (fun r => w r - u0 r) (fun r hr hb => by rw [hw r hr hb, sub_self]) r hr
  have h2 : F.strainSize (fun r => w r - u0 r) ≤ F.strainSize w + F.strainSize u0 := by
    unfold strainSize
    have := integral_lin (F := F) (fun e gp => ∑ v ∈ range F.nvoi, |F.strain w e gp v|)
      (fun e gp => ∑ v ∈ range F.nvoi, |F.strain u0 e gp v|) 1 1
    simp only [one_mul] at this
    rw [← this]
    refine integral_mono hF fun e _ gp _ => ?_
    rw [← sum_add_distrib]
    refine sum_le_sum fun v _ => ?_
    rw [strain_sub]
    exact abs_sub _ _
  have h3 : g * F.strainSize w - b0 ≤ P.energy w := by
    unfold strainSize Pot.energy
    have := integral_lin (F := F) (fun e gp => ∑ v ∈ range F.nvoi, |F.strain w e gp v|) P.shift g (-1)
    have e : g * F.integral (fun e gp => ∑ v ∈ range F.nvoi, |F.strain w e gp v|) - b0
        = g * F.integral (fun e gp => ∑ v ∈ range F.nvoi, |F.strain w e gp v|) + -1 * F.integral P.shift := by
      show _ - F.integral P.shift = _; ring
    rw [e, ← this]
    refine integral_mono hF fun e he gp hgp => ?_
    have h4 := P.grow e he gp hgp (F.strain w e gp)
    have h5 := hg' (e, gp) (mem_product.mpr ⟨he, mem_range.mpr hgp⟩)
    have h6 : 0 ≤ ∑ v ∈ range F.nvoi, |F.strain w e gp v| := sum_nonneg fun _ _ => abs_nonneg _
    simp only at h5
    nlinarith
  have h7 : g / K * |w r - u0 r| ≤ g * (F.strainSize w + F.strainSize u0) := by
    have : g / K * |w r - u0 r| ≤ g / K * (K * (F.strainSize w + F.strainSize u0)) :=
      mul_le_mul_of_nonneg_left (h1.trans (mul_le_mul_of_nonneg_left h2 hK.le)) (by positivity)
    refine this.trans (le_of_eq ?_)
    field_simp
  linarith

/-- **Existence**: there is an equilibrium with given boundary values. -/
theorem pot_exists (hF : F.Good) (u0 : Nat → ℝ) : ∃ u : Nat → ℝ,
    (∀ r, r < F.nn * F.dim → F.Bd r → u r = u0 r) ∧ F.Equil (P.field u) := by
  obtain ⟨a, b, ha, hco⟩ := pot_coercive P hF u0
  let ι := { r : Fin (F.nn * F.dim) // ¬ F.Bd r.1 }
  let ext : (ι → ℝ) → Nat → ℝ := fun x r =>
    if h : r < F.nn * F.dim then if hb : F.Bd r then u0 r else u0 r + x ⟨⟨r, h⟩, hb⟩ else u0 r
  have ext_bd : ∀ x r, r < F.nn * F.dim → F.Bd r → ext x r = u0 r := by
    intro x r hr hb
    simp only [ext]
    rw [dif_pos hr, dif_pos hb]
  have ext_in : ∀ x (i : ι), ext x i.1.1 = u0 i.1.1 + x i := by
    intro x i
    simp only [ext]
    rw [dif_pos i.1.2, dif_neg i.2]
  have hcont : ∀ r, Continuous fun x => ext x r := by
    intro r
    simp only [ext]
    split
    · split
      · exact continuous_const
      · exact continuous_const.add (continuous_apply _)
    · exact continuous_const
  have hlsc : LowerSemicontinuous fun x => P.energy (ext x) := by
    intro x c hc
    have hb : Continuous fun y => P.energy (ext x)
        + ∑ r ∈ range (F.nn * F.dim), F.force (P.field (ext x)) r * (ext y r - ext x r) :=
      continuous_const.add (continuous_finsetSum _ fun r _ =>
        continuous_const.mul ((hcont r).sub continuous_const))
    have h0 : c < (fun y => P.energy (ext x)
        + ∑ r ∈ range (F.nn * F.dim), F.force (P.field (ext x)) r * (ext y r - ext x r)) x := by
      simp only [sub_self, mul_zero, sum_const_zero, add_zero]; exact hc
    filter_upwards [hb.tendsto x |>.eventually (lt_mem_nhds h0)] with y hy
    have := energy_below P hF (ext x) (ext y)
    have := gap_nonneg P hF (ext x) (ext y)
    linarith
  let M : ℝ := (P.energy (ext 0) + b) / a + 1
  have hM : 0 < M := by
    have hn : 0 < F.nn * F.dim := Nat.mul_pos (nn_pos hF) (by have := hF.dim2; omega)
    have h := hco (ext 0) (ext_bd 0) 0 hn
    have h2 : 0 ≤ a * |ext 0 0 - u0 0| := by positivity
    have : 0 ≤ (P.energy (ext 0) + b) / a := div_nonneg (by linarith) ha.le
    show 0 < _ + 1
    linarith
  obtain ⟨x, hx, hmin⟩ := (hlsc.lowerSemicontinuousOn _).exists_isMinOn
    (s := Metric.closedBall (0 : ι → ℝ) M) ⟨0, Metric.mem_closedBall_self hM.le⟩ (isCompact_closedBall _ _)
  refine ⟨ext x, ext_bd x, pot_stationary P hF fun w hw => ?_⟩
  let y : ι → ℝ := fun i => w i.1.1 - u0 i.1.1
  have hy : ∀ r, r < F.nn * F.dim → ext y r = w r := by
    intro r hr
    by_cases hb : F.Bd r
    · rw [ext_bd y r hr hb, hw r hr hb, ext_bd x r hr hb]
    · have := ext_in y ⟨⟨r, hr⟩, hb⟩
      simp only at this
      rw [this]
      show u0 r + (w r - u0 r) = w r
      ring
  rw [← energy_congr P hF hy]
  by_cases hball : y ∈ Metric.closedBall (0 : ι → ℝ) M
  · exact hmin hball
  · have h0 : P.energy (ext x) ≤ P.energy (ext 0) := hmin (Metric.mem_closedBall_self hM.le)
    refine h0.trans ?_
    rw [Metric.mem_closedBall, dist_pi_le_iff hM.le] at hball
    push Not at hball
    obtain ⟨i, hi⟩ := hball
    have h1 := hco (ext y) (ext_bd y) i.1.1 i.1.2
    rw [ext_in, add_sub_cancel_left] at h1
    rw [Real.dist_eq, Pi.zero_apply, sub_zero] at hi
    have h2 : a * M = P.energy (ext 0) + b + a := by
      show a * ((P.energy (ext 0) + b) / a + 1) = _
      field_simp
    nlinarith

/-- **Stability**: a field with small forces on the interior dofs has nearly the stresses of the
equilibrium, and is not far from it. -/
theorem pot_near (hF : F.Good) {u : Nat → ℝ} (hu : F.Equil (P.field u)) :
    ∃ K d0 : ℝ, 0 < K ∧ 0 < d0 ∧ ∀ (w : Nat → ℝ) (d : ℝ), 0 ≤ d → d ≤ d0 →
      (∀ r, r < F.nn * F.dim → F.Bd r → w r = u r) →
      (∀ r, r < F.nn * F.dim → ¬ F.Bd r → |F.force (P.field w) r| ≤ d) →
      P.gap u w ≤ K * d ∧ ∀ r, r < F.nn * F.dim → |w r - u r| ≤ K := by
  obtain ⟨a, b, ha, hco⟩ := pot_coercive P hF u
  let N : ℝ := (F.nn * F.dim : Nat) + 1
  have hN : 0 < N := by positivity
  let D : ℝ := 2 * (|b| + |P.energy u|) / a + 1
  have hD : 0 < D := by positivity
  refine ⟨N * D, a / (2 * N), by positivity, by positivity, fun w d hd0 hd hb hf => ?_⟩
  have hn : (range (F.nn * F.dim)).Nonempty := by
    rw [nonempty_range_iff]
    exact Nat.mul_ne_zero (nn_pos hF).ne' (by have := hF.dim2; omega)
  obtain ⟨q, hq, hmax⟩ := exists_max_image (range (F.nn * F.dim)) (fun r => |w r - u r|) hn
  have hw : ∑ r ∈ range (F.nn * F.dim), F.force (P.field w) r * (w r - u r) ≤ N * d * |w q - u q| := by
    calc ∑ r ∈ range (F.nn * F.dim), F.force (P.field w) r * (w r - u r)
        ≤ ∑ r ∈ range (F.nn * F.dim), d * |w q - u q| := by
          refine sum_le_sum fun r hr => ?_
          by_cases hbr : F.Bd r
          · rw [hb r (mem_range.mp hr) hbr, sub_self, mul_zero]; positivity
          · refine (le_abs_self _).trans ?_
            rw [abs_mul]
            exact mul_le_mul (hf r (mem_range.mp hr) hbr) (hmax r hr) (abs_nonneg _) hd0
      _ = (F.nn * F.dim : Nat) * (d * |w q - u q|) := by rw [sum_const, card_range, nsmul_eq_mul]
      _ ≤ N * (d * |w q - u q|) := mul_le_mul_of_nonneg_right (by show _ ≤ _ + 1; linarith) (by positivity)
      _ = _ := by ring
  have h1 := energy_below P hF w u
  have h2 := pot_min P hF hu hb
  have e : ∑ r ∈ range (F.nn * F.dim), F.force (P.field w) r * (u r - w r)
      = - ∑ r ∈ range (F.nn * F.dim), F.force (P.field w) r * (w r - u r) := by
    rw [← sum_neg_distrib]
    exact sum_congr rfl fun r _ => by ring
  rw [e] at h1
  have h3 := gap_nonneg P hF w u
  have h4 := hco w hb q (mem_range.mp hq)
  have hNd : N * d ≤ a / 2 := by
    calc N * d ≤ N * (a / (2 * N)) := mul_le_mul_of_nonneg_left hd hN.le
      _ = a / 2 := by field_simp
  have hX : |w q - u q| ≤ D := by
    have h5 : N * d * |w q - u q| ≤ a / 2 * |w q - u q| := mul_le_mul_of_nonneg_right hNd (abs_nonneg _)
    have h6 : a / 2 * |w q - u q| ≤ |b| + |P.energy u| := by
      linarith [le_abs_self b, le_abs_self (P.energy u)]
    have h7 : |w q - u q| ≤ 2 * (|b| + |P.energy u|) / a := by
      rw [le_div_iff₀ ha]; linarith
    show _ ≤ _ + 1
    linarith
  have h8 : N * d * |w q - u q| ≤ N * d * D := mul_le_mul_of_nonneg_left hX (by positivity)
  have hND : D ≤ N * D := by
    have : (1 : ℝ) ≤ N := by show (1 : ℝ) ≤ _ + 1; linarith [Nat.cast_nonneg (α := ℝ) (F.nn * F.dim)]
    nlinarith
  refine ⟨by linarith, fun r hr => ?_⟩
  have := hmax r (mem_range.mpr hr)
  linarith

theorem pot_close (hF : F.Good) {u : Nat → ℝ} (hu : F.Equil (P.field u)) :
    ∃ K d0 : ℝ, 0 < K ∧ 0 < d0 ∧ ∀ (w : Nat → ℝ) (d : ℝ), 0 ≤ d → d ≤ d0 →
      (∀ r, r < F.nn * F.dim → F.Bd r → w r = u r) →
      (∀ r, r < F.nn * F.dim → ¬ F.Bd r → |F.force (P.field w) r| ≤ d) →
      P.gap u w ≤ K * d := by
  obtain ⟨K, d0, h1, h2, h⟩ := pot_near P hF hu
  exact ⟨K, d0, h1, h2, fun w d a1 a2 a3 a4 => (h w d a1 a2 a3 a4).1⟩

/-- **Monotone response**: the work of the difference of two stress fields. -/
theorem pot_mono (hF : F.Good) (u w : Nat → ℝ) :
    P.gap u w + P.gap w u ≤ F.integral fun e gp =>
      F.pair (fun v => P.field w e gp v - P.field u e gp v) (fun v => F.strain w e gp v - F.strain u e gp v) := by
  unfold Pot.gap
  have := integral_lin (F := F)
    (fun e gp => P.kap e gp * ∑ v ∈ range F.nvoi, (P.field w e gp v - P.field u e gp v) ^ 2)
    (fun e gp => P.kap e gp * ∑ v ∈ range F.nvoi, (P.field u e gp v - P.field w e gp v) ^ 2) 1 1
  simp only [one_mul] at this
  rw [← this]
  refine integral_mono hF fun e he gp hg => ?_
  have h1 := P.below e he gp hg (F.strain u e gp) (F.strain w e gp)
  have h2 := P.below e he gp hg (F.strain w e gp) (F.strain u e gp)
  have h3 : F.pair (fun v => P.field w e gp v - P.field u e gp v) (fun v => F.strain w e gp v - F.strain u e gp v)
      = - F.pair (P.S e gp (F.strain w e gp)) (fun v => F.strain u e gp v - F.strain w e gp v)
        - F.pair (P.S e gp (F.strain u e gp)) (fun v => F.strain w e gp v - F.strain u e gp v) := by
    unfold pair
    rw [← sum_neg_distrib, ← sum_sub_distrib]
    exact sum_congr rfl fun v _ => by show (P.S _ _ _ _ - P.S _ _ _ _) * _ = _; ring
  rw [h3]
  show P.kap e gp * ∑ v ∈ range F.nvoi, (P.S e gp (F.strain w e gp) v - P.S e gp (F.strain u e gp) v) ^ 2
    + P.kap e gp * ∑ v ∈ range F.nvoi, (P.S e gp (F.strain u e gp) v - P.S e gp (F.strain w e gp) v) ^ 2 ≤ _
  linarith

theorem integral_smul (a : ℝ) (f : Nat × Nat × Nat → Nat → ℝ) :
    F.integral (fun e gp => a * f e gp) = a * F.integral f := by
  have := integral_lin (F := F) f (fun _ _ => 0) a 0
  simp only [zero_mul, add_zero] at this
  exact this

/-- The square of an average is at most the average of the square. -/
theorem integral_sq (hF : F.Good) (f : Nat × Nat × Nat → Nat → ℝ) :
    F.integral f ^ 2 ≤ F.vol * F.integral fun e gp => f e gp ^ 2 := by
  have hv := vol_pos hF
  have h0 : 0 ≤ F.integral fun e gp => (f e gp - F.integral f / F.vol) ^ 2 :=
    integral_nonneg hF fun _ _ _ _ => sq_nonneg _
  have e : (F.integral fun e gp => (f e gp - F.integral f / F.vol) ^ 2)
      = F.integral (fun e gp => f e gp ^ 2) - F.integral f ^ 2 / F.vol := by
    have h1 := integral_lin (F := F) (fun e gp => f e gp ^ 2) f 1 (-(2 * (F.integral f / F.vol)))
    have h2 := integral_lin (F := F) (fun e gp => 1 * f e gp ^ 2 + -(2 * (F.integral f / F.vol)) * f e gp)
      (fun _ _ => (F.integral f / F.vol) ^ 2) 1 1
    rw [h1, integral_const hF] at h2
    rw [integral_congr (g := fun e gp => 1 * (1 * f e gp ^ 2 + -(2 * (F.integral f / F.vol)) * f e gp)
      + 1 * (F.integral f / F.vol) ^ 2) fun e _ gp _ => by ring, h2]
    field_simp
    ring
  rw [e] at h0
  have h3 : F.integral f ^ 2 / F.vol ≤ F.integral fun e gp => f e gp ^ 2 := by linarith
  rw [div_le_iff₀ hv] at h3
  linarith

/-- The averages of the stresses are as close as the fields. -/
theorem pot_ave (hF : F.Good) {k : ℝ} (hk : 0 < k)
    (hle : ∀ e ∈ F.elems, ∀ gp, gp < F.npe → k ≤ P.kap e gp) (u w : Nat → ℝ) :
    ∑ v ∈ range F.nvoi, F.integral (fun e gp => P.field w e gp v - P.field u e gp v) ^ 2
      ≤ F.vol / k * P.gap u w := by
  have h1 : ∑ v ∈ range F.nvoi, F.integral (fun e gp => P.field w e gp v - P.field u e gp v) ^ 2
      ≤ ∑ v ∈ range F.nvoi, F.vol * F.integral fun e gp => (P.field w e gp v - P.field u e gp v) ^ 2 :=
    sum_le_sum fun v _ => integral_sq hF _
  refine h1.trans ?_
  rw [← mul_sum, div_mul_eq_mul_div, mul_div_assoc]
  refine mul_le_mul_of_nonneg_left ?_ (vol_pos hF).le
  rw [le_div_iff₀ hk, ← integral_sum, mul_comm, ← integral_smul]
  refine integral_mono hF fun e he gp hg => ?_
  exact mul_le_mul_of_nonneg_right (hle e he gp hg) (sum_nonneg fun _ _ => sq_nonneg _)

theorem pair_sub (s t x y : Nat → ℝ) : F.pair (fun v => s v - t v) (fun v => x v - y v)
    = F.pair s x - F.pair s y - (F.pair t x - F.pair t y) := by
  unfold pair
  rw [← sum_sub_distrib, ← sum_sub_distrib, ← sum_sub_distrib]
  exact sum_congr rfl fun v _ => by ring

/-- Work of the difference of two equilibria. -/
theorem pot_work (hF : F.Good) {u w eps eps' : Nat → ℝ} (hu : F.Equil (P.field u)) (hw : F.Equil (P.field w))
    (bu : F.OnBd eps u) (bw : F.OnBd eps' w) :
    P.gap u w + P.gap w u ≤ F.pair (fun v => F.integral fun e gp => P.field w e gp v - P.field u e gp v)
      (fun v => eps' v - eps v) := by
  refine (pot_mono P hF u w).trans (le_of_eq ?_)
  have e1 : (fun v => F.integral fun e gp => P.field w e gp v - P.field u e gp v)
      = fun v => F.integral (fun e gp => P.field w e gp v) - F.integral fun e gp => P.field u e gp v := by
    funext v; rw [integral_sub]
  rw [e1, pair_sub]
  rw [← hill_mandel hF hw bw, ← hill_mandel hF hw bu, ← hill_mandel hF hu bw, ← hill_mandel hF hu bu,
    ← integral_sub, ← integral_sub, ← integral_sub]
  exact integral_congr fun e _ gp _ => pair_sub _ _ _ _

/-- **Lipschitz response**. -/
theorem pot_lip (hF : F.Good) {k : ℝ} (hk : 0 < k) (hle : ∀ e ∈ F.elems, ∀ gp, gp < F.npe → k ≤ P.kap e gp)
    {u w eps eps' : Nat → ℝ} (hu : F.Equil (P.field u)) (hw : F.Equil (P.field w))
    (bu : F.OnBd eps u) (bw : F.OnBd eps' w) :
    ∑ v ∈ range F.nvoi, F.integral (fun e gp => P.field w e gp v - P.field u e gp v) ^ 2
      ≤ (F.vol / k) ^ 2 * ∑ v ∈ range F.nvoi, (eps' v - eps v) ^ 2 := by
  have h1 := pot_ave P hF hk hle u w
  have h2 := pot_work P hF hu hw bu bw
  have h3 := gap_nonneg P hF w u
  have hc : 0 < F.vol / k := div_pos (vol_pos hF) hk
  have h4 := sum_mul_sq_le_sq_mul_sq (range F.nvoi)
    (fun v => F.integral fun e gp => P.field w e gp v - P.field u e gp v) (fun v => eps' v - eps v)
  have hB : 0 ≤ ∑ v ∈ range F.nvoi, (eps' v - eps v) ^ 2 := sum_nonneg fun _ _ => sq_nonneg _
  have hA : 0 ≤ ∑ v ∈ range F.nvoi, F.integral (fun e gp => P.field w e gp v - P.field u e gp v) ^ 2 :=
    sum_nonneg fun _ _ => sq_nonneg _
  unfold pair at h2
  generalize ∑ v ∈ range F.nvoi, F.integral (fun e gp => P.field w e gp v - P.field u e gp v) ^ 2 = A at *
  generalize ∑ v ∈ range F.nvoi, (eps' v - eps v) ^ 2 = B at *
  generalize ∑ v ∈ range F.nvoi, (F.integral fun e gp => P.field w e gp v - P.field u e gp v) * (eps' v - eps v) = Q at *
  have h5 : A ≤ F.vol / k * Q := h1.trans (mul_le_mul_of_nonneg_left (by linarith) hc.le)
  rcases hA.eq_or_lt with h0 | h0
  · rw [← h0]; positivity
  · have h6 : A * A ≤ (F.vol / k) ^ 2 * B * A := by
      calc A * A ≤ (F.vol / k * Q) * (F.vol / k * Q) := mul_le_mul h5 h5 hA (hA.trans h5)
        _ = (F.vol / k) ^ 2 * Q ^ 2 := by ring
        _ ≤ (F.vol / k) ^ 2 * (A * B) := mul_le_mul_of_nonneg_left h4 (by positivity)
        _ = _ := by ring
    exact le_of_mul_le_mul_right h6 h0

end Fe
end Verif.Spec
