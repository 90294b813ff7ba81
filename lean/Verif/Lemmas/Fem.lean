import Verif.Spec.Fem
import Verif.Lemmas.Bdry
import Verif.Lemmas.EllBcOp
import Mathlib.Tactic.FieldSimp
import Mathlib.Tactic.IntervalCases
import Mathlib.Tactic.LinearCombination
import Mathlib.Tactic.Positivity

/-! # Facts about multilinear elements on a structured grid -/

namespace Verif.Spec.Fe
open Finset

/-- A proper grid. -/
structure Good (F : Fe) : Prop where
  kind : (F.dim = 2 ∧ F.npe = 4 ∧ F.nvoi = 3 ∧ F.layers = 1) ∨
    (F.dim = 3 ∧ F.npe = 8 ∧ F.nvoi = 6 ∧ 1 ≤ F.layers)
  nx : 2 ≤ F.nx
  ny : 2 ≤ F.ny
  h : ∀ k, k < F.dim → 0 < F.h k

theorem good_fe2 {nx ny : Nat} {dx dy : ℝ} (hx : 2 ≤ nx) (hy : 2 ≤ ny) (hdx : 0 < dx)
    (hdy : 0 < dy) : (fe2 nx ny dx dy).Good :=
  ⟨Or.inl ⟨rfl, rfl, rfl, rfl⟩, hx, hy, fun k _ => by
    simp only [fe2]; split <;> assumption⟩

theorem good_fe3 {nx ny nz : Nat} {dx dy dz : ℝ} (hx : 2 ≤ nx) (hy : 2 ≤ ny) (hz : 2 ≤ nz)
    (hdx : 0 < dx) (hdy : 0 < dy) (hdz : 0 < dz) : (fe3 nx ny nz dx dy dz).Good :=
  ⟨Or.inr ⟨rfl, rfl, rfl, by simp only [fe3]; omega⟩, hx, hy, fun k _ => by
    simp only [fe3]; split
    · assumption
    · split <;> assumption⟩

variable {F : Fe}

theorem Good.dim2 (hF : F.Good) : 2 ≤ F.dim := by rcases hF.kind with h | h <;> omega

/-! ## Linearity -/

theorem voigt_add (dim : Nat) (G H : Nat → Nat → ℝ) (a b : ℝ) (v : Nat) :
    voigt dim (fun i j => a * G i j + b * H i j) v = a * voigt dim G v + b * voigt dim H v := by
  unfold voigt; split_ifs <;> ring

theorem grad_lin (u w : Nat → ℝ) (a b : ℝ) (e : Nat × Nat × Nat) (gp i j : Nat) :
    F.grad (fun r => a * u r + b * w r) e gp i j
      = a * F.grad u e gp i j + b * F.grad w e gp i j := by
  unfold grad
  rw [mul_sum, mul_sum, ← sum_add_distrib]
  exact sum_congr rfl fun x _ => by ring

theorem strain_lin (u w : Nat → ℝ) (a b : ℝ) (e : Nat × Nat × Nat) (gp v : Nat) :
    F.strain (fun r => a * u r + b * w r) e gp v
      = a * F.strain u e gp v + b * F.strain w e gp v := by
  unfold strain
  rw [← voigt_add]
  congr 1
  funext i j
  exact grad_lin ..

theorem strain_sub (u w : Nat → ℝ) (e : Nat × Nat × Nat) (gp v : Nat) :
    F.strain (fun r => u r - w r) e gp v = F.strain u e gp v - F.strain w e gp v := by
  have := strain_lin (F := F) u w 1 (-1) e gp v
  simp only [one_mul, neg_mul] at this
  rw [← sub_eq_add_neg] at this
  rw [← this]
  congr 1

theorem integral_lin (f g : Nat × Nat × Nat → Nat → ℝ) (a b : ℝ) :
    F.integral (fun e gp => a * f e gp + b * g e gp) = a * F.integral f + b * F.integral g := by
  unfold integral
  simp only [mul_sum, ← sum_add_distrib]
  exact sum_congr rfl fun e _ => sum_congr rfl fun gp _ => by ring

theorem integral_congr {f g : Nat × Nat × Nat → Nat → ℝ}
    (h : ∀ e ∈ F.elems, ∀ gp, gp < F.npe → f e gp = g e gp) : F.integral f = F.integral g := by
  unfold integral
  exact sum_congr rfl fun e he => sum_congr rfl fun gp hg => by rw [h e he gp (mem_range.mp hg)]

theorem integral_sum {ι : Type} (s : Finset ι) (f : ι → Nat × Nat × Nat → Nat → ℝ) :
    F.integral (fun e gp => ∑ i ∈ s, f i e gp) = ∑ i ∈ s, F.integral (f i) := by
  unfold integral
  simp only [sum_mul]
  rw [sum_comm' (s := s) (t := fun _ => F.elems) (t' := F.elems) (s' := fun _ => s) (by simp)]
  refine sum_congr rfl fun e _ => ?_
  rw [sum_comm]

theorem pair_lin (s e f : Nat → ℝ) (a b : ℝ) :
    F.pair s (fun v => a * e v + b * f v) = a * F.pair s e + b * F.pair s f := by
  unfold pair
  rw [mul_sum, mul_sum, ← sum_add_distrib]
  exact sum_congr rfl fun v _ => by ring

theorem pair_congr {s s' e e' : Nat → ℝ} (h1 : ∀ v, v < F.nvoi → s v = s' v)
    (h2 : ∀ v, v < F.nvoi → e v = e' v) : F.pair s e = F.pair s' e' := by
  unfold pair
  exact sum_congr rfl fun v hv => by rw [h1 v (mem_range.mp hv), h2 v (mem_range.mp hv)]

/-! ## Nodes -/

theorem mem_elems {e : Nat × Nat × Nat} : e ∈ F.elems ↔
    e.1 < F.nx - 1 ∧ e.2.1 < F.ny - 1 ∧ e.2.2 < F.layers := by
  simp [elems]

theorem node_lt (hF : F.Good) {e : Nat × Nat × Nat} (he : e ∈ F.elems) {a : Nat}
    (ha : a < F.npe) : F.node e a < F.nn := by
  rw [mem_elems] at he
  unfold node nn
  rcases hF.kind with ⟨h1, h2, h3, h4⟩ | ⟨h1, h2, h3, h4⟩
  · rw [if_pos h1, Nat.mul_one]
    have hz : e.2.2 = 0 := by omega
    have hc : cornerZ a = 0 := by unfold cornerZ; omega
    have := cornerX_le a; have := cornerY_le a
    unfold enode3
    rw [hz, hc]
    have := node3_lt (nx := F.nx) (ny := F.ny) (nz := 1) (i := e.1 + cornerX a)
      (j := e.2.1 + cornerY a) (k := 0) (by omega) (by omega) (by omega)
    simpa using this
  · rw [if_neg (by omega)]
    exact enode3_lt (by omega) (by omega) (by omega) (by omega)

theorem dof_lt (hF : F.Good) {e : Nat × Nat × Nat} (he : e ∈ F.elems) {a d : Nat}
    (ha : a < F.npe) (hd : d < F.dim) : F.node e a * F.dim + d < F.nn * F.dim :=
  mul_add_lt (node_lt hF he ha) hd

/-- The gradient indices a strain component uses. -/
theorem voigt_congr (hF : F.Good) {G H : Nat → Nat → ℝ}
    (h : ∀ i j, i < F.dim → j < F.dim → G i j = H i j) {v : Nat} (hv : v < F.nvoi) :
    voigt F.dim G v = voigt F.dim H v := by
  rcases hF.kind with ⟨h1, -, h3, -⟩ | ⟨h1, -, h3, -⟩ <;> rw [h3] at hv <;> rw [h1] at h ⊢
  · interval_cases v <;> simp [voigt, h]
  · interval_cases v <;> simp [voigt, h]

theorem strain_congr (hF : F.Good) {u w : Nat → ℝ} (h : ∀ r, r < F.nn * F.dim → u r = w r)
    {e : Nat × Nat × Nat} (he : e ∈ F.elems) (gp : Nat) {v : Nat} (hv : v < F.nvoi) :
    F.strain u e gp v = F.strain w e gp v := by
  unfold strain
  refine voigt_congr hF (fun i j hi hj => ?_) hv
  unfold grad
  refine sum_congr rfl fun a ha => ?_
  rw [h _ (dof_lt hF he (mem_range.mp ha) hi)]

theorem voigt_sum (dim : Nat) {ι : Type} (s : Finset ι) (G : ι → Nat → Nat → ℝ) (c : ι → ℝ)
    (v : Nat) : voigt dim (fun i j => ∑ r ∈ s, c r * G r i j) v
      = ∑ r ∈ s, c r * voigt dim (G r) v := by
  unfold voigt
  split_ifs
  · rfl
  all_goals rw [← sum_add_distrib]; exact sum_congr rfl fun r _ => by ring

/-- A strain is the combination of the strains of the unit displacements. -/
theorem strain_units (hF : F.Good) (u : Nat → ℝ) {e : Nat × Nat × Nat} (he : e ∈ F.elems)
    (gp : Nat) {v : Nat} (hv : v < F.nvoi) :
    F.strain u e gp v = ∑ r ∈ range (F.nn * F.dim),
      u r * F.strain (fun q => if q = r then 1 else 0) e gp v := by
  unfold strain
  rw [← voigt_sum]
  refine voigt_congr hF (fun i j hi hj => ?_) hv
  unfold grad
  simp only [mul_sum]
  rw [sum_comm]
  refine sum_congr rfl fun a ha => ?_
  rw [sum_eq_single (F.node e a * F.dim + i)]
  · simp; ring
  · intro r _ hr; rw [if_neg (Ne.symm hr)]; ring
  · intro h; exact absurd (mem_range.mpr (dof_lt hF he (mem_range.mp ha) hi)) h

/-- **Virtual work.** -/
theorem virtual_work (hF : F.Good) (s : Nat × Nat × Nat → Nat → Nat → ℝ) (w : Nat → ℝ) :
    ∑ r ∈ range (F.nn * F.dim), F.force s r * w r
      = F.integral fun e gp => F.pair (s e gp) (F.strain w e gp) := by
  have e1 : F.integral (fun e gp => F.pair (s e gp) (F.strain w e gp))
      = F.integral (fun e gp => ∑ r ∈ range (F.nn * F.dim),
        w r * F.pair (s e gp) (F.strain (fun q => if q = r then 1 else 0) e gp)) := by
    refine integral_congr fun e he gp _ => ?_
    unfold pair
    simp only [mul_sum]
    rw [sum_comm]
    refine sum_congr rfl fun v hv => ?_
    rw [strain_units hF w he gp (mem_range.mp hv), mul_sum]
    exact sum_congr rfl fun r _ => by ring
  rw [e1, integral_sum]
  refine sum_congr rfl fun r _ => ?_
  unfold force
  have := integral_lin (F := F)
    (fun e gp => F.pair (s e gp) (F.strain (fun q => if q = r then 1 else 0) e gp)) (fun _ _ => 0)
    (w r) 0
  simp only [mul_zero, zero_mul, add_zero] at this
  rw [this]; ring

/-! ## Shape functions -/

theorem sgn_eq (k a : Nat) : sgn k a = if corner k a = 0 then -1 else sgn k a := by
  split
  · rename_i h; unfold sgn; rw [h]; norm_num
  · rfl

theorem corner_le {k a : Nat} (ha : a < 8) : corner k a ≤ 1 := by
  unfold corner
  split_ifs
  · exact cornerX_le a
  · exact cornerY_le a
  · exact cornerZ_le ha

theorem sgn_cases {k a : Nat} (ha : a < 8) : sgn k a = -1 ∨ sgn k a = 1 := by
  have := corner_le (k := k) ha
  have h2 : corner k a = 0 ∨ corner k a = 1 := by omega
  unfold sgn
  rcases h2 with h | h <;> rw [h] <;> norm_num

theorem sgn_ne {k a : Nat} (ha : a < 8) : sgn k a ≠ 0 := by
  rcases sgn_cases (k := k) ha with h | h <;> rw [h] <;> norm_num

theorem factor_pos {k a gp : Nat} (ha : a < 8) (hg : gp < 8) :
    0 < (1 + sgn k a * (gaussPoint * sgn k gp)) / 2 := by
  have hgp : gaussPoint = 0.577350269189626 := rfl
  rcases sgn_cases (k := k) ha with h | h <;> rcases sgn_cases (k := k) hg with h' | h' <;>
    rw [h, h', hgp] <;> norm_num

theorem npe_le (hF : F.Good) : F.npe ≤ 8 := by rcases hF.kind with h | h <;> omega

theorem dShape_ne (hF : F.Good) {gp a j : Nat} (hg : gp < F.npe) (ha : a < F.npe)
    (hj : j < F.dim) : dShape F.dim F.h gp a j ≠ 0 := by
  have := npe_le hF
  unfold dShape
  refine mul_ne_zero (div_ne_zero (sgn_ne (by omega)) (hF.h j hj).ne') ?_
  refine (prod_pos fun k _ => factor_pos (by omega) (by omega)).ne'

theorem erase2 : (range 2).erase 0 = {1} ∧ (range 2).erase 1 = {0} := by decide
theorem erase3 : (range 3).erase 0 = {1, 2} ∧ (range 3).erase 1 = {0, 2} ∧
    (range 3).erase 2 = {0, 1} := by decide

/-- Sum over the Gauss points of the derivative of a shape function. -/
theorem sum_dShape (hF : F.Good) {a j : Nat} (hj : j < F.dim) :
    ∑ gp ∈ range F.npe, dShape F.dim F.h gp a j = 2 * sgn j a / F.h j := by
  have hj0 := (hF.h j hj).ne'
  unfold dShape
  rw [← mul_sum]
  rcases hF.kind with ⟨h1, h2, -, -⟩ | ⟨h1, h2, -, -⟩ <;> rw [h1, h2] <;> rw [h1] at hj
  · have : ∑ gp ∈ range 4, ∏ k ∈ (range 2).erase j,
        (1 + sgn k a * (gaussPoint * sgn k gp)) / 2 = 2 := by
      interval_cases j
      · rw [erase2.1]; simp [sum_range_succ, sgn, corner, cornerX, cornerY]; ring
      · rw [erase2.2]; simp [sum_range_succ, sgn, corner, cornerX, cornerY]; ring
    rw [this]; ring
  · have : ∑ gp ∈ range 8, ∏ k ∈ (range 3).erase j,
        (1 + sgn k a * (gaussPoint * sgn k gp)) / 2 = 2 := by
      interval_cases j
      · rw [erase3.1]; simp [sum_range_succ, sgn, corner, cornerX, cornerY, cornerZ]; ring
      · rw [erase3.2.1]; simp [sum_range_succ, sgn, corner, cornerX, cornerY, cornerZ]; ring
      · rw [erase3.2.2]; simp [sum_range_succ, sgn, corner, cornerX, cornerY, cornerZ]; ring
    rw [this]; ring

/-- The shape functions sum to one: their derivatives sum to zero. -/
theorem dShape_sum (hF : F.Good) {gp j : Nat} (hj : j < F.dim) :
    ∑ a ∈ range F.npe, dShape F.dim F.h gp a j = 0 := by
  unfold dShape
  rcases hF.kind with ⟨h1, h2, -, -⟩ | ⟨h1, h2, -, -⟩ <;> rw [h1, h2] <;> rw [h1] at hj
  · interval_cases j
    · rw [erase2.1]; simp [sum_range_succ, sgn, corner, cornerX, cornerY]; ring
    · rw [erase2.2]; simp [sum_range_succ, sgn, corner, cornerX, cornerY]; ring
  · interval_cases j
    · rw [erase3.1]; simp [sum_range_succ, sgn, corner, cornerX, cornerY, cornerZ]; ring
    · rw [erase3.2.1]; simp [sum_range_succ, sgn, corner, cornerX, cornerY, cornerZ]; ring
    · rw [erase3.2.2]; simp [sum_range_succ, sgn, corner, cornerX, cornerY, cornerZ]; ring

/-- The shape functions reproduce the corner positions. -/
theorem dShape_corner (hF : F.Good) {gp j k : Nat} (hj : j < F.dim) (hk : k < F.dim) :
    ∑ a ∈ range F.npe, dShape F.dim F.h gp a j * ((corner k a : ℝ) * F.h k)
      = if j = k then 1 else 0 := by
  have hj0 := (hF.h j hj).ne'
  unfold dShape
  rcases hF.kind with ⟨h1, h2, -, -⟩ | ⟨h1, h2, -, -⟩ <;> rw [h1, h2] <;> rw [h1] at hj hk
  · interval_cases j <;> interval_cases k <;>
      simp [erase2.1, erase2.2, sum_range_succ, sgn, corner, cornerX, cornerY] <;>
      field_simp <;> ring
  · interval_cases j <;> interval_cases k <;>
      simp [erase3.1, erase3.2.1, erase3.2.2, sum_range_succ, sgn, corner, cornerX, cornerY,
        cornerZ] <;> field_simp <;> ring

end Verif.Spec.Fe
