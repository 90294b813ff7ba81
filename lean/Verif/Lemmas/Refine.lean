import Verif.Spec.Refine
import Verif.Lemmas.Mirror

/-! # Refinement of the grid: interpolation does not raise the energy -/

namespace Verif.Spec
open Finset

/-! ## The Gauss rule on divided intervals -/

theorem gauss_sq : (1 : ℝ) / 3 ≤ gaussPoint ^ 2 := by
  unfold gaussPoint
  norm_num

/-- Sum of the values at the Gauss points of the `m` equal parts of `[-1,1]`. -/
noncomputable def gaussSum (m : Nat) (f : ℝ → ℝ) : ℝ :=
  ∑ k ∈ range m, (f ((2 * k + 1 - gaussPoint) / m - 1) + f ((2 * k + 1 + gaussPoint) / m - 1))

/-- A quadratic function that is convex. -/
def Quad (f : ℝ → ℝ) : Prop := ∃ a b c, 0 ≤ c ∧ ∀ t, f t = a + b * t + c * t ^ 2

theorem gaussSum_mono {m : Nat} {f g : ℝ → ℝ} (h : ∀ t, f t ≤ g t) : gaussSum m f ≤ gaussSum m g :=
  sum_le_sum fun _ _ => add_le_add (h _) (h _)

theorem gaussSum_add (m : Nat) (f g : ℝ → ℝ) : gaussSum m (fun t => f t + g t) = gaussSum m f + gaussSum m g := by
  unfold gaussSum
  rw [← sum_add_distrib]
  exact sum_congr rfl fun _ _ => by ring

theorem gaussSum_mul (m : Nat) (a : ℝ) (f : ℝ → ℝ) : gaussSum m (fun t => a * f t) = a * gaussSum m f := by
  unfold gaussSum
  rw [mul_sum]
  exact sum_congr rfl fun _ _ => by ring

theorem sum_odd (m : Nat) : ∑ k ∈ range m, (2 * (k : ℝ) + 1) = (m : ℝ) ^ 2 := by
  induction m with
  | zero => simp
  | succ n ih => rw [sum_range_succ, ih]; push_cast; ring

theorem sum_odd_sq (m : Nat) : ∑ k ∈ range m, (2 * (k : ℝ) + 1) ^ 2 = m * (4 * (m : ℝ) ^ 2 - 1) / 3 := by
  induction m with
  | zero => simp
  | succ n ih => rw [sum_range_succ, ih]; push_cast; ring

/-- Dividing the interval does not raise the Gauss sum of a convex quadratic function. -/
theorem gaussSum_le {m : Nat} (hm : 0 < m) {f : ℝ → ℝ} (hf : Quad f) :
    gaussSum m f ≤ m * (f (-gaussPoint) + f gaussPoint) := by
  obtain ⟨a, b, c, hc, hf⟩ := hf
  have hm' : (0 : ℝ) < m := by exact_mod_cast hm
  have h1 : gaussSum m f = 2 * m * (a - b + c) + (2 * (b - 2 * c) / m) * ∑ k ∈ range m, (2 * (k : ℝ) + 1)
      + 2 * c / m ^ 2 * ∑ k ∈ range m, (2 * (k : ℝ) + 1) ^ 2 + 2 * c * gaussPoint ^ 2 / m := by
    have e : ∀ k ∈ range m, f ((2 * k + 1 - gaussPoint) / m - 1) + f ((2 * k + 1 + gaussPoint) / m - 1)
        = (2 * (a - b + c) + 2 * c * gaussPoint ^ 2 / m ^ 2) + (2 * (b - 2 * c) / m) * (2 * (k : ℝ) + 1)
          + 2 * c / m ^ 2 * (2 * (k : ℝ) + 1) ^ 2 := by
      intro k _
      rw [hf, hf]
      field_simp
      ring
    unfold gaussSum
    rw [sum_congr rfl e, sum_add_distrib, sum_add_distrib, ← mul_sum, ← mul_sum, sum_const, card_range,
      nsmul_eq_mul]
    field_simp
    ring
  rw [h1, sum_odd, sum_odd_sq, hf, hf]
  have h2 : (m : ℝ) * (a + b * -gaussPoint + c * (-gaussPoint) ^ 2 + (a + b * gaussPoint + c * gaussPoint ^ 2))
      - (2 * m * (a - b + c) + (2 * (b - 2 * c) / m) * (m : ℝ) ^ 2
      + 2 * c / m ^ 2 * (m * (4 * (m : ℝ) ^ 2 - 1) / 3) + 2 * c * gaussPoint ^ 2 / m)
      = 2 * c * (gaussPoint ^ 2 - 1 / 3) * ((m : ℝ) ^ 2 - 1) / m := by
    field_simp
    ring
  have h3 : (0 : ℝ) ≤ (m : ℝ) ^ 2 - 1 := by
    have : (1 : ℝ) ≤ m := by exact_mod_cast hm
    nlinarith
  have h4 : 0 ≤ 2 * c * (gaussPoint ^ 2 - 1 / 3) * ((m : ℝ) ^ 2 - 1) / m :=
    div_nonneg (mul_nonneg (mul_nonneg (by linarith) (by have := gauss_sq; linarith)) h3) hm'.le
  linarith

/-! ## Linear interpolation -/

/-- Value at the `p`-th of the points that divide every interval between integers into `m` parts. -/
noncomputable def lerp (m : Nat) (f : Nat → ℝ) (p : Nat) : ℝ :=
  (1 - ((p % m : Nat) : ℝ) / m) * f (p / m) + ((p % m : Nat) : ℝ) / m * f (p / m + 1)

theorem lerp_at {m : Nat} (hm : 0 < m) (f : Nat → ℝ) (e : Nat) {k : Nat} (hk : k ≤ m) :
    lerp m f (m * e + k) = (1 - (k : ℝ) / m) * f e + (k : ℝ) / m * f (e + 1) := by
  have hm' : (m : ℝ) ≠ 0 := by exact_mod_cast hm.ne'
  unfold lerp
  rcases hk.lt_or_eq with h | rfl
  · rw [Nat.mul_add_mod, Nat.mod_eq_of_lt h, Nat.mul_add_div hm, Nat.div_eq_of_lt h, Nat.add_zero]
  · have e1 : k * e + k = k * (e + 1) := by ring
    rw [e1, Nat.mul_mod_right, Nat.mul_div_cancel_left _ hm, div_self hm']
    simp

theorem lerp_affine {m : Nat} (hm : 0 < m) (a b : ℝ) (p : Nat) :
    lerp m (fun x => a + b * x) p = a + b * ((p : ℝ) / m) := by
  have hm' : (m : ℝ) ≠ 0 := by exact_mod_cast hm.ne'
  have h : (p : ℝ) = m * (p / m : Nat) + (p % m : Nat) := by exact_mod_cast (Nat.div_add_mod p m).symm
  unfold lerp
  rw [h]
  push_cast
  field_simp
  ring

theorem lerp_sub (m : Nat) (f g : Nat → ℝ) (p : Nat) :
    lerp m (fun x => f x - g x) p = lerp m f p - lerp m g p := by
  unfold lerp
  ring

theorem sum_range_blocks (m n : Nat) (f : Nat → ℝ) :
    ∑ p ∈ range (m * n), f p = ∑ e ∈ range n, ∑ k ∈ range m, f (m * e + k) := by
  induction n with
  | zero => simp
  | succ n ih => rw [Nat.mul_succ, sum_range_add, ih, sum_range_succ]

namespace Fe
variable {F F' : Fe} {m : Nat → Nat} {L L' : Nat × Nat × Nat → (Nat → ℝ) → Nat → ℝ}

/-! ## Strains between the Gauss points -/

/-- A point of the reference element. -/
def pt (x y z : ℝ) (k : Nat) : ℝ := if k = 0 then x else if k = 1 then y else z

/-- Displacement gradient at a point of an element. -/
noncomputable def gradAt (F : Fe) (u : Nat → ℝ) (e : Nat × Nat × Nat) (ξ : Nat → ℝ) (i j : Nat) : ℝ :=
  ∑ a ∈ range F.npe, (sgn j a / F.h j * ∏ k ∈ (range F.dim).erase j, (1 + sgn k a * ξ k) / 2)
    * u (F.node e a * F.dim + i)

/-- Strain at a point of an element. -/
noncomputable def strainAt (F : Fe) (u : Nat → ℝ) (e : Nat × Nat × Nat) (ξ : Nat → ℝ) (v : Nat) : ℝ :=
  voigt F.dim (F.gradAt u e ξ) v

theorem prod_pt (hF : F.Good) {j : Nat} (hj : j < F.dim) (s : Nat → ℝ) (f : ℝ → Nat → ℝ)
    (hf : ∀ t, ∃ i, i < 3 ∧ (∀ k, k < 3 → k ≠ i → f t k = f 0 k ∧ f 1 k = f 0 k)
      ∧ f t i = (1 - t) * f 0 i + t * f 1 i) (t : ℝ) :
    ∏ k ∈ (range F.dim).erase j, (1 + s k * f t k) / 2
      = (1 - t) * ∏ k ∈ (range F.dim).erase j, (1 + s k * f 0 k) / 2
        + t * ∏ k ∈ (range F.dim).erase j, (1 + s k * f 1 k) / 2 := by
  obtain ⟨i, hi, h1, h2⟩ := hf t
  have h0 : ∀ k, k < 3 → f t k = (1 - t) * f 0 k + t * f 1 k ∧ (k ≠ i → f 1 k = f 0 k) := by
    intro k hk
    by_cases h : k = i
    · subst h; exact ⟨h2, fun h => absurd rfl h⟩
    · obtain ⟨e1, e2⟩ := h1 k hk h
      exact ⟨by rw [e1, e2]; ring, fun _ => e2⟩
  obtain ⟨a0, b0⟩ := h0 0 (by omega)
  obtain ⟨a1, b1⟩ := h0 1 (by omega)
  obtain ⟨a2, b2⟩ := h0 2 (by omega)
  have key : ∀ p q, p < 3 → q < 3 → p ≠ q → (f 1 p = f 0 p ∨ f 1 q = f 0 q) := by
    intro p q hp hq hne
    by_cases h : p = i
    · exact Or.inr ((h0 q hq).2 (by omega))
    · exact Or.inl ((h0 p hp).2 h)
  rcases hF.kind with ⟨k1, -, -, -⟩ | ⟨k1, -, -, -⟩ <;> rw [k1] at hj ⊢
  · interval_cases j
    · rw [erase2.1]; simp only [prod_singleton]; rw [a1]; ring
    · rw [erase2.2]; simp only [prod_singleton]; rw [a0]; ring
  · interval_cases j
    · rw [erase3.1, prod_pair (by omega), prod_pair (by omega), prod_pair (by omega), a1, a2]
      rcases key 1 2 (by omega) (by omega) (by omega) with e | e <;> rw [e] <;> ring
    · rw [erase3.2.1, prod_pair (by omega), prod_pair (by omega), prod_pair (by omega), a0, a2]
      rcases key 0 2 (by omega) (by omega) (by omega) with e | e <;> rw [e] <;> ring
    · rw [erase3.2.2, prod_pair (by omega), prod_pair (by omega), prod_pair (by omega), a0, a1]
      rcases key 0 1 (by omega) (by omega) (by omega) with e | e <;> rw [e] <;> ring

theorem strainAt_line (hF : F.Good) (u : Nat → ℝ) (e : Nat × Nat × Nat) (f : ℝ → Nat → ℝ)
    (hf : ∀ t, ∃ i, i < 3 ∧ (∀ k, k < 3 → k ≠ i → f t k = f 0 k ∧ f 1 k = f 0 k)
      ∧ f t i = (1 - t) * f 0 i + t * f 1 i) (t : ℝ) {v : Nat} (hv : v < F.nvoi) :
    F.strainAt u e (f t) v = (1 - t) * F.strainAt u e (f 0) v + t * F.strainAt u e (f 1) v := by
  unfold strainAt
  rw [← voigt_add]
  refine voigt_congr hF (fun i j _ hj => ?_) hv
  unfold gradAt
  rw [mul_sum, mul_sum, ← sum_add_distrib]
  refine sum_congr rfl fun a _ => ?_
  rw [prod_pt hF hj (fun k => sgn k a) f hf t]
  ring

/-- The energy density at a point. -/
noncomputable def densAt (F : Fe) (L : Nat × Nat × Nat → (Nat → ℝ) → Nat → ℝ) (u : Nat → ℝ) (e : Nat × Nat × Nat)
    (ξ : Nat → ℝ) : ℝ := F.pair (L e (F.strainAt u e ξ)) (F.strainAt u e ξ)

theorem densAt_quad (hF : F.Good) (hL : F.Law L) (u : Nat → ℝ) {e : Nat × Nat × Nat} (he : e ∈ F.elems)
    (f : ℝ → Nat → ℝ) (hf : ∀ t, ∃ i, i < 3 ∧ (∀ k, k < 3 → k ≠ i → f t k = f 0 k ∧ f 1 k = f 0 k)
      ∧ f t i = (1 - t) * f 0 i + t * f 1 i) : Quad fun t => F.densAt L u e (f t) := by
  let x := F.strainAt u e (f 0)
  let y := F.strainAt u e (f 1)
  refine ⟨F.pair (L e x) x, 2 * F.pair (L e x) y - 2 * F.pair (L e x) x,
    F.pair (L e x) x - 2 * F.pair (L e x) y + F.pair (L e y) y, ?_, fun t => ?_⟩
  · have h1 := hL.nonneg he fun v => (-1) * x v + 1 * y v
    rw [dens_lin hL he] at h1
    linarith
  · have h1 := dens_lin hL he x y (1 - t) t
    have h2 : ∀ v, v < F.nvoi → F.strainAt u e (f t) v = (1 - t) * x v + t * y v :=
      fun v hv => strainAt_line hF u e f hf t hv
    show F.pair (L e (F.strainAt u e (f t))) (F.strainAt u e (f t)) = _
    rw [pair_congr (fun v hv => hL.cong e he _ _ h2 v hv) h2, h1]
    ring

theorem densAt_quad0 (hF : F.Good) (hL : F.Law L) (u : Nat → ℝ) {e : Nat × Nat × Nat} (he : e ∈ F.elems) (y z : ℝ) :
    Quad fun t => F.densAt L u e (pt t y z) :=
  densAt_quad hF hL u he (fun t => pt t y z) fun t => ⟨0, by omega, fun k _ h => by simp [pt, h], by simp [pt]⟩

theorem densAt_quad1 (hF : F.Good) (hL : F.Law L) (u : Nat → ℝ) {e : Nat × Nat × Nat} (he : e ∈ F.elems) (x z : ℝ) :
    Quad fun t => F.densAt L u e (pt x t z) :=
  densAt_quad hF hL u he (fun t => pt x t z) fun t => ⟨1, by omega, fun k _ h => by
    by_cases h0 : k = 0 <;> simp [pt, h, h0], by simp [pt]⟩

theorem densAt_quad2 (hF : F.Good) (hL : F.Law L) (u : Nat → ℝ) {e : Nat × Nat × Nat} (he : e ∈ F.elems) (x y : ℝ) :
    Quad fun t => F.densAt L u e (pt x y t) :=
  densAt_quad hF hL u he (fun t => pt x y t) fun t => ⟨2, by omega, fun k hk h => by
    have : k = 0 ∨ k = 1 := by omega
    rcases this with rfl | rfl <;> simp [pt], by simp [pt]⟩

/-! ## Interpolation on the fine grid -/

/-- The field of the coarse grid, evaluated at the nodes of the fine grid. -/
noncomputable def interp (F F' : Fe) (m : Nat → Nat) (u : Nat → ℝ) (r : Nat) : ℝ :=
  lerp (m 0) (fun x => lerp (m 1) (fun y => lerp (m 2) (fun z => u (node3 F.nx F.ny x y z * F.dim + r % F.dim))
    (r / F.dim / F'.nx / F'.ny)) (r / F.dim / F'.nx % F'.ny)) (r / F.dim % F'.nx)

theorem interp_node (hd : F'.dim = F.dim) (u : Nat → ℝ) {x y z i : Nat} (hx : x < F'.nx) (hy : y < F'.ny) (hi : i < F.dim) :
    F.interp F' m u (node3 F'.nx F'.ny x y z * F'.dim + i) =
      lerp (m 0) (fun x => lerp (m 1) (fun y => lerp (m 2) (fun z => u (node3 F.nx F.ny x y z * F.dim + i))
        z) y) x := by
  obtain ⟨h1, h2, h3⟩ := node3_decode (nx := F'.nx) (ny := F'.ny) (i := x) (j := y) (k := z) hx hy
  unfold interp
  rw [hd, mul_add_mod' hi, mul_add_div' hi, h1, h2, h3]

/-- Reference coordinate, in the coarse element, of the point `s` of the `k`-th of its `m` parts. -/
noncomputable def sub (m k : Nat) (s : ℝ) : ℝ := (2 * k + 1 + s) / m - 1

theorem Refines.parts (hr : F.Refines F' m) (hF : F.Good) (hF' : F'.Good) {k : Nat} (hk : k < 3) : 0 < m k := by
  refine Nat.pos_of_ne_zero fun h0 => ?_
  have h1 := hr.cnt k hk
  rw [h0, Nat.zero_mul] at h1
  have h2 : 1 ≤ F'.cnt k := by
    have := hF'.nx
    have := hF'.ny
    have := layers_pos hF'
    unfold Fe.cnt
    split
    · omega
    split <;> omega
  omega

theorem grad_interp (hF : F.Good) (hF' : F'.Good) (hr : F.Refines F' m) (u : Nat → ℝ) {e : Nat × Nat × Nat}
    (he : e ∈ F.elems) {k : Nat × Nat × Nat} (h0 : k.1 < m 0) (h1 : k.2.1 < m 1) (h2 : k.2.2 < m 2)
    (gp : Nat) {i j : Nat} (hi : i < F.dim) (hj : j < F.dim) :
    F'.grad (F.interp F' m u) (m 0 * e.1 + k.1, m 1 * e.2.1 + k.2.1, m 2 * e.2.2 + k.2.2) gp i j
      = F.gradAt u e (pt (sub (m 0) k.1 (gaussPoint * sgn 0 gp)) (sub (m 1) k.2.1 (gaussPoint * sgn 1 gp))
        (sub (m 2) k.2.2 (gaussPoint * sgn 2 gp))) i j := by
  obtain ⟨ex, ey, ez⟩ := e
  obtain ⟨kx, ky, kz⟩ := k
  simp only at h0 h1 h2 ⊢
  have p0 : (m 0 : ℝ) ≠ 0 := by exact_mod_cast (by omega : m 0 ≠ 0)
  have p1 : (m 1 : ℝ) ≠ 0 := by exact_mod_cast (by omega : m 1 ≠ 0)
  have p2 : (m 2 : ℝ) ≠ 0 := by exact_mod_cast (by omega : m 2 ≠ 0)
  rw [mem_elems] at he
  simp only at he
  have c0 := hr.cnt 0 (by omega)
  have c1 := hr.cnt 1 (by omega)
  have c2 := hr.cnt 2 (by omega)
  have hj' := (hF'.h j (by rw [hr.dim]; exact hj)).ne'
  have hh := hr.h
  have nx' := hF'.nx
  have ny' := hF'.ny
  simp only [Fe.cnt, if_true, if_false, show ¬ (1 : Nat) = 0 by decide, show ¬ (2 : Nat) = 0 by decide,
    show ¬ (2 : Nat) = 1 by decide] at c0 c1 c2
  have bx : m 0 * ex + kx + 1 ≤ m 0 * (F.nx - 1) := by
    have : m 0 * (ex + 1) ≤ m 0 * (F.nx - 1) := Nat.mul_le_mul_left _ (by omega)
    rw [Nat.mul_add] at this; omega
  have by' : m 1 * ey + ky + 1 ≤ m 1 * (F.ny - 1) := by
    have : m 1 * (ey + 1) ≤ m 1 * (F.ny - 1) := Nat.mul_le_mul_left _ (by omega)
    rw [Nat.mul_add] at this; omega
  generalize hW : (fun x y z => u (node3 F.nx F.ny x y z * F.dim + i)) = W
  have hW' : ∀ x y z, u (node3 F.nx F.ny x y z * F.dim + i) = W x y z := fun x y z => by rw [← hW]
  have val : ∀ a b c, a ≤ 1 → b ≤ 1 → c ≤ 1 →
      F.interp F' m u (node3 F'.nx F'.ny (m 0 * ex + kx + a) (m 1 * ey + ky + b) (m 2 * ez + kz + c) * F'.dim + i) =
      (1 - ((kx + a : Nat) : ℝ) / m 0) * ((1 - ((ky + b : Nat) : ℝ) / m 1) *
          ((1 - ((kz + c : Nat) : ℝ) / m 2) * W ex ey ez + ((kz + c : Nat) : ℝ) / m 2 * W ex ey (ez + 1))
        + ((ky + b : Nat) : ℝ) / m 1 *
          ((1 - ((kz + c : Nat) : ℝ) / m 2) * W ex (ey + 1) ez + ((kz + c : Nat) : ℝ) / m 2 * W ex (ey + 1) (ez + 1)))
      + ((kx + a : Nat) : ℝ) / m 0 * ((1 - ((ky + b : Nat) : ℝ) / m 1) *
          ((1 - ((kz + c : Nat) : ℝ) / m 2) * W (ex + 1) ey ez + ((kz + c : Nat) : ℝ) / m 2 * W (ex + 1) ey (ez + 1))
        + ((ky + b : Nat) : ℝ) / m 1 *
          ((1 - ((kz + c : Nat) : ℝ) / m 2) * W (ex + 1) (ey + 1) ez
            + ((kz + c : Nat) : ℝ) / m 2 * W (ex + 1) (ey + 1) (ez + 1))) := by
    intro a b c ha hb hc
    rw [interp_node hr.dim u (by omega) (by omega) hi]
    simp only [Nat.add_assoc, lerp_at (show 0 < m 0 by omega) _ ex (show kx + a ≤ m 0 by omega),
      lerp_at (show 0 < m 1 by omega) _ ey (show ky + b ≤ m 1 by omega),
      lerp_at (show 0 < m 2 by omega) _ ez (show kz + c ≤ m 2 by omega), hW']
  unfold grad gradAt dShape
  rcases hF.kind with ⟨k1, k2, -, k4⟩ | ⟨k1, k2, -, k4⟩
  · have k2' : F'.npe = 4 := by
      have := hr.dim; rcases hF'.kind with h | h <;> omega
    have l' : F'.layers = 1 := by
      have := hr.dim; rcases hF'.kind with h | h <;> omega
    have m2 : m 2 = 1 := by
      rw [l', k4] at c2; omega
    have hz : ez = 0 := by omega
    have hkz : kz = 0 := by omega
    subst hz hkz
    have v00 := val 0 0 0 (by omega) (by omega) (by omega)
    have v01 := val 0 1 0 (by omega) (by omega) (by omega)
    have v10 := val 1 0 0 (by omega) (by omega) (by omega)
    have v11 := val 1 1 0 (by omega) (by omega) (by omega)
    simp only [Nat.add_zero, Nat.mul_zero, Nat.cast_zero, zero_div, sub_zero, one_mul, zero_mul, add_zero,
      Nat.cast_add, Nat.cast_one] at v00 v01 v10 v11
    rw [k2, k2', hh j hj, hr.dim, k1]
    rw [hr.dim, k1] at v00 v01 v10 v11
    rw [k1] at hW' hj
    generalize F'.h j = H at hj' ⊢
    interval_cases j
    · rw [erase2.1]
      simp only [prod_singleton]
      generalize gaussPoint * sgn 0 gp = g0, gaussPoint * sgn 1 gp = g1, gaussPoint * sgn 2 gp = g2
      simp [sum_range_succ, node, enode3, sgn, corner, cornerX, cornerY, cornerZ, hW', v00, v01, v10, v11, pt, sub, m2]
      ring
    · rw [erase2.2]
      simp only [prod_singleton]
      generalize gaussPoint * sgn 0 gp = g0, gaussPoint * sgn 1 gp = g1, gaussPoint * sgn 2 gp = g2
      simp [sum_range_succ, node, enode3, sgn, corner, cornerX, cornerY, cornerZ, hW', v00, v01, v10, v11, pt, sub, m2]
      ring
  · have k2' : F'.npe = 8 := by
      have := hr.dim; rcases hF'.kind with h | h <;> omega
    have v000 := val 0 0 0 (by omega) (by omega) (by omega)
    have v001 := val 0 0 1 (by omega) (by omega) (by omega)
    have v010 := val 0 1 0 (by omega) (by omega) (by omega)
    have v011 := val 0 1 1 (by omega) (by omega) (by omega)
    have v100 := val 1 0 0 (by omega) (by omega) (by omega)
    have v101 := val 1 0 1 (by omega) (by omega) (by omega)
    have v110 := val 1 1 0 (by omega) (by omega) (by omega)
    have v111 := val 1 1 1 (by omega) (by omega) (by omega)
    simp only [Nat.add_zero, Nat.cast_add, Nat.cast_one] at v000 v001 v010 v011 v100 v101 v110 v111
    rw [k2, k2', hh j hj, hr.dim, k1]
    rw [hr.dim, k1] at v000 v001 v010 v011 v100 v101 v110 v111
    rw [k1] at hW' hj
    generalize F'.h j = H at hj' ⊢
    interval_cases j
    · rw [erase3.1]
      simp only [prod_pair (show (1 : Nat) ≠ 2 by decide)]
      generalize gaussPoint * sgn 0 gp = g0, gaussPoint * sgn 1 gp = g1, gaussPoint * sgn 2 gp = g2
      simp [sum_range_succ, node, enode3, sgn, corner, cornerX, cornerY, cornerZ, hW', v000, v001, v010, v011, v100,
        v101, v110, v111, pt, sub]
      ring
    · rw [erase3.2.1]
      simp only [prod_pair (show (0 : Nat) ≠ 2 by decide)]
      generalize gaussPoint * sgn 0 gp = g0, gaussPoint * sgn 1 gp = g1, gaussPoint * sgn 2 gp = g2
      simp [sum_range_succ, node, enode3, sgn, corner, cornerX, cornerY, cornerZ, hW', v000, v001, v010, v011, v100,
        v101, v110, v111, pt, sub]
      ring
    · rw [erase3.2.2]
      simp only [prod_pair (show (0 : Nat) ≠ 1 by decide)]
      generalize gaussPoint * sgn 0 gp = g0, gaussPoint * sgn 1 gp = g1, gaussPoint * sgn 2 gp = g2
      simp [sum_range_succ, node, enode3, sgn, corner, cornerX, cornerY, cornerZ, hW', v000, v001, v010, v011, v100,
        v101, v110, v111, pt, sub]
      ring

theorem strain_interp (hF : F.Good) (hF' : F'.Good) (hr : F.Refines F' m) (u : Nat → ℝ) {e : Nat × Nat × Nat}
    (he : e ∈ F.elems) {kx ky kz : Nat} (h0 : kx < m 0) (h1 : ky < m 1) (h2 : kz < m 2)
    (gp : Nat) {v : Nat} (hv : v < F.nvoi) :
    F'.strain (F.interp F' m u) (m 0 * e.1 + kx, m 1 * e.2.1 + ky, m 2 * e.2.2 + kz) gp v
      = F.strainAt u e (pt (sub (m 0) kx (gaussPoint * sgn 0 gp)) (sub (m 1) ky (gaussPoint * sgn 1 gp))
        (sub (m 2) kz (gaussPoint * sgn 2 gp))) v := by
  unfold strain strainAt
  rw [hr.dim]
  exact voigt_congr hF (fun i j hi hj => grad_interp hF hF' hr u he (k := (kx, ky, kz)) h0 h1 h2 gp hi hj) hv

theorem strain_at (F : Fe) (u : Nat → ℝ) (e : Nat × Nat × Nat) (gp : Nat) (hF : F.Good) {v : Nat} (hv : v < F.nvoi) :
    F.strain u e gp v = F.strainAt u e (pt (gaussPoint * sgn 0 gp) (gaussPoint * sgn 1 gp) (gaussPoint * sgn 2 gp)) v := by
  have hd : F.dim ≤ 3 := by rcases hF.kind with h | h <;> omega
  unfold strain strainAt
  refine voigt_congr hF (fun i j _ _ => ?_) hv
  unfold grad gradAt dShape
  refine sum_congr rfl fun a _ => ?_
  congr 2
  refine prod_congr rfl fun k hk => ?_
  have : k < 3 := by have := mem_range.mp (mem_of_mem_erase hk); omega
  interval_cases k <;> simp [pt]

/-- Sum of a function over the Gauss points of the parts of an element, three dimensions. -/
theorem parts3 (m : Nat → Nat) (f : ℝ → ℝ → ℝ → ℝ) :
    ∑ kx ∈ range (m 0), ∑ ky ∈ range (m 1), ∑ kz ∈ range (m 2), ∑ gp ∈ range 8,
      f (sub (m 0) kx (gaussPoint * sgn 0 gp)) (sub (m 1) ky (gaussPoint * sgn 1 gp))
        (sub (m 2) kz (gaussPoint * sgn 2 gp))
    = gaussSum (m 0) fun x => gaussSum (m 1) fun y => gaussSum (m 2) fun z => f x y z := by
  unfold gaussSum
  refine sum_congr rfl fun kx _ => ?_
  rw [← sum_add_distrib]
  refine sum_congr rfl fun ky _ => ?_
  rw [← sum_add_distrib, ← sum_add_distrib, ← sum_add_distrib]
  refine sum_congr rfl fun kz _ => ?_
  simp only [sub, sum_range_succ, sum_range_zero, sgn, corner, cornerX, cornerY, cornerZ]
  norm_num
  simp only [sub_eq_add_neg]
  ring

theorem parts2 (m : Nat → Nat) (f : ℝ → ℝ → ℝ) :
    ∑ kx ∈ range (m 0), ∑ ky ∈ range (m 1), ∑ gp ∈ range 4,
      f (sub (m 0) kx (gaussPoint * sgn 0 gp)) (sub (m 1) ky (gaussPoint * sgn 1 gp))
    = gaussSum (m 0) fun x => gaussSum (m 1) fun y => f x y := by
  unfold gaussSum
  refine sum_congr rfl fun kx _ => ?_
  rw [← sum_add_distrib]
  refine sum_congr rfl fun ky _ => ?_
  simp only [sub, sum_range_succ, sum_range_zero, sgn, corner, cornerX, cornerY]
  norm_num
  simp only [sub_eq_add_neg]
  ring

theorem gauss3_le {a b c : Nat} (ha : 0 < a) (hb : 0 < b) (hc : 0 < c) {f : ℝ → ℝ → ℝ → ℝ}
    (h0 : ∀ y z, Quad fun t => f t y z) (h1 : ∀ x z, Quad fun t => f x t z) (h2 : ∀ x y, Quad fun t => f x y t) :
    (gaussSum a fun x => gaussSum b fun y => gaussSum c fun z => f x y z)
      ≤ a * b * c * ∑ gp ∈ range 8, f (gaussPoint * sgn 0 gp) (gaussPoint * sgn 1 gp) (gaussPoint * sgn 2 gp) := by
  have hc' : (0 : ℝ) ≤ c := Nat.cast_nonneg c
  have hb' : (0 : ℝ) ≤ b := Nat.cast_nonneg b
  have s2 : ∀ x y, (gaussSum c fun z => f x y z) ≤ c * (f x y (-gaussPoint) + f x y gaussPoint) :=
    fun x y => gaussSum_le hc (h2 x y)
  have s1 : ∀ x, (gaussSum b fun y => gaussSum c fun z => f x y z)
      ≤ c * (b * (f x (-gaussPoint) (-gaussPoint) + f x gaussPoint (-gaussPoint))
        + b * (f x (-gaussPoint) gaussPoint + f x gaussPoint gaussPoint)) := by
    intro x
    refine (gaussSum_mono fun y => s2 x y).trans ?_
    rw [gaussSum_mul, gaussSum_add]
    exact mul_le_mul_of_nonneg_left (add_le_add (gaussSum_le hb (h1 x _)) (gaussSum_le hb (h1 x _))) hc'
  refine (gaussSum_mono s1).trans ?_
  rw [gaussSum_mul, gaussSum_add, gaussSum_mul, gaussSum_mul, gaussSum_add, gaussSum_add]
  have t := fun y z => gaussSum_le ha (h0 y z)
  have t1 := t (-gaussPoint) (-gaussPoint)
  have t2 := t gaussPoint (-gaussPoint)
  have t3 := t (-gaussPoint) gaussPoint
  have t4 := t gaussPoint gaussPoint
  have : (∑ gp ∈ range 8, f (gaussPoint * sgn 0 gp) (gaussPoint * sgn 1 gp) (gaussPoint * sgn 2 gp))
      = (f (-gaussPoint) (-gaussPoint) (-gaussPoint) + f gaussPoint (-gaussPoint) (-gaussPoint))
      + (f (-gaussPoint) gaussPoint (-gaussPoint) + f gaussPoint gaussPoint (-gaussPoint))
      + (f (-gaussPoint) (-gaussPoint) gaussPoint + f gaussPoint (-gaussPoint) gaussPoint)
      + (f (-gaussPoint) gaussPoint gaussPoint + f gaussPoint gaussPoint gaussPoint) := by
    simp only [sum_range_succ, sum_range_zero, sgn, corner, cornerX, cornerY, cornerZ]
    norm_num
    ring
  rw [this]
  have key := mul_le_mul_of_nonneg_left (add_le_add (mul_le_mul_of_nonneg_left (add_le_add t1 t2) hb')
    (mul_le_mul_of_nonneg_left (add_le_add t3 t4) hb')) hc'
  refine key.trans (le_of_eq ?_)
  ring

theorem gauss2_le {a b : Nat} (ha : 0 < a) (hb : 0 < b) {f : ℝ → ℝ → ℝ}
    (h0 : ∀ y, Quad fun t => f t y) (h1 : ∀ x, Quad fun t => f x t) :
    (gaussSum a fun x => gaussSum b fun y => f x y)
      ≤ a * b * ∑ gp ∈ range 4, f (gaussPoint * sgn 0 gp) (gaussPoint * sgn 1 gp) := by
  have hb' : (0 : ℝ) ≤ b := Nat.cast_nonneg b
  have s1 : ∀ x, (gaussSum b fun y => f x y) ≤ b * (f x (-gaussPoint) + f x gaussPoint) :=
    fun x => gaussSum_le hb (h1 x)
  refine (gaussSum_mono s1).trans ?_
  rw [gaussSum_mul, gaussSum_add]
  have t1 := gaussSum_le ha (h0 (-gaussPoint))
  have t2 := gaussSum_le ha (h0 gaussPoint)
  have : (∑ gp ∈ range 4, f (gaussPoint * sgn 0 gp) (gaussPoint * sgn 1 gp))
      = (f (-gaussPoint) (-gaussPoint) + f gaussPoint (-gaussPoint))
      + (f (-gaussPoint) gaussPoint + f gaussPoint gaussPoint) := by
    simp only [sum_range_succ, sum_range_zero, sgn, corner, cornerX, cornerY]
    norm_num
    ring
  rw [this]
  refine (mul_le_mul_of_nonneg_left (add_le_add t1 t2) hb').trans (le_of_eq ?_)
  ring

theorem Refines.kinds (hr : F.Refines F' m) (hF : F.Good) (hF' : F'.Good) : F'.npe = F.npe ∧ F'.nvoi = F.nvoi := by
  have := hr.dim
  rcases hF.kind with h | h <;> rcases hF'.kind with h' | h' <;> omega

theorem Refines.cell (hr : F.Refines F' m) : F.cell = (∏ k ∈ range F.dim, (m k : ℝ)) * F'.cell := by
  unfold Fe.cell
  rw [hr.dim, ← prod_mul_distrib]
  exact prod_congr rfl fun k hk => hr.h k (mem_range.mp hk)

theorem Refines.sum (hr : F.Refines F' m) (f : Nat × Nat × Nat → ℝ) :
    ∑ e ∈ F'.elems, f e = ∑ e ∈ F.elems, ∑ kx ∈ range (m 0), ∑ ky ∈ range (m 1), ∑ kz ∈ range (m 2),
      f (m 0 * e.1 + kx, m 1 * e.2.1 + ky, m 2 * e.2.2 + kz) := by
  have c0 : F'.nx - 1 = m 0 * (F.nx - 1) := hr.cnt 0 (by omega)
  have c1 : F'.ny - 1 = m 1 * (F.ny - 1) := hr.cnt 1 (by omega)
  have c2 : F'.layers = m 2 * F.layers := hr.cnt 2 (by omega)
  unfold elems
  rw [c0, c1, c2]
  simp only [sum_product, sum_range_blocks]
  refine sum_congr rfl fun x _ => ?_
  rw [sum_comm]
  refine sum_congr rfl fun y _ => ?_
  rw [sum_comm' (s := range F.layers) (t := fun _ => range (m 0)) (t' := range (m 0)) (s' := fun _ => range F.layers)
    (by simp)]
  refine sum_congr rfl fun kx _ => ?_
  rw [sum_comm]

/-- The fine grid gives the interpolated field at most the energy that the coarse grid gives the field. -/
theorem bil_interp (hF : F.Good) (hF' : F'.Good) (hr : F.Refines F' m) (hL : F.Law L) (hL' : F'.Law L')
    (hLL : ∀ e ∈ F'.elems, ∀ x v, v < F.nvoi → L' e x v = L (parent m e) x v) (u : Nat → ℝ) :
    F'.bil L' (F.interp F' m u) (F.interp F' m u) ≤ F.bil L u u := by
  obtain ⟨hn, hv⟩ := hr.kinds hF hF'
  have p0 := hr.parts hF hF' (k := 0) (by omega)
  have p1 := hr.parts hF hF' (k := 1) (by omega)
  have p2 := hr.parts hF hF' (k := 2) (by omega)
  have w' := (weight_pos hF').le
  have hmem : ∀ e ∈ F.elems, ∀ kx ky kz, kx < m 0 → ky < m 1 → kz < m 2 →
      (m 0 * e.1 + kx, m 1 * e.2.1 + ky, m 2 * e.2.2 + kz) ∈ F'.elems ∧
      parent m (m 0 * e.1 + kx, m 1 * e.2.1 + ky, m 2 * e.2.2 + kz) = e := by
    intro e he kx ky kz h0 h1 h2
    have c0 : F'.nx - 1 = m 0 * (F.nx - 1) := hr.cnt 0 (by omega)
    have c1 : F'.ny - 1 = m 1 * (F.ny - 1) := hr.cnt 1 (by omega)
    have c2 : F'.layers = m 2 * F.layers := hr.cnt 2 (by omega)
    rw [mem_elems] at he ⊢
    have key : ∀ a b k n : Nat, b < n → k < a → a * b + k < a * n := fun a b k n h h' => by
      have : a * (b + 1) ≤ a * n := Nat.mul_le_mul_left _ h
      rw [Nat.mul_add] at this; omega
    refine ⟨⟨?_, ?_, ?_⟩, ?_⟩
    · rw [c0]; exact key _ _ _ _ he.1 h0
    · rw [c1]; exact key _ _ _ _ he.2.1 h1
    · rw [c2]; exact key _ _ _ _ he.2.2 h2
    · unfold parent
      simp only [Nat.mul_add_div p0, Nat.mul_add_div p1, Nat.mul_add_div p2, Nat.div_eq_of_lt h0,
        Nat.div_eq_of_lt h1, Nat.div_eq_of_lt h2, Nat.add_zero]
  have dens' : ∀ e ∈ F.elems, ∀ kx ky kz, kx < m 0 → ky < m 1 → kz < m 2 → ∀ gp,
      F'.pair (F'.stress L' (F.interp F' m u) (m 0 * e.1 + kx, m 1 * e.2.1 + ky, m 2 * e.2.2 + kz) gp)
        (F'.strain (F.interp F' m u) (m 0 * e.1 + kx, m 1 * e.2.1 + ky, m 2 * e.2.2 + kz) gp)
      = F.densAt L u e (pt (sub (m 0) kx (gaussPoint * sgn 0 gp)) (sub (m 1) ky (gaussPoint * sgn 1 gp))
        (sub (m 2) kz (gaussPoint * sgn 2 gp))) := by
    intro e he kx ky kz h0 h1 h2 gp
    obtain ⟨hm, hp⟩ := hmem e he kx ky kz h0 h1 h2
    have hs := fun v (hv : v < F.nvoi) => strain_interp hF hF' hr u he h0 h1 h2 gp hv
    unfold densAt pair stress
    rw [hv]
    refine sum_congr rfl fun v hvm => ?_
    have hvm := mem_range.mp hvm
    rw [hs v hvm, hLL _ hm _ v hvm, hp, hL.cong e he _ _ hs v hvm]
  have dens : ∀ e ∈ F.elems, ∀ gp, F.pair (F.stress L u e gp) (F.strain u e gp)
      = F.densAt L u e (pt (gaussPoint * sgn 0 gp) (gaussPoint * sgn 1 gp) (gaussPoint * sgn 2 gp)) := by
    intro e he gp
    have hs := fun v (hv : v < F.nvoi) => strain_at F u e gp hF hv
    exact pair_congr (fun v hv => hL.cong e he _ _ hs v hv) hs
  unfold bil integral
  rw [hr.sum]
  refine sum_le_sum fun e he => ?_
  have e1 : ∀ kx ∈ range (m 0), ∀ ky ∈ range (m 1), ∀ kz ∈ range (m 2),
      ∑ gp ∈ range F'.npe, F'.pair (F'.stress L' (F.interp F' m u) (m 0 * e.1 + kx, m 1 * e.2.1 + ky, m 2 * e.2.2 + kz) gp)
        (F'.strain (F.interp F' m u) (m 0 * e.1 + kx, m 1 * e.2.1 + ky, m 2 * e.2.2 + kz) gp) * (F'.cell / F'.npe)
      = (∑ gp ∈ range F.npe, F.densAt L u e (pt (sub (m 0) kx (gaussPoint * sgn 0 gp))
        (sub (m 1) ky (gaussPoint * sgn 1 gp)) (sub (m 2) kz (gaussPoint * sgn 2 gp)))) * (F'.cell / F'.npe) := by
    intro kx h0 ky h1 kz h2
    rw [hn, sum_mul]
    exact sum_congr rfl fun gp _ => by
      rw [dens' e he kx ky kz (mem_range.mp h0) (mem_range.mp h1) (mem_range.mp h2) gp]
  rw [sum_congr rfl fun kx h0 => sum_congr rfl fun ky h1 => sum_congr rfl fun kz h2 => e1 kx h0 ky h1 kz h2]
  simp only [← sum_mul]
  rw [sum_congr rfl fun gp _ => dens e he gp, hr.cell, hn]
  rw [hn] at w'
  rcases hF.kind with ⟨k1, k2, -, k4⟩ | ⟨k1, k2, -, k4⟩
  · have m2 : m 2 = 1 := by
      have c2 : F'.layers = m 2 * F.layers := hr.cnt 2 (by omega)
      have := hr.dim
      have : F'.layers = 1 := by rcases hF'.kind with h | h <;> omega
      rw [this, k4] at c2; omega
    have flat : ∀ x y z, F.densAt L u e (pt x y z) = F.densAt L u e (pt x y 0) := fun x y z => by
      have h : F.strainAt u e (pt x y z) = F.strainAt u e (pt x y 0) := by
        funext v
        unfold strainAt
        congr 1
        funext i j
        unfold gradAt
        refine sum_congr rfl fun a _ => ?_
        congr 2
        refine prod_congr rfl fun k hk => ?_
        have hk := mem_range.mp (mem_of_mem_erase hk)
        rw [k1] at hk
        interval_cases k <;> simp [pt]
      unfold densAt
      rw [h]
    rw [m2, k1, k2]
    rw [k2] at w'
    simp only [flat, range_one, sum_singleton]
    rw [parts2 m fun x y => F.densAt L u e (pt x y 0)]
    refine (mul_le_mul_of_nonneg_right (gauss2_le p0 p1 (f := fun x y => F.densAt L u e (pt x y 0))
      (fun y => densAt_quad0 hF hL u he y 0) (fun x => densAt_quad1 hF hL u he x 0)) w').trans (le_of_eq ?_)
    simp only [prod_range_succ, prod_range_zero]
    ring
  · rw [k1, k2]
    rw [k2] at w'
    rw [parts3 m fun x y z => F.densAt L u e (pt x y z)]
    refine (mul_le_mul_of_nonneg_right (gauss3_le p0 p1 p2 (f := fun x y z => F.densAt L u e (pt x y z))
      (fun y z => densAt_quad0 hF hL u he y z) (fun x z => densAt_quad1 hF hL u he x z)
      (fun x y => densAt_quad2 hF hL u he x y)) w').trans (le_of_eq ?_)
    simp only [prod_range_succ, prod_range_zero]
    ring

/-! ## Boundary values -/

theorem lerp_zero {m : Nat} (hm : 0 < m) {f : Nat → ℝ} {n p : Nat} (hp : p ≤ m * n)
    (hf : ∀ x, x ≤ n → f x = 0) : lerp m f p = 0 := by
  unfold lerp
  have h1 : p / m ≤ n := Nat.div_le_of_le_mul hp
  rw [hf _ h1]
  rcases h1.lt_or_eq with h | h
  · rw [hf _ (by omega)]; ring
  · have h2 : p % m = 0 := by
      have := Nat.div_add_mod p m
      rw [h] at this
      omega
    rw [h2]
    simp

/-- Interpolation at the two ends. -/
theorem lerp_end {m : Nat} (hm : 0 < m) (f : Nat → ℝ) {n p : Nat} (hp : p = 0 ∨ p = m * n)
    (h0 : f 0 = 0) (hn : f n = 0) : lerp m f p = 0 := by
  rcases hp with rfl | rfl
  · have := lerp_at hm f 0 (k := 0) (by omega)
    simp only [Nat.mul_zero, Nat.add_zero] at this
    rw [this, h0]; simp
  · have := lerp_at hm f n (k := 0) (by omega)
    rw [Nat.add_zero] at this
    rw [this, hn]; simp

theorem interp_zero (hF : F.Good) (hF' : F'.Good) (hr : F.Refines F' m) {w : Nat → ℝ}
    (hw : ∀ r, r < F.nn * F.dim → F.Bd r → w r = 0) :
    ∀ r, r < F'.nn * F'.dim → F'.Bd r → F.interp F' m w r = 0 := by
  have p0 := hr.parts hF hF' (k := 0) (by omega)
  have p1 := hr.parts hF hF' (k := 1) (by omega)
  have p2 := hr.parts hF hF' (k := 2) (by omega)
  have c0 : F'.nx - 1 = m 0 * (F.nx - 1) := hr.cnt 0 (by omega)
  have c1 : F'.ny - 1 = m 1 * (F.ny - 1) := hr.cnt 1 (by omega)
  have c2 : F'.layers = m 2 * F.layers := hr.cnt 2 (by omega)
  have hnx := hF.nx
  have hny := hF.ny
  have hnx' := hF'.nx
  have hny' := hF'.ny
  intro r hr' hb
  rcases hF.kind with ⟨k1, k2, -, k4⟩ | ⟨k1, k2, -, k4⟩
  · have kd : F'.dim = 2 := hr.dim.trans k1
    have l' : F'.layers = 1 := by rcases hF'.kind with h | h <;> omega
    have m2 : m 2 = 1 := by rw [l', k4] at c2; omega
    have hN : F'.nn = F'.nx * F'.ny := by unfold nn; rw [if_pos kd, Nat.mul_one]
    obtain ⟨x, y, d, hx, hy, hd, e⟩ := dof_surj2 (nF := 2) (nx := F'.nx) (ny := F'.ny) (q := r)
      (by rw [hN, kd] at hr'; exact hr')
    have hn : node2 F'.nx x y = node3 F'.nx F'.ny x y 0 := by simp [node3, node2]
    have er : r = node3 F'.nx F'.ny x y 0 * F'.dim + d := by rw [kd, ← hn]; exact e
    have hbd : Bdry2 F'.nx F'.ny x y := by
      rw [er, kd] at hb
      exact (Bd_node2 kd hx hd).mp hb
    have z : ∀ x y, x < F.nx → y < F.ny → Bdry2 F.nx F.ny x y → w (node3 F.nx F.ny x y 0 * F.dim + d) = 0 := by
      intro x y hx hy hb
      apply hw
      · rw [k1]
        refine mul_add_lt ?_ hd
        have := node3_lt (nx := F.nx) (ny := F.ny) (nz := 1) (k := 0) hx hy (by omega)
        unfold nn; rw [if_pos k1]; exact this
      · rw [k1]; exact (Bd_node2 k1 hx hd).mpr hb
    rw [er, interp_node hr.dim w hx hy (by omega), m2]
    have z2 : ∀ f : Nat → ℝ, lerp 1 f 0 = f 0 := fun f => by simp [lerp]
    simp only [z2]
    unfold Bdry2 at hbd
    have hx' : x ≤ m 0 * (F.nx - 1) := by omega
    have hy' : y ≤ m 1 * (F.ny - 1) := by omega
    rcases hbd with h | h | h | h
    · exact lerp_end p0 _ (n := F.nx - 1) (Or.inl h)
        (lerp_zero p1 hy' fun y hy => z 0 y (by omega) (by omega) (by unfold Bdry2; omega))
        (lerp_zero p1 hy' fun y hy => z _ y (by omega) (by omega) (by unfold Bdry2; omega))
    · exact lerp_end p0 _ (n := F.nx - 1) (Or.inr (by omega))
        (lerp_zero p1 hy' fun y hy => z 0 y (by omega) (by omega) (by unfold Bdry2; omega))
        (lerp_zero p1 hy' fun y hy => z _ y (by omega) (by omega) (by unfold Bdry2; omega))
    · exact lerp_zero p0 hx' fun x hx => lerp_end p1 _ (n := F.ny - 1) (Or.inl h)
        (z x _ (by omega) (by omega) (by unfold Bdry2; omega)) (z x _ (by omega) (by omega) (by unfold Bdry2; omega))
    · exact lerp_zero p0 hx' fun x hx => lerp_end p1 _ (n := F.ny - 1) (Or.inr (by omega))
        (z x _ (by omega) (by omega) (by unfold Bdry2; omega)) (z x _ (by omega) (by omega) (by unfold Bdry2; omega))
  · have kd : F'.dim = 3 := hr.dim.trans k1
    have hN : F'.nn = F'.nx * F'.ny * (F'.layers + 1) := by unfold nn; rw [if_neg (by omega)]
    obtain ⟨x, y, t, d, hx, hy, ht, hd, e⟩ := dof_surj3 (nF := 3) (nx := F'.nx) (ny := F'.ny) (nz := F'.layers + 1)
      (q := r) (by rw [hN, kd] at hr'; exact hr')
    have er : r = node3 F'.nx F'.ny x y t * F'.dim + d := by rw [kd]; exact e
    have hbd : Bdry3 F'.nx F'.ny (F'.layers + 1) x y t := by
      rw [er, kd] at hb
      exact (Bd_node3 kd hx hy hd).mp hb
    have z : ∀ x y t, x < F.nx → y < F.ny → t < F.layers + 1 → Bdry3 F.nx F.ny (F.layers + 1) x y t →
        w (node3 F.nx F.ny x y t * F.dim + d) = 0 := by
      intro x y t hx hy ht hb
      apply hw
      · rw [k1]
        refine mul_add_lt ?_ hd
        have := node3_lt (nx := F.nx) (ny := F.ny) (nz := F.layers + 1) (k := t) hx hy ht
        unfold nn; rw [if_neg (by omega)]; exact this
      · rw [k1]; exact (Bd_node3 k1 hx hy hd).mpr hb
    rw [er, interp_node hr.dim w hx hy (by omega)]
    unfold Bdry3 at hbd
    have hx' : x ≤ m 0 * (F.nx - 1) := by omega
    have hy' : y ≤ m 1 * (F.ny - 1) := by omega
    have ht' : t ≤ m 2 * F.layers := by omega
    have zx : ∀ x, (x = 0 ∨ x = F.nx - 1) →
        lerp (m 1) (fun y => lerp (m 2) (fun z => w (node3 F.nx F.ny x y z * F.dim + d)) t) y = 0 := fun x hx =>
      lerp_zero p1 hy' fun y hy => lerp_zero p2 ht' fun t ht =>
        z x y t (by omega) (by omega) (by omega) (by unfold Bdry3; omega)
    have zy : ∀ x, x ≤ F.nx - 1 → ∀ y, (y = 0 ∨ y = F.ny - 1) →
        lerp (m 2) (fun z => w (node3 F.nx F.ny x y z * F.dim + d)) t = 0 := fun x hx y hy =>
      lerp_zero p2 ht' fun t ht => z x y t (by omega) (by omega) (by omega) (by unfold Bdry3; omega)
    rcases hbd with h | h | h | h | h | h
    · exact lerp_end p0 _ (n := F.nx - 1) (Or.inl h) (zx _ (by omega)) (zx _ (by omega))
    · exact lerp_end p0 _ (n := F.nx - 1) (Or.inr (by omega)) (zx _ (by omega)) (zx _ (by omega))
    · exact lerp_zero p0 hx' fun x hx => lerp_end p1 _ (n := F.ny - 1) (Or.inl h) (zy x hx _ (by omega)) (zy x hx _ (by omega))
    · exact lerp_zero p0 hx' fun x hx => lerp_end p1 _ (n := F.ny - 1) (Or.inr (by omega)) (zy x hx _ (by omega)) (zy x hx _ (by omega))
    · exact lerp_zero p0 hx' fun x hx => lerp_zero p1 hy' fun y hy => lerp_end p2 _ (n := F.layers) (Or.inl h)
        (z x y _ (by omega) (by omega) (by omega) (by unfold Bdry3; omega)) (z x y _ (by omega) (by omega) (by omega) (by unfold Bdry3; omega))
    · exact lerp_zero p0 hx' fun x hx => lerp_zero p1 hy' fun y hy => lerp_end p2 _ (n := F.layers) (Or.inr (by omega))
        (z x y _ (by omega) (by omega) (by omega) (by unfold Bdry3; omega)) (z x y _ (by omega) (by omega) (by omega) (by unfold Bdry3; omega))

theorem lerp_congr {m : Nat} (hm : 0 < m) {f g : Nat → ℝ} {n p : Nat} (hp : p ≤ m * n)
    (h : ∀ x, x ≤ n → f x = g x) : lerp m f p = lerp m g p := by
  have := lerp_zero hm (f := fun x => f x - g x) hp fun x hx => by rw [h x hx, sub_self]
  rw [lerp_sub] at this
  linarith

theorem interp_sub (u w : Nat → ℝ) (r : Nat) :
    F.interp F' m (fun r => u r - w r) r = F.interp F' m u r - F.interp F' m w r := by
  unfold interp
  simp only [lerp_sub]

theorem affine_node3 (G : Nat → Nat → ℝ) (t : Nat → ℝ) {x y z i : Nat} (hx : x < F.nx) (hy : y < F.ny) (hi : i < F.dim)
    (hd : F.dim ≤ 3) : F.affine G t (node3 F.nx F.ny x y z * F.dim + i)
      = t i + ∑ j ∈ range F.dim, G i j * ((if j = 0 then x else if j = 1 then y else z : Nat) * F.h j) := by
  obtain ⟨h1, h2, h3⟩ := node3_decode (nx := F.nx) (ny := F.ny) (i := x) (j := y) (k := z) hx hy
  unfold affine
  rw [mul_add_mod' hi, mul_add_div' hi]
  unfold coord
  rw [h1, h2, h3]

/-- Affine fields are interpolated exactly. -/
theorem interp_affine (hF : F.Good) (hF' : F'.Good) (hr : F.Refines F' m) (G : Nat → Nat → ℝ) (t : Nat → ℝ) :
    ∀ r, r < F'.nn * F'.dim → F.interp F' m (F.affine G t) r = F'.affine G t r := by
  have p0 := hr.parts hF hF' (k := 0) (by omega)
  have p1 := hr.parts hF hF' (k := 1) (by omega)
  have p2 := hr.parts hF hF' (k := 2) (by omega)
  have q0 : (m 0 : ℝ) ≠ 0 := by exact_mod_cast p0.ne'
  have q1 : (m 1 : ℝ) ≠ 0 := by exact_mod_cast p1.ne'
  have q2 : (m 2 : ℝ) ≠ 0 := by exact_mod_cast p2.ne'
  have c0 : F'.nx - 1 = m 0 * (F.nx - 1) := hr.cnt 0 (by omega)
  have c1 : F'.ny - 1 = m 1 * (F.ny - 1) := hr.cnt 1 (by omega)
  have c2 : F'.layers = m 2 * F.layers := hr.cnt 2 (by omega)
  have hnx := hF.nx
  have hny := hF.ny
  have hnx' := hF'.nx
  have hny' := hF'.ny
  intro r hr'
  rcases hF.kind with ⟨k1, k2, -, k4⟩ | ⟨k1, k2, -, k4⟩
  · have kd : F'.dim = 2 := hr.dim.trans k1
    have l' : F'.layers = 1 := by rcases hF'.kind with h | h <;> omega
    have m2 : m 2 = 1 := by rw [l', k4] at c2; omega
    have hN : F'.nn = F'.nx * F'.ny := by unfold nn; rw [if_pos kd, Nat.mul_one]
    obtain ⟨x, y, d, hx, hy, hd, e⟩ := dof_surj2 (nF := 2) (nx := F'.nx) (ny := F'.ny) (q := r)
      (by rw [hN, kd] at hr'; exact hr')
    have hn : node2 F'.nx x y = node3 F'.nx F'.ny x y 0 := by simp [node3, node2]
    have er : r = node3 F'.nx F'.ny x y 0 * F'.dim + d := by rw [kd, ← hn]; exact e
    have z2 : ∀ f : Nat → ℝ, lerp 1 f 0 = f 0 := fun f => by simp [lerp]
    rw [er, interp_node hr.dim _ hx hy (by omega), m2, affine_node3 G t hx hy (by omega) (by omega)]
    simp only [z2]
    rw [lerp_congr p0 (n := F.nx - 1) (g := fun x => (t d + G d 1 * F.h 1 * ((y : ℝ) / m 1)) + G d 0 * F.h 0 * x) (by omega)
      fun x hx => (lerp_congr p1 (n := F.ny - 1) (g := fun y => (t d + G d 0 * F.h 0 * x) + G d 1 * F.h 1 * y) (by omega)
        fun y hy => by
          rw [affine_node3 G t (by omega) (by omega) (by omega) (by omega), k1]
          simp [sum_range_succ]; ring).trans (by rw [lerp_affine p1]; ring), lerp_affine p0, kd]
    simp only [sum_range_succ, sum_range_zero, hr.h 0 (by omega), hr.h 1 (by omega)]
    simp
    field_simp
    ring
  · have kd : F'.dim = 3 := hr.dim.trans k1
    have hN : F'.nn = F'.nx * F'.ny * (F'.layers + 1) := by unfold nn; rw [if_neg (by omega)]
    obtain ⟨x, y, s, d, hx, hy, hs, hd, e⟩ := dof_surj3 (nF := 3) (nx := F'.nx) (ny := F'.ny) (nz := F'.layers + 1)
      (q := r) (by rw [hN, kd] at hr'; exact hr')
    have er : r = node3 F'.nx F'.ny x y s * F'.dim + d := by rw [kd]; exact e
    rw [er, interp_node hr.dim _ hx hy (by omega), affine_node3 G t hx hy (by omega) (by omega)]
    rw [lerp_congr p0 (n := F.nx - 1) (g := fun x => (t d + G d 1 * F.h 1 * ((y : ℝ) / m 1) + G d 2 * F.h 2 * ((s : ℝ) / m 2))
      + G d 0 * F.h 0 * x) (by omega)
      fun x hx => (lerp_congr p1 (n := F.ny - 1) (g := fun y => (t d + G d 0 * F.h 0 * x + G d 2 * F.h 2 * ((s : ℝ) / m 2))
        + G d 1 * F.h 1 * y) (by omega)
        fun y hy => (lerp_congr p2 (n := F.layers) (g := fun z => (t d + G d 0 * F.h 0 * x + G d 1 * F.h 1 * y) + G d 2 * F.h 2 * z)
          (by omega) fun z hz => by
          rw [affine_node3 G t (by omega) (by omega) (by omega) (by omega), k1]
          simp [sum_range_succ]; ring).trans (by rw [lerp_affine p2]; ring)).trans (by rw [lerp_affine p1]; ring), lerp_affine p0, kd]
    simp only [sum_range_succ, sum_range_zero, hr.h 0 (by omega), hr.h 1 (by omega), hr.h 2 (by omega)]
    simp
    field_simp
    ring

theorem symGrad_dim (h : F'.dim = F.dim) (eps : Nat → ℝ) : F'.symGrad eps = F.symGrad eps := by
  funext i j
  unfold symGrad
  rw [h]

theorem onBd_interp (hF : F.Good) (hF' : F'.Good) (hr : F.Refines F' m) {eps u : Nat → ℝ} (hu : F.OnBd eps u) :
    F'.OnBd eps (F.interp F' m u) := by
  intro r h hb
  have h1 := interp_zero hF hF' hr (w := fun r => u r - F.affine (F.symGrad eps) (fun _ => 0) r)
    (fun r hr hb => by rw [hu r hr hb, sub_self]) r h hb
  rw [interp_sub, interp_affine hF hF' hr _ _ r h] at h1
  rw [symGrad_dim hr.dim]
  linarith

theorem Refines.vol (hr : F.Refines F' m) (hF : F.Good) (hF' : F'.Good) : F'.vol = F.vol := by
  have c0 : F'.nx - 1 = m 0 * (F.nx - 1) := hr.cnt 0 (by omega)
  have c1 : F'.ny - 1 = m 1 * (F.ny - 1) := hr.cnt 1 (by omega)
  have c2 : F'.layers = m 2 * F.layers := hr.cnt 2 (by omega)
  unfold Fe.vol
  rw [c0, c1, c2, hr.cell]
  rcases hF.kind with ⟨k1, k2, -, k4⟩ | ⟨k1, k2, -, k4⟩
  · have kd : F'.dim = 2 := hr.dim.trans k1
    have l' : F'.layers = 1 := by rcases hF'.kind with h | h <;> omega
    have m2 : m 2 = 1 := by rw [l', k4] at c2; omega
    rw [k1, m2]
    simp only [prod_range_succ, prod_range_zero]
    push_cast
    ring
  · rw [k1]
    simp only [prod_range_succ, prod_range_zero]
    push_cast
    ring

/-- **Refinement**: the work of the average stress does not rise. -/
theorem macro_refine (hF : F.Good) (hF' : F'.Good) (hr : F.Refines F' m) (hL : F.Law L) (hL' : F'.Law L')
    (hLL : ∀ e ∈ F'.elems, ∀ x v, v < F.nvoi → L' e x v = L (parent m e) x v) {eps u u' : Nat → ℝ}
    (hu : F.OnBd eps u) (hu' : F'.OnBd eps u') (he : F.Equil (F.stress L u)) (he' : F'.Equil (F'.stress L' u')) :
    F'.pair (F'.aveStress (F'.stress L' u')) eps ≤ F.pair (F.aveStress (F.stress L u)) eps := by
  have h1 := macro_energy hF hu he
  have h2 := macro_energy hF' hu' he'
  have h3 := (energy_min hF' hL' (w := F.interp F' m u) he' fun r h hb =>
    (onBd_interp hF hF' hr hu r h hb).trans (hu' r h hb).symm).1
  have h4 := bil_interp hF hF' hr hL hL' hLL u
  rw [hr.vol hF hF'] at h2
  exact le_of_mul_le_mul_left (by linarith) (vol_pos hF)

end Fe
end Verif.Spec
