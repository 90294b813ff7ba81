import Verif.Lemmas.Fem

/-! # Patch test, Gauss theorem and rigidity of the grid -/

namespace Verif.Spec.Fe
open Finset

variable {F : Fe}

/-- Position of an element in direction `k`. -/
def pos (e : Nat × Nat × Nat) (k : Nat) : Nat := if k = 0 then e.1 else if k = 1 then e.2.1 else e.2.2

theorem node_eq (e : Nat × Nat × Nat) (a : Nat) :
    F.node e a = node3 F.nx F.ny (pos e 0 + corner 0 a) (pos e 1 + corner 1 a)
      (pos e 2 + corner 2 a) := rfl

theorem coord_node {e : Nat × Nat × Nat} (he : e ∈ F.elems) (a : Nat) {k : Nat} (hk : k < 3) :
    F.coord (F.node e a) k = ((pos e k : ℝ) + corner k a) * F.h k := by
  rw [mem_elems] at he
  have := cornerX_le a; have := cornerY_le a
  obtain ⟨h1, h2, h3⟩ := node3_decode (nx := F.nx) (ny := F.ny) (i := e.1 + cornerX a)
    (j := e.2.1 + cornerY a) (k := e.2.2 + cornerZ a) (by omega) (by omega)
  unfold coord node enode3
  interval_cases k
  · simp [h1, pos, corner]
  · simp [h2, pos, corner]
  · simp [h3, pos, corner]

theorem affine_node {e : Nat × Nat × Nat} (G : Nat → Nat → ℝ) (t : Nat → ℝ) (a : Nat) {i : Nat}
    (hi : i < F.dim) : F.affine G t (F.node e a * F.dim + i)
      = t i + ∑ j ∈ range F.dim, G i j * F.coord (F.node e a) j := by
  unfold affine
  rw [mul_add_mod' hi, mul_add_div' hi]

/-- **Patch test**: the gradient of an affine field. -/
theorem grad_affine (hF : F.Good) (G : Nat → Nat → ℝ) (t : Nat → ℝ) {e : Nat × Nat × Nat}
    (he : e ∈ F.elems) (gp : Nat) {i j : Nat} (hi : i < F.dim) (hj : j < F.dim) :
    F.grad (F.affine G t) e gp i j = G i j := by
  have hd : F.dim ≤ 3 := by rcases hF.kind with h | h <;> omega
  unfold grad
  have h1 : ∀ a ∈ range F.npe, dShape F.dim F.h gp a j * F.affine G t (F.node e a * F.dim + i)
      = dShape F.dim F.h gp a j * (t i + ∑ k ∈ range F.dim, G i k * ((pos e k : ℝ) * F.h k))
        + ∑ k ∈ range F.dim, G i k * (dShape F.dim F.h gp a j * ((corner k a : ℝ) * F.h k)) := by
    intro a _
    rw [affine_node G t a hi, mul_add, mul_add, mul_sum, mul_sum, add_assoc, ← sum_add_distrib]
    congr 1
    refine sum_congr rfl fun k hk => ?_
    rw [coord_node he a (by have := mem_range.mp hk; omega)]
    ring
  rw [sum_congr rfl h1, sum_add_distrib, ← sum_mul, dShape_sum hF hj, zero_mul, zero_add, sum_comm]
  have h2 : ∀ k ∈ range F.dim, ∑ a ∈ range F.npe,
      G i k * (dShape F.dim F.h gp a j * ((corner k a : ℝ) * F.h k))
      = if k = j then G i j else 0 := by
    intro k hk
    rw [← mul_sum, dShape_corner hF hj (mem_range.mp hk)]
    by_cases h : k = j
    · subst h; simp
    · rw [if_neg (Ne.symm h), if_neg h, mul_zero]
  rw [sum_congr rfl h2, sum_ite_eq' (range F.dim) j]
  simp [hj]

theorem strain_affine (hF : F.Good) (G : Nat → Nat → ℝ) (t : Nat → ℝ) {e : Nat × Nat × Nat}
    (he : e ∈ F.elems) (gp : Nat) {v : Nat} (hv : v < F.nvoi) :
    F.strain (F.affine G t) e gp v = voigt F.dim G v :=
  voigt_congr hF (fun _ _ hi hj => grad_affine hF G t he gp hi hj) hv

theorem voigt_symGrad (hF : F.Good) (eps : Nat → ℝ) {v : Nat} (hv : v < F.nvoi) :
    voigt F.dim (F.symGrad eps) v = eps v := by
  rcases hF.kind with ⟨h1, -, h3, -⟩ | ⟨h1, -, h3, -⟩ <;> rw [h3] at hv <;>
    unfold symGrad <;> rw [h1]
  · interval_cases v <;> simp [voigt]
  · interval_cases v <;> simp [voigt]

/-! ## Gauss theorem -/

theorem tele (n : Nat) (f : Nat → ℝ) (h0 : f 0 = 0) (hn : f n = 0) :
    ∑ x ∈ range n, (f (x + 1) - f x) = 0 := by
  rw [sum_range_sub, h0, hn, sub_zero]

theorem Bd_node3 (hd : F.dim = 3) {i j k d : Nat} (hi : i < F.nx) (hj : j < F.ny) (hd' : d < 3) :
    F.Bd (node3 F.nx F.ny i j k * 3 + d) ↔ Bdry3 F.nx F.ny (F.layers + 1) i j k := by
  unfold Bd
  rw [if_neg (by omega), hd]
  exact bdryDof3_iff hi hj hd'

theorem Bd_node2 (hd : F.dim = 2) {i j d : Nat} (hi : i < F.nx) (hd' : d < 2) :
    F.Bd (node3 F.nx F.ny i j 0 * 2 + d) ↔ Bdry2 F.nx F.ny i j := by
  unfold Bd
  rw [if_pos hd]
  have : node3 F.nx F.ny i j 0 = node2 F.nx i j := by simp [node3, node2]
  rw [this]
  exact bdryDof2_iff hi hd'

/-- **Gauss theorem**: the mean gradient of a field that vanishes on the boundary is zero. -/
theorem integral_grad (hF : F.Good) {w : Nat → ℝ} (hw : ∀ r, r < F.nn * F.dim → F.Bd r → w r = 0)
    {i j : Nat} (hi : i < F.dim) (hj : j < F.dim) :
    ∑ e ∈ F.elems, ∑ gp ∈ range F.npe, F.grad w e gp i j = 0 := by
  have h1 : ∀ e ∈ F.elems, ∑ gp ∈ range F.npe, F.grad w e gp i j
      = 2 / F.h j * ∑ a ∈ range F.npe, sgn j a * w (F.node e a * F.dim + i) := by
    intro e _
    unfold grad
    rw [sum_comm, mul_sum]
    refine sum_congr rfl fun a _ => ?_
    rw [← sum_mul, sum_dShape hF hj]
    ring
  rw [sum_congr rfl h1, ← mul_sum]
  refine mul_eq_zero_of_right _ ?_
  have hnx := hF.nx
  have hny := hF.ny
  rcases hF.kind with ⟨k1, k2, -, k4⟩ | ⟨k1, k2, -, k4⟩
  · have z : ∀ x y, x < F.nx → y < F.ny → Bdry2 F.nx F.ny x y →
        w (node3 F.nx F.ny x y 0 * F.dim + i) = 0 := by
      intro x y hx hy hb
      rw [k1] at hi
      apply hw
      · rw [k1]
        refine mul_add_lt ?_ hi
        have := node3_lt (nx := F.nx) (ny := F.ny) (nz := 1) (k := 0) hx hy (by omega)
        unfold nn; rw [if_pos k1]; exact this
      · rw [k1]; exact (Bd_node2 k1 hx hi).mpr hb
    unfold elems
    rw [k2, k4]
    simp only [sum_product, range_one, sum_singleton]
    rw [k1] at hj
    generalize hW : (fun x y => w (node3 F.nx F.ny x y 0 * F.dim + i)) = W
    have hW' : ∀ x y, w (node3 F.nx F.ny x y 0 * F.dim + i) = W x y := by
      intro x y; rw [← hW]
    interval_cases j
    · have e2 : ∀ ex ey, ∑ a ∈ range 4, sgn 0 a * w (F.node (ex, ey, 0) a * F.dim + i)
          = (W (ex + 1) ey - W ex ey) + (W (ex + 1) (ey + 1) - W ex (ey + 1)) := by
        intro ex ey
        simp [sum_range_succ, node, enode3, sgn, corner, cornerX, cornerY, cornerZ, hW']
        ring
      simp only [e2]
      rw [sum_comm]
      refine sum_eq_zero fun ey hy => ?_
      have hy := mem_range.mp hy
      rw [sum_add_distrib, tele _ (fun x => W x ey), tele _ (fun x => W x (ey + 1)), add_zero] <;>
        (rw [← hW]; exact z _ _ (by omega) (by omega) (by unfold Bdry2; omega))
    · have e2 : ∀ ex ey, ∑ a ∈ range 4, sgn 1 a * w (F.node (ex, ey, 0) a * F.dim + i)
          = (W ex (ey + 1) - W ex ey) + (W (ex + 1) (ey + 1) - W (ex + 1) ey) := by
        intro ex ey
        simp [sum_range_succ, node, enode3, sgn, corner, cornerX, cornerY, cornerZ, hW']
        ring
      simp only [e2]
      refine sum_eq_zero fun ex hx => ?_
      have hx := mem_range.mp hx
      rw [sum_add_distrib, tele _ (fun y => W ex y), tele _ (fun y => W (ex + 1) y), add_zero] <;>
        (rw [← hW]; exact z _ _ (by omega) (by omega) (by unfold Bdry2; omega))
  · have z : ∀ x y t, x < F.nx → y < F.ny → t < F.layers + 1 → Bdry3 F.nx F.ny (F.layers + 1) x y t →
        w (node3 F.nx F.ny x y t * F.dim + i) = 0 := by
      intro x y t hx hy ht hb
      rw [k1] at hi
      apply hw
      · rw [k1]
        refine mul_add_lt ?_ hi
        have := node3_lt (nx := F.nx) (ny := F.ny) (nz := F.layers + 1) (k := t) hx hy ht
        unfold nn; rw [if_neg (by omega)]; exact this
      · rw [k1]; exact (Bd_node3 k1 hx hy hi).mpr hb
    unfold elems
    rw [k2]
    simp only [sum_product]
    rw [k1] at hj
    generalize hW : (fun x y t => w (node3 F.nx F.ny x y t * F.dim + i)) = W
    have hW' : ∀ x y t, w (node3 F.nx F.ny x y t * F.dim + i) = W x y t := by
      intro x y t; rw [← hW]
    interval_cases j
    · have e2 : ∀ ex ey ez, ∑ a ∈ range 8, sgn 0 a * w (F.node (ex, ey, ez) a * F.dim + i)
          = (W (ex + 1) ey ez - W ex ey ez) + (W (ex + 1) (ey + 1) ez - W ex (ey + 1) ez)
          + (W (ex + 1) ey (ez + 1) - W ex ey (ez + 1))
          + (W (ex + 1) (ey + 1) (ez + 1) - W ex (ey + 1) (ez + 1)) := by
        intro ex ey ez
        simp [sum_range_succ, node, enode3, sgn, corner, cornerX, cornerY, cornerZ, hW']
        ring
      simp only [e2]
      rw [sum_comm]
      refine sum_eq_zero fun ey hy => ?_
      rw [sum_comm]
      refine sum_eq_zero fun ez hz => ?_
      have hy := mem_range.mp hy
      have hz := mem_range.mp hz
      rw [sum_add_distrib, sum_add_distrib, sum_add_distrib, tele _ (fun x => W x ey ez),
        tele _ (fun x => W x (ey + 1) ez), tele _ (fun x => W x ey (ez + 1)),
        tele _ (fun x => W x (ey + 1) (ez + 1))]
      · norm_num
      all_goals rw [← hW]; exact z _ _ _ (by omega) (by omega) (by omega) (by unfold Bdry3; omega)
    · have e2 : ∀ ex ey ez, ∑ a ∈ range 8, sgn 1 a * w (F.node (ex, ey, ez) a * F.dim + i)
          = (W ex (ey + 1) ez - W ex ey ez) + (W (ex + 1) (ey + 1) ez - W (ex + 1) ey ez)
          + (W ex (ey + 1) (ez + 1) - W ex ey (ez + 1))
          + (W (ex + 1) (ey + 1) (ez + 1) - W (ex + 1) ey (ez + 1)) := by
        intro ex ey ez
        simp [sum_range_succ, node, enode3, sgn, corner, cornerX, cornerY, cornerZ, hW']
        ring
      simp only [e2]
      refine sum_eq_zero fun ex hx => ?_
      rw [sum_comm]
      refine sum_eq_zero fun ez hz => ?_
      have hx := mem_range.mp hx
      have hz := mem_range.mp hz
      rw [sum_add_distrib, sum_add_distrib, sum_add_distrib, tele _ (fun y => W ex y ez),
        tele _ (fun y => W (ex + 1) y ez), tele _ (fun y => W ex y (ez + 1)),
        tele _ (fun y => W (ex + 1) y (ez + 1))]
      · norm_num
      all_goals rw [← hW]; exact z _ _ _ (by omega) (by omega) (by omega) (by unfold Bdry3; omega)
    · have e2 : ∀ ex ey ez, ∑ a ∈ range 8, sgn 2 a * w (F.node (ex, ey, ez) a * F.dim + i)
          = (W ex ey (ez + 1) - W ex ey ez) + (W (ex + 1) ey (ez + 1) - W (ex + 1) ey ez)
          + (W ex (ey + 1) (ez + 1) - W ex (ey + 1) ez)
          + (W (ex + 1) (ey + 1) (ez + 1) - W (ex + 1) (ey + 1) ez) := by
        intro ex ey ez
        simp [sum_range_succ, node, enode3, sgn, corner, cornerX, cornerY, cornerZ, hW']
        ring
      simp only [e2]
      refine sum_eq_zero fun ex hx => ?_
      refine sum_eq_zero fun ey hy => ?_
      have hx := mem_range.mp hx
      have hy := mem_range.mp hy
      rw [sum_add_distrib, sum_add_distrib, sum_add_distrib, tele _ (fun t => W ex ey t),
        tele _ (fun t => W (ex + 1) ey t), tele _ (fun t => W ex (ey + 1) t),
        tele _ (fun t => W (ex + 1) (ey + 1) t)]
      · norm_num
      all_goals rw [← hW]; exact z _ _ _ (by omega) (by omega) (by omega) (by unfold Bdry3; omega)

theorem sum_voigt (dim : Nat) {ι : Type} (s : Finset ι) (G : ι → Nat → Nat → ℝ) (v : Nat) :
    ∑ r ∈ s, voigt dim (G r) v = voigt dim (fun i j => ∑ r ∈ s, G r i j) v := by
  have := voigt_sum dim s G (fun _ => 1) v
  simpa using this.symm

/-- The mean strain of a field that vanishes on the boundary is zero. -/
theorem integral_strain_zero (hF : F.Good) {w : Nat → ℝ}
    (hw : ∀ r, r < F.nn * F.dim → F.Bd r → w r = 0) {v : Nat} (hv : v < F.nvoi) :
    F.integral (fun e gp => F.strain w e gp v) = 0 := by
  unfold integral
  simp only [← sum_mul]
  refine mul_eq_zero_of_left ?_ _
  unfold strain
  simp only [sum_voigt]
  rw [voigt_congr hF (H := fun _ _ => 0) (fun i j hi hj => integral_grad hF hw hi hj) hv]
  unfold voigt; split_ifs <;> norm_num

theorem cell_pos (hF : F.Good) : 0 < F.cell :=
  prod_pos fun k hk => hF.h k (mem_range.mp hk)

theorem layers_pos (hF : F.Good) : 1 ≤ F.layers := by rcases hF.kind with h | h <;> omega

theorem npe_pos (hF : F.Good) : 0 < F.npe := by rcases hF.kind with h | h <;> omega

theorem vol_pos (hF : F.Good) : 0 < F.vol := by
  unfold vol
  refine mul_pos ?_ (cell_pos hF)
  have := hF.nx; have := hF.ny; have := layers_pos hF
  have : 0 < (F.nx - 1) * (F.ny - 1) * F.layers := Nat.mul_pos (Nat.mul_pos (by omega) (by omega)) (by omega)
  exact_mod_cast this

theorem integral_const (hF : F.Good) (a : ℝ) : F.integral (fun _ _ => a) = F.vol * a := by
  have h := npe_pos hF
  have h' : (F.npe : ℝ) ≠ 0 := by exact_mod_cast h.ne'
  unfold integral vol elems
  rw [sum_const, sum_const, card_product, card_product]
  simp only [card_range, nsmul_eq_mul]
  push_cast
  field_simp

/-! ## Rigidity -/

/-- An element whose displacements vanish at all corners but `a`, and whose strains vanish at one
Gauss point, does not move. -/
theorem elem_rigid (hF : F.Good) {w : Nat → ℝ} {e : Nat × Nat × Nat} {a gp : Nat}
    (ha : a < F.npe) (hg : gp < F.npe)
    (h0 : ∀ b d, b < F.npe → b ≠ a → d < F.dim → w (F.node e b * F.dim + d) = 0)
    (hs : ∀ v, v < F.nvoi → F.strain w e gp v = 0) :
    ∀ d, d < F.dim → w (F.node e a * F.dim + d) = 0 := by
  intro d hd
  have hv : d < F.nvoi := by rcases hF.kind with h | h <;> omega
  have h1 := hs d hv
  unfold strain voigt at h1
  rw [if_pos hd] at h1
  unfold grad at h1
  rw [sum_eq_single a] at h1
  · exact (mul_eq_zero.mp h1).resolve_left (dShape_ne hF hg ha hd)
  · intro b hb hne
    rw [h0 b d (mem_range.mp hb) hne hd, mul_zero]
  · intro h; exact absurd (mem_range.mpr ha) h

/-- **Rigidity**: a field without strain that vanishes on the boundary is zero. -/
theorem rigid (hF : F.Good) {w : Nat → ℝ} (hw : ∀ r, r < F.nn * F.dim → F.Bd r → w r = 0)
    (hs : ∀ e ∈ F.elems, ∀ gp, gp < F.npe → ∀ v, v < F.nvoi → F.strain w e gp v = 0) :
    ∀ r, r < F.nn * F.dim → w r = 0 := by
  have hnx := hF.nx
  have hny := hF.ny
  intro r
  induction r using Nat.strong_induction_on with
  | _ r ih =>
    intro hr
    rcases hF.kind with ⟨k1, k2, -, k4⟩ | ⟨k1, k2, -, k4⟩
    · have hN : F.nn = F.nx * F.ny := by unfold nn; rw [if_pos k1, Nat.mul_one]
      obtain ⟨x, y, d, hx, hy, hd, e⟩ := dof_surj2 (nF := 2) (nx := F.nx) (ny := F.ny) (q := r)
        (by rw [hN, k1] at hr; exact hr)
      have hn : node2 F.nx x y = node3 F.nx F.ny x y 0 := by simp [node3, node2]
      by_cases hb : Bdry2 F.nx F.ny x y
      · refine hw r hr ?_
        rw [e, hn]; exact (Bd_node2 k1 hx hd).mpr hb
      · have hb' : ¬ (x = 0 ∨ x + 1 = F.nx ∨ y = 0 ∨ y + 1 = F.ny) := hb
        have he : (x - 1, y - 1, 0) ∈ F.elems := by
          rw [mem_elems]; simp only; omega
        have := elem_rigid hF (w := w) (e := (x - 1, y - 1, 0)) (a := 2) (gp := 0) (by omega)
          (by omega) (by
            intro b d' hb2 hne hd'
            refine ih _ ?_ (dof_lt hF he hb2 hd')
            rw [e, k1]
            rw [k2] at hb2
            rw [k1] at hd'
            have hmul : F.nx * 1 ≤ F.nx * y := Nat.mul_le_mul_left _ (by omega)
            have hy1 : F.nx * (y - 1) = F.nx * y - F.nx := by
              rw [Nat.mul_sub, Nat.mul_one]
            have hlt : F.node (x - 1, y - 1, 0) b < node2 F.nx x y := by
              interval_cases b <;>
                simp [node, enode3, node3, node2, cornerX, cornerY, cornerZ] at hne ⊢ <;>
                (try rw [show y - 1 + 1 = y from by omega]) <;> omega
            omega)
          (fun v hv => hs _ he 0 (by omega) v hv) d (by omega)
        have hnode : F.node (x - 1, y - 1, 0) 2 = node2 F.nx x y := by
          simp [node, enode3, node3, node2, cornerX, cornerY, cornerZ]
          rw [show y - 1 + 1 = y from by omega]; omega
        rw [hnode, k1, ← e] at this
        exact this
    · have hN : F.nn = F.nx * F.ny * (F.layers + 1) := by unfold nn; rw [if_neg (by omega)]
      obtain ⟨x, y, z, d, hx, hy, hz, hd, e⟩ := dof_surj3 (nF := 3) (nx := F.nx) (ny := F.ny)
        (nz := F.layers + 1) (q := r) (by rw [hN, k1] at hr; exact hr)
      by_cases hb : Bdry3 F.nx F.ny (F.layers + 1) x y z
      · refine hw r hr ?_
        rw [e]; exact (Bd_node3 k1 hx hy hd).mpr hb
      · have hb' : ¬ (x = 0 ∨ x + 1 = F.nx ∨ y = 0 ∨ y + 1 = F.ny ∨ z = 0 ∨ z + 1 = F.layers + 1) := hb
        have he : (x - 1, y - 1, z - 1) ∈ F.elems := by
          rw [mem_elems]; simp only; omega
        have lt3 : ∀ x' y' z', x' ≤ x → y' ≤ y → z' ≤ z → (x', y', z') ≠ (x, y, z) →
            node3 F.nx F.ny x' y' z' < node3 F.nx F.ny x y z := by
          intro x' y' z' h1 h2 h3 hne
          unfold node3
          have a1 : F.ny * z' ≤ F.ny * z := Nat.mul_le_mul_left _ h3
          have a2 : F.nx * (y' + F.ny * z') ≤ F.nx * (y + F.ny * z) :=
            Nat.mul_le_mul_left _ (by omega)
          by_cases hx' : x' = x
          · subst hx'
            have : y' + F.ny * z' < y + F.ny * z := by
              by_cases hy' : y' = y
              · subst hy'
                have hz' : z' < z := by
                  rcases Nat.lt_or_eq_of_le h3 with h | h
                  · exact h
                  · subst h; exact absurd rfl hne
                have : F.ny * (z' + 1) ≤ F.ny * z := Nat.mul_le_mul_left _ hz'
                rw [Nat.mul_add] at this
                omega
              · omega
            have := Nat.mul_lt_mul_of_pos_left this (show 0 < F.nx by omega)
            omega
          · omega
        have := elem_rigid hF (w := w) (e := (x - 1, y - 1, z - 1)) (a := 6) (gp := 0) (by omega)
          (by omega) (by
            intro b d' hb2 hne hd'
            refine ih _ ?_ (dof_lt hF he hb2 hd')
            rw [e, k1]
            rw [k2] at hb2
            rw [k1] at hd'
            have hlt : F.node (x - 1, y - 1, z - 1) b < node3 F.nx F.ny x y z := by
              have c1 := cornerX_le b; have c2 := cornerY_le b; have c3 := cornerZ_le hb2
              refine lt3 _ _ _ (by simp only; omega) (by simp only; omega) (by simp only; omega) ?_
              intro heq
              simp only [Prod.mk.injEq] at heq
              have : ∀ b, b < 8 → cornerX b = 1 → cornerY b = 1 → cornerZ b = 1 → b = 6 := by decide
              exact hne (this b hb2 (by omega) (by omega) (by omega))
            omega)
          (fun v hv => hs _ he 0 (by omega) v hv) d (by omega)
        have hnode : F.node (x - 1, y - 1, z - 1) 6 = node3 F.nx F.ny x y z := by
          simp only [node, enode3]
          rw [show cornerX 6 = 1 from rfl, show cornerY 6 = 1 from rfl, show cornerZ 6 = 1 from rfl]
          congr 1 <;> omega
        rw [hnode, k1, ← e] at this
        exact this

end Verif.Spec.Fe
