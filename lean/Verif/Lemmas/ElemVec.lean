import Verif.Lemmas.ElemMat

/-! # Element displacement vectors -/

namespace Verif
open Spec Finset

variable {F : Fe}

theorem elemStrain_congr (hF : F.Good) {x y : Nat → ℝ} (h : ∀ i, i < F.npe * F.dim → x i = y i)
    (gp : Nat) {v : Nat} (hv : v < F.nvoi) : F.elemStrain x gp v = F.elemStrain y gp v := by
  unfold Fe.elemStrain
  refine Fe.voigt_congr hF (fun i j hi hj => ?_) hv
  refine sum_congr rfl fun a ha => ?_
  rw [h _ (mul_add_lt (mem_range.mp ha) hi)]

theorem elemStrain_eq (hF : F.Good) (u : Nat → ℝ) (e : Nat × Nat × Nat) (gp : Nat) {v : Nat}
    (hv : v < F.nvoi) : F.elemStrain (fun i => u (F.dof e i)) gp v = F.strain u e gp v := by
  unfold Fe.elemStrain Fe.strain
  refine Fe.voigt_congr hF (fun i j hi hj => ?_) hv
  unfold Fe.grad
  refine sum_congr rfl fun a _ => ?_
  unfold Fe.dof
  beta_reduce
  rw [mul_add_div' hi, mul_add_mod' hi]

theorem corner_inj {a b : Nat} (ha : a < 8) (hb : b < 8) (h0 : cornerX a = cornerX b)
    (h1 : cornerY a = cornerY b) (h2 : cornerZ a = cornerZ b) : a = b := by
  interval_cases a <;> interval_cases b <;> first | rfl | (exfalso; revert h0 h1 h2; decide)

theorem corner_lt {a : Nat} (ha : a < 8) : cornerX a ≤ 1 ∧ cornerY a ≤ 1 ∧ cornerZ a ≤ 1 := by
  interval_cases a <;> decide

variable {c : Cfg ℝ}

theorem Cfg.node_inj (hc : c.Ok) {e : Nat × Nat × Nat} (hm : e ∈ c.fe.elems) {a b : Nat}
    (ha : a < c.fe.npe) (hb : b < c.fe.npe) (h : c.fe.node e a = c.fe.node e b) : a = b := by
  obtain ⟨hx, hy, h2, h3⟩ := c.mem_elems hc hm
  have h8 : c.fe.npe ≤ 8 := by
    rcases hc.dim with hd | hd
    · rw [Cfg.fe_2 hd]; show 4 ≤ 8; omega
    · rw [Cfg.fe_3 hd]; exact le_refl _
  have hnx : c.fe.nx = c.nx := by
    rcases hc.dim with hd | hd
    · rw [Cfg.fe_2 hd]; rfl
    · rw [Cfg.fe_3 hd]; rfl
  have hny : c.fe.ny = c.ny := by
    rcases hc.dim with hd | hd
    · rw [Cfg.fe_2 hd]; rfl
    · rw [Cfg.fe_3 hd]; rfl
  have la := corner_lt (lt_of_lt_of_le ha h8)
  have lb := corner_lt (lt_of_lt_of_le hb h8)
  unfold Fe.node enode3 at h
  rw [hnx, hny, node3_inj (by omega) (by omega) (by omega) (by omega)] at h
  exact corner_inj (lt_of_lt_of_le ha h8) (lt_of_lt_of_le hb h8) (by omega) (by omega) (by omega)

theorem Cfg.dof_inj (hc : c.Ok) {e : Nat × Nat × Nat} (hm : e ∈ c.fe.elems) {i j : Nat}
    (hi : i < c.fe.npe * c.fe.dim) (hj : j < c.fe.npe * c.fe.dim) (h : c.fe.dof e i = c.fe.dof e j) :
    i = j := by
  have hpos : 0 < c.fe.dim := by rw [c.fe_dim hc]; rcases hc.dim with h | h <;> omega
  unfold Fe.dof at h
  obtain ⟨h1, h2⟩ := mul_add_inj (Nat.mod_lt _ hpos) (Nat.mod_lt _ hpos) h
  have := c.node_inj hc hm (Nat.div_lt_of_lt_mul (by rwa [Nat.mul_comm] at hi))
    (Nat.div_lt_of_lt_mul (by rwa [Nat.mul_comm] at hj)) h1
  rw [← Nat.div_add_mod i c.fe.dim, ← Nat.div_add_mod j c.fe.dim, this, h2]

/-- Every element displacement belongs to a field. -/
theorem Cfg.realize (hc : c.Ok) {e : Nat × Nat × Nat} (hm : e ∈ c.fe.elems) (x : Nat → ℝ) :
    ∃ u : Nat → ℝ, ∀ i, i < c.fe.npe * c.fe.dim → u (c.fe.dof e i) = x i := by
  classical
  refine ⟨fun q => ∑ i ∈ range (c.fe.npe * c.fe.dim), if c.fe.dof e i = q then x i else 0, ?_⟩
  intro i hi
  show ∑ j ∈ range (c.fe.npe * c.fe.dim), (if c.fe.dof e j = c.fe.dof e i then x j else 0) = x i
  rw [sum_eq_single i]
  · rw [if_pos rfl]
  · intro j hj hne
    rw [if_neg fun h => hne (c.dof_inj hc hm (mem_range.mp hj) hi h)]
  · intro h; exact absurd (mem_range.mpr hi) h

/-- Energy of an element displacement. -/
theorem Cfg.Ke_vec (hc : c.Ok) (hg : c.Geom) (he : c.Elastic) {e : Nat × Nat × Nat}
    (hm : e ∈ c.fe.elems) (x : Nat → ℝ) :
    ∑ i ∈ range (c.fe.npe * c.fe.dim), ∑ j ∈ range (c.fe.npe * c.fe.dim), x i * c.Ke e i j * x j
      = ∑ gp ∈ range c.fe.npe,
        c.fe.pair (c.law e (c.fe.elemStrain x gp)) (c.fe.elemStrain x gp) * (c.fe.cell / c.fe.npe) := by
  obtain ⟨u, hu⟩ := c.realize hc hm x
  have hF := c.good hc hg
  have h := c.Ke_energy hc he hm u
  have h1 : ∀ gp v, v < c.fe.nvoi → c.fe.strain u e gp v = c.fe.elemStrain x gp v := by
    intro gp v hv
    rw [← elemStrain_eq hF u e gp hv]
    exact elemStrain_congr hF hu gp hv
  calc _ = _ := sum_congr rfl fun i hi => sum_congr rfl fun j hj => by
        rw [← hu i (mem_range.mp hi), ← hu j (mem_range.mp hj)]
    _ = _ := h
    _ = _ := sum_congr rfl fun gp _ => by
        rw [Fe.pair_congr (fun v hv => (c.law_ok hc he).cong e hm _ _ (h1 gp) v hv) (h1 gp)]

/-- Nodal forces are assembled from the element matrices. -/
theorem Cfg.force_Ke (hc : c.Ok) (u : Nat → ℝ) (q : Nat) :
    c.fe.force (c.fe.stress c.linLaw u) q = ∑ e ∈ c.fe.elems, ∑ i ∈ range (c.fe.npe * c.fe.dim),
      if c.fe.dof e i = q then
        ∑ j ∈ range (c.fe.npe * c.fe.dim), c.Ke e i j * u (c.fe.dof e j) else 0 := by
  rw [force_eq (c.hasB hc)]
  refine sum_congr rfl fun e he => sum_congr rfl fun i _ => ?_
  split
  · unfold Cfg.Ke
    rw [elemStiff_apply (c.hasB hc) _ _ he]
    rfl
  · rfl

theorem Cfg.force_add (hc : c.Ok) (u x : Nat → ℝ) (q : Nat) :
    c.fe.force (c.fe.stress c.linLaw fun r => u r + x r) q
      = c.fe.force (c.fe.stress c.linLaw u) q + c.fe.force (c.fe.stress c.linLaw x) q := by
  rw [c.force_Ke hc, c.force_Ke hc, c.force_Ke hc, ← sum_add_distrib]
  refine sum_congr rfl fun e _ => ?_
  rw [← sum_add_distrib]
  refine sum_congr rfl fun i _ => ?_
  split
  · rw [← sum_add_distrib]
    exact sum_congr rfl fun j _ => by ring
  · rw [add_zero]

end Verif
