import Verif.Spec.Elastic
import Verif.Lemmas.MirrorGrid

/-! # Isotropic laws under symmetries; change of the unit of length -/

namespace Verif.Spec
open Finset

/-- The isotropic law by components. -/
theorem isoLaw_eq {dim n : Nat} (hd : dim = 2 ∨ dim = 3) (hn : n = if dim = 2 then 3 else 6) (l m : ℝ) (x : Nat → ℝ)
    {v : Nat} (hv : v < n) :
    isoLaw dim l m x v = if v < dim then l * (∑ k ∈ range dim, x k) + 2 * m * x v else m * x v := by
  rcases hd with rfl | rfl <;> simp at hn <;> subst hn <;> interval_cases v <;>
    simp [isoLaw, planeStrain, hooke, inPlane, tr, sum_range_succ]

/-- The grid with edges `k` times as long. -/
noncomputable def Fe.rescale (F : Fe) (k : ℝ) : Fe := { F with h := fun i => k * F.h i }

namespace Fe
variable {F : Fe} {k : ℝ}

theorem rescale_strain (hk : k ≠ 0) (w : Nat → ℝ) (e : Nat × Nat × Nat) (gp v : Nat) :
    (F.rescale k).strain w e gp v = F.strain (fun r => 1 / k * w r) e gp v := by
  have hg : ∀ i j, (F.rescale k).grad w e gp i j = F.grad (fun r => 1 / k * w r) e gp i j := by
    intro i j
    unfold grad
    refine sum_congr rfl fun a _ => ?_
    show dShape F.dim (fun i => k * F.h i) gp a j * w (F.node e a * F.dim + i) = _
    have : dShape F.dim (fun i => k * F.h i) gp a j = 1 / k * dShape F.dim F.h gp a j := by
      unfold dShape
      beta_reduce
      rw [← mul_assoc, one_div, ← div_eq_inv_mul, div_div, mul_comm (F.h j)]
    rw [this]
    ring
  show voigt F.dim ((F.rescale k).grad w e gp) v = voigt F.dim (F.grad (fun r => 1 / k * w r) e gp) v
  unfold voigt
  simp only [hg]

theorem morph_rescale (hk : k ≠ 0) :
    Morph F (F.rescale k) (fun e => e) (fun g => g) (fun r => r) (fun _ => 1 / k) (fun _ => 1) (fun v => v) where
  npe := rfl
  nvoi := rfl
  em_mem := fun _ h => h
  em_inj := fun _ _ _ _ h => h
  card := rfl
  gm_lt := fun _ h => h
  gm_inj := fun _ _ _ _ h => h
  rm_lt := fun _ h => h
  rm_inj := fun _ _ _ _ h => h
  bd := fun _ _ => Iff.rfl
  σ_ne := fun _ => one_div_ne_zero hk
  π_lt := fun _ h => h
  orth := fun x y => by simp only [one_mul]
  strain := fun w e _ gp _ v _ => by rw [one_mul]; exact rescale_strain hk w e gp v

theorem rescale_affine (G : Nat → Nat → ℝ) (r : Nat) :
    (F.rescale k).affine G (fun _ => 0) r = k * F.affine G (fun _ => 0) r := by
  unfold affine
  rw [zero_add, zero_add, mul_sum]
  refine sum_congr rfl fun j _ => ?_
  show G (r % F.dim) j * (_ * (k * F.h j)) = k * (G (r % F.dim) j * (_ * F.h j))
  show G (r % F.dim) j * ((((if j = 0 then r / F.dim % F.nx else if j = 1 then r / F.dim / F.nx % F.ny
    else r / F.dim / F.nx / F.ny : Nat) : ℝ)) * (k * F.h j)) = _
  ring

end Fe

namespace AxisMap
variable {a : AxisMap} {dim : Nat}

theorem Ok.sum (h : a.Ok dim) (hd : dim = 2 ∨ dim = 3) (f : Nat → ℝ) :
    ∑ k ∈ range dim, f (a.p k) = ∑ k ∈ range dim, f k := by
  have h3 : dim ≤ 3 := by omega
  refine sum_nbij a.p ?_ ?_ ?_ fun _ _ => rfl
  · intro k hk
    exact mem_range.mpr (h.lt_dim hd (mem_range.mp hk))
  · intro x hx y hy e
    have hx := mem_range.mp hx
    have hy := mem_range.mp hy
    exact h.inj (by omega) (by omega) e
  · intro y hy
    have hy := mem_range.mp hy
    exact ⟨a.q y, mem_coe.mpr (mem_range.mpr (h.qlt_dim hd hy)), h.pq y (by omega)⟩

/-- Isotropic laws have every symmetry. -/
theorem isoLaw_image (h : a.Ok dim) (hd : dim = 2 ∨ dim = 3) {n : Nat} (hn : n = if dim = 2 then 3 else 6)
    (l m : ℝ) (x : Nat → ℝ) {v : Nat} (hv : v < n) :
    isoLaw dim l m (a.image dim x) v = a.image dim (isoLaw dim l m x) v := by
  have hN : ∀ k, k < dim → a.csign dim k = 1 ∧ a.comp dim k = a.p k := by
    intro k hk
    have e1 : fst dim k = k := if_pos hk
    have e2 : snd dim k = k := if_pos hk
    unfold csign comp
    rw [e1, e2]
    exact ⟨sign_sq a k, by unfold vix; rw [if_pos rfl]⟩
  have hsum : ∑ k ∈ range dim, a.image dim x k = ∑ k ∈ range dim, x k := by
    rw [← h.sum hd x]
    refine sum_congr rfl fun k hk => ?_
    unfold image
    rw [(hN k (mem_range.mp hk)).1, (hN k (mem_range.mp hk)).2, one_mul]
  rw [isoLaw_eq hd hn l m _ hv]
  unfold image
  rw [isoLaw_eq hd hn l m x (comp_lt h hd hn hv)]
  by_cases hvd : v < dim
  · obtain ⟨e1, e2⟩ := hN v hvd
    rw [if_pos hvd, e1, e2, if_pos (h.lt_dim hd hvd), hsum.symm]
    unfold image
    rw [one_mul, one_mul]
  · have hc : ¬ a.comp dim v < dim := by
      have h1 := (fst_eq_snd hd hn hv).not.mpr hvd
      have h2 := fst_lt hd v
      have h3 := snd_lt hd hn hv
      have h4 : a.p (fst dim v) ≠ a.p (snd dim v) := fun e => h1 (h.inj (by omega) (by omega) e)
      have h5 := h.lt_dim hd h2
      have h6 := h.lt_dim hd h3
      unfold comp vix
      rw [if_neg h4]
      split <;> omega
    rw [if_neg hvd, if_neg hc]
    ring

end AxisMap

end Verif.Spec
