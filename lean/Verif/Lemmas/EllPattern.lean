import Verif.Lemmas.EllOps
import Verif.Spec.EllPattern

/-! # The patterns produced by the initialisation routines -/

namespace Verif
open Spec

theorem slotIx_eq_row {nF W n d s d2 : Nat} :
    (n * nF + d) * (W * nF) + (s * nF + d2) = slotIx nF W n d s d2 := by
  unfold slotIx; ring

theorem Spec.Pattern3.col {α : Type} {m : Ell α} {nF nx ny nz : Nat} (h : Pattern3 m nF nx ny nz)
    {i j k d s d2 : Nat} (hi : i < nx) (hj : j < ny) (hk : k < nz) (hd : d < nF) (hs : s < 27)
    (h2 : d2 < nF) :
    m.cols.val (slotIx nF 27 (node3 nx ny i j k) d s d2) = slotCol nF (nbr3 nx ny nz i j k s) d2 := by
  rw [← slotIx_eq_row, ← h.nnz]; exact h.cols i j k d s d2 hi hj hk hd hs h2

theorem Spec.Pattern2Weak.col {α : Type} {m : Ell α} {nF nx ny : Nat} (h : Pattern2Weak m nF nx ny)
    {i j d s d2 : Nat} (hi : i < nx) (hj : j < ny) (hd : d < nF) (hs : s < 9)
    (h2 : d2 < nF) (hb : ¬ (i + 1 = nx ∧ 0 < j ∧ j + 1 < ny ∧ s = 7)) :
    m.cols.val (slotIx nF 9 (node2 nx i j) d s d2) = slotCol nF (nbr2 nx ny i j s) d2 := by
  rw [← slotIx_eq_row, ← h.nnz]; exact h.cols i j d s d2 hi hj hd hs h2 hb

theorem nbr3_lt {nx ny nz i j k s n : Nat} (h : nbr3 nx ny nz i j k s = some n) :
    n < nx * ny * nz := by
  unfold nbr3 at h
  simp only at h
  split at h
  · rename_i hc
    obtain ⟨h1, h2, h3, h4, h5, h6⟩ := hc
    simp only [Option.some.injEq] at h
    rw [← h]
    exact node3_lt (by omega) (by omega) (by omega)
  · simp at h

theorem nbr2_lt {nx ny i j s n : Nat} (h : nbr2 nx ny i j s = some n) : n < nx * ny := by
  unfold nbr2 at h
  simp only at h
  split at h
  · rename_i hc
    obtain ⟨h1, h2, h3, h4⟩ := hc
    simp only [Option.some.injEq] at h
    rw [← h]
    exact node2_lt (by omega) (by omega)
  · simp at h

theorem slotCol_range {nF N d2 : Nat} {o : Option Nat} (ho : ∀ n, o = some n → n < N)
    (h2 : d2 < nF) (hN : 0 < N) : 0 ≤ slotCol nF o d2 ∧ slotCol nF o d2 < ((N * nF : Nat) : Int) := by
  cases o with
  | none =>
    simp only [slotCol]
    have : 0 < N * nF := Nat.mul_pos hN (by omega)
    omega
  | some n =>
    have := mul_add_lt (ho n rfl) h2
    simp only [slotCol]; omega

theorem Spec.Pattern3.wf {α : Type} {m : Ell α} {nF nx ny nz : Nat}
    (h : Pattern3 m nF nx ny nz) : m.WF := by
  refine ⟨by rw [h.ncol, h.nrow], h.cols_size, h.vals_size, ?_⟩
  intro q hq
  rw [h.nnz, h.nrow] at hq
  obtain ⟨hn, hd, hs, h2, e⟩ := slotIx_surj hq
  obtain ⟨i, j, k, hi, hj, hk, en⟩ := node3_surj hn
  rw [← e, en, h.col hi hj hk hd hs h2, h.nrow]
  exact slotCol_range (fun n hn => nbr3_lt hn) h2 (by omega)

theorem Spec.Pattern2Weak.wf {α : Type} {m : Ell α} {nF nx ny : Nat}
    (h : Pattern2Weak m nF nx ny) : m.WF := by
  refine ⟨by rw [h.ncol, h.nrow], h.cols_size, h.vals_size, ?_⟩
  intro q hq
  rw [h.nnz, h.nrow] at hq
  obtain ⟨hn, hd, hs, h2, e⟩ := slotIx_surj hq
  obtain ⟨i, j, hi, hj, en⟩ := node2_surj hn
  by_cases hb : i + 1 = nx ∧ 0 < j ∧ j + 1 < ny ∧ ixS nF 9 q = 7
  · obtain ⟨b1, b2, b3, b4⟩ := hb
    have hi' : i = nx - 1 := by omega
    have := h.cols_right j _ _ b2 b3 hd h2
    rw [h.nnz, slotIx_eq_row] at this
    rw [← e, en, b4, hi', this, h.nrow]
    have := mul_add_lt (node2_lt hi hj) h2
    rw [← hi']; omega
  · rw [← e, en, h.col hi hj hd hs h2 hb, h.nrow]
    exact slotCol_range (fun n hn => nbr2_lt hn) h2 (by omega)

theorem pattern3_init {α : Type} (jc : Nat → Int) (jv : Nat → α) {nF nx ny nz : Nat}
    (hx : 2 ≤ nx) (hy : 2 ≤ ny) (hz : 2 ≤ nz) :
    ∃ m, ellInit3D jc jv nF nx ny nz = .ok m ∧ Pattern3 m nF nx ny nz := by
  obtain ⟨c, h1, h2, h3⟩ := ellInit3D_cols jc jv (nF := nF) hx hy hz
  refine ⟨_, h1, ⟨rfl, rfl, rfl, h2, rfl, ?_⟩⟩
  intro i j k d s d2 hi hj hk hd hs hd2
  simp only
  rw [slotIx_eq_row, h3 _ (slotIx_lt (node3_lt hi hj hk) hd hs hd2), colSpec3_slotIx hi hj hd hs hd2]

theorem pattern2_init {α : Type} (jc : Nat → Int) (jv : Nat → α) {nF nx ny : Nat}
    (hx : 2 ≤ nx) (hy : 2 ≤ ny) :
    ∃ m, ellInit2D jc jv nF nx ny = .ok m ∧ Pattern2Weak m nF nx ny := by
  obtain ⟨c, h1, h2, h3⟩ := ellInit2D_cols jc jv (nF := nF) hx hy
  refine ⟨_, h1, ⟨rfl, rfl, rfl, h2, rfl, ?_, ?_⟩⟩
  · intro i j d s d2 hi hj hd hs hd2 hb
    simp only
    rw [slotIx_eq_row, h3 _ (slotIx_lt (node2_lt hi hj) hd hs hd2), colSpec2_slotIx hi hd hs hd2,
      if_neg (by tauto)]
  · intro j d d2 hj1 hj2 hd hd2
    simp only
    have hi : nx - 1 < nx := by omega
    rw [slotIx_eq_row, h3 _ (slotIx_lt (node2_lt hi (by omega)) hd (by omega) hd2),
      colSpec2_slotIx hi hd (by omega) hd2, if_pos ⟨⟨by omega, hj1, hj2⟩, rfl⟩]

end Verif
