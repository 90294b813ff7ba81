import Verif.Lemmas.EllAdd

/-! # The operator after the boundary-condition routines -/

namespace Verif
open Spec Finset

theorem bdryDof3_iff {nF nx ny nz i j k d : Nat} (hi : i < nx) (hj : j < ny) (hd : d < nF) :
    BdryDof3 nF nx ny nz (node3 nx ny i j k * nF + d) ↔ Bdry3 nx ny nz i j k := by
  unfold BdryDof3
  have e : node3 nx ny i j k = (k * ny + j) * nx + i := by unfold node3; ring
  rw [mul_add_div' hd, e, mul_add_mod' hi, mul_add_div' hi, mul_add_mod' hj, mul_add_div' hj]

theorem bdryDof2_iff {nF nx ny i j d : Nat} (hi : i < nx) (hd : d < nF) :
    BdryDof2 nF nx ny (node2 nx i j * nF + d) ↔ Bdry2 nx ny i j := by
  unfold BdryDof2
  rw [mul_add_div' hd, node2_eq, mul_add_mod' hi, mul_add_div' hi]

/-- An index of a row in slot form. -/
theorem row_slot {W nF t : Nat} (ht : t < W * nF) :
    ∃ s d2, s < W ∧ d2 < nF ∧ t = s * nF + d2 := by
  have hF : 0 < nF := by
    rcases Nat.eq_zero_or_pos nF with h | h
    · simp [h] at ht
    · exact h
  exact ⟨t / nF, t % nF, Nat.div_lt_of_lt_mul (by rw [Nat.mul_comm]; exact ht), Nat.mod_lt _ hF, by
    have := Nat.div_add_mod t nF; rw [Nat.mul_comm]; exact this.symm⟩

/-- A row whose only entry is a 1 on the diagonal. -/
theorem op_idRow {m : Ell ℝ} {nF W n d slot : Nat} {x : Nat → ℝ} (hnnz : m.nnz = W * nF)
    (hd : d < nF) (hslot : slot < W)
    (hv : ∀ s d2, s < W → d2 < nF → m.vals.val (slotIx nF W n d s d2)
      = if s = slot ∧ d = d2 then 1 else 0)
    (hc : m.cols.val (slotIx nF W n d slot d) = ((n * nF + d : Nat) : Int)) :
    op m x (n * nF + d) = x (n * nF + d) := by
  unfold op
  rw [hnnz, sum_eq_single (slot * nF + d)]
  · rw [slotIx_eq_row, hv _ _ hslot hd, hc, Int.toNat_natCast]; simp
  · intro t ht hne
    obtain ⟨s, d2, hs, h2, rfl⟩ := row_slot (mem_range.mp ht)
    rw [slotIx_eq_row, hv _ _ hs h2, if_neg, zero_mul]
    rintro ⟨rfl, rfl⟩
    exact hne rfl
  · intro h
    exact absurd (mem_range.mpr (mul_add_lt hslot hd)) h

/-- Rows may be compared slot by slot. -/
theorem op_congr_row {m m' : Ell ℝ} {nF W n d : Nat} {x x' : Nat → ℝ} (h1 : m.nnz = W * nF)
    (h1' : m'.nnz = W * nF)
    (h : ∀ s d2, s < W → d2 < nF →
      m.vals.val (slotIx nF W n d s d2) * x (m.cols.val (slotIx nF W n d s d2)).toNat
      = m'.vals.val (slotIx nF W n d s d2) * x' (m'.cols.val (slotIx nF W n d s d2)).toNat) :
    op m x (n * nF + d) = op m' x' (n * nF + d) := by
  unfold op
  rw [h1, h1']
  refine sum_congr rfl fun t ht => ?_
  obtain ⟨s, d2, hs, h2, rfl⟩ := row_slot (mem_range.mp ht)
  rw [slotIx_eq_row]; exact h s d2 hs h2

/-! ## 3D -/

theorem bc3_arith {nx ny nz i j k s I J K : Nat} (hi : i < nx) (hj : j < ny) (hk : k < nz)
    (hB : ¬ (i = 0 ∨ i + 1 = nx ∨ j = 0 ∨ j + 1 = ny ∨ k = 0 ∨ k + 1 = nz))
    (hI : i + s % 3 = I + 1) (hJ : j + s / 3 % 3 = J + 1) (hK : k + s / 9 = K + 1) (hs : s < 27) :
    ((k = 1 ∧ s / 9 = 0) ∨ (k + 2 = nz ∧ s / 9 = 2) ∨ (j = 1 ∧ s / 3 % 3 = 0) ∨
      (j + 2 = ny ∧ s / 3 % 3 = 2) ∨ (i = 1 ∧ s % 3 = 0) ∨ (i + 2 = nx ∧ s % 3 = 2)) ↔
    Bdry3 nx ny nz I J K := by
  have ha : s % 3 < 3 := Nat.mod_lt _ (by omega)
  have hb : s / 3 % 3 < 3 := Nat.mod_lt _ (by omega)
  have hc : s / 9 < 3 := by omega
  unfold Bdry3
  generalize s % 3 = a at *
  generalize s / 3 % 3 = b at *
  generalize s / 9 = c at *
  constructor
  · rintro (h | h | h | h | h | h) <;> omega
  · rintro (h | h | h | h | h | h)
    · exact Or.inr (Or.inr (Or.inr (Or.inr (Or.inl (by omega)))))
    · exact Or.inr (Or.inr (Or.inr (Or.inr (Or.inr (by omega)))))
    · exact Or.inr (Or.inr (Or.inl (by omega)))
    · exact Or.inr (Or.inr (Or.inr (Or.inl (by omega))))
    · exact Or.inl (by omega)
    · exact Or.inr (Or.inl (by omega))

theorem setBc3_bdry {m : Ell ℝ} {v : Buf ℝ} {nF nx ny nz i j k d : Nat} {x : Nat → ℝ}
    (hm : Pattern3 m nF nx ny nz)
    (hv : ∀ i j k d s d2, i < nx → j < ny → k < nz → d < nF → s < 27 → d2 < nF →
        (bc3 nx ny nz i j k s → v.val (slotIx nF 27 (node3 nx ny i j k) d s d2)
          = if s = 13 ∧ d = d2 then 1 else 0))
    (hi : i < nx) (hj : j < ny) (hk : k < nz) (hd : d < nF) (hb : Bdry3 nx ny nz i j k) :
    op { m with vals := v } x (node3 nx ny i j k * nF + d) = x (node3 nx ny i j k * nF + d) := by
  refine op_idRow (W := 27) (slot := 13) hm.nnz hd (by omega) ?_ ?_
  · intro s d2 hs h2
    exact hv i j k d s d2 hi hj hk hd hs h2 (Or.inl hb)
  · simp only
    rw [hm.col hi hj hk hd (by omega) hd,
      nbr3_some (I := i) (J := j) (K := k) (by omega) (by omega) (by omega) hi hj hk]
    rfl

theorem setBc3_int {m : Ell ℝ} {v : Buf ℝ} {nF nx ny nz i j k d : Nat} {x : Nat → ℝ}
    (hm : Pattern3 m nF nx ny nz)
    (hv : ∀ i j k d s d2, i < nx → j < ny → k < nz → d < nF → s < 27 → d2 < nF →
        (bc3 nx ny nz i j k s → v.val (slotIx nF 27 (node3 nx ny i j k) d s d2)
          = if s = 13 ∧ d = d2 then 1 else 0) ∧
        (¬ bc3 nx ny nz i j k s → v.val (slotIx nF 27 (node3 nx ny i j k) d s d2)
          = m.vals.val (slotIx nF 27 (node3 nx ny i j k) d s d2)))
    (hi : i < nx) (hj : j < ny) (hk : k < nz) (hd : d < nF) (hb : ¬ Bdry3 nx ny nz i j k) :
    op { m with vals := v } x (node3 nx ny i j k * nF + d)
      = op m (mask (BdryDof3 nF nx ny nz) x) (node3 nx ny i j k * nF + d) := by
  refine op_congr_row (W := 27) hm.nnz hm.nnz ?_
  intro s d2 hs h2
  simp only
  have hB : ¬ (i = 0 ∨ i + 1 = nx ∨ j = 0 ∨ j + 1 = ny ∨ k = 0 ∨ k + 1 = nz) := hb
  obtain ⟨I, hI⟩ : ∃ I, i + s % 3 = I + 1 := ⟨i + s % 3 - 1, by omega⟩
  obtain ⟨J, hJ⟩ : ∃ J, j + s / 3 % 3 = J + 1 := ⟨j + s / 3 % 3 - 1, by omega⟩
  obtain ⟨K, hK⟩ : ∃ K, k + s / 9 = K + 1 := ⟨k + s / 9 - 1, by omega⟩
  rw [hm.col hi hj hk hd hs h2, nbr3_some hI hJ hK (by omega) (by omega) (by omega)]
  simp only [slotCol, Int.toNat_natCast]
  have hbc : bc3 nx ny nz i j k s ↔ Bdry3 nx ny nz I J K := by
    unfold bc3
    rw [or_iff_right hb]
    exact bc3_arith hi hj hk hB hI hJ hK hs
  unfold mask
  by_cases hc : bc3 nx ny nz i j k s
  · rw [if_pos ((bdryDof3_iff (by omega) (by omega) h2).mpr (hbc.mp hc)), mul_zero,
      (hv i j k d s d2 hi hj hk hd hs h2).1 hc, if_neg, zero_mul]
    rintro ⟨rfl, rfl⟩
    have := hbc.mp hc
    unfold Bdry3 at this
    omega
  · rw [if_neg (fun h => hc (hbc.mpr ((bdryDof3_iff (by omega) (by omega) h2).mp h))),
      (hv i j k d s d2 hi hj hk hd hs h2).2 hc]

/-! ## 2D -/

theorem bc2_arith {nx ny i j s I J : Nat} (hi : i + 2 < nx) (hj : j + 2 < ny)
    (hB : ¬ (i = 0 ∨ i + 1 = nx ∨ j = 0 ∨ j + 1 = ny))
    (hI : i + s % 3 = I + 1) (hJ : j + s / 3 = J + 1) (hs : s < 9) :
    ((j = 1 ∧ 2 ≤ i ∧ i + 2 < nx ∧ s ∈ [0, 1, 2]) ∨
      (j + 2 = ny ∧ 2 ≤ i ∧ i + 2 < nx ∧ s = 6) ∨
      (i = 1 ∧ 2 ≤ j ∧ j + 2 < ny ∧ s ∈ [0, 3, 6]) ∨
      (i = 1 ∧ j = 1 ∧ s ∈ [0, 1, 2, 3, 6]) ∨
      (i + 2 = nx ∧ j = 1 ∧ s ∈ [0, 1, 2, 5, 8]) ∨
      (i = 1 ∧ j + 2 = ny ∧ s ∈ [0, 3, 6, 7, 8])) ↔ Bdry2 nx ny I J := by
  simp only [List.mem_cons, List.not_mem_nil, or_false]
  unfold Bdry2
  constructor
  · rintro (⟨h1, -, -, h⟩ | h | ⟨h1, -, -, h⟩ | ⟨h1, h2, h⟩ | h | h)
    · omega
    · omega
    · omega
    · rcases h with h | h | h | h | h <;> omega
    · omega
    · omega
  · intro h
    by_cases h1 : i = 1
    · by_cases h2 : j = 1
      · exact Or.inr (Or.inr (Or.inr (Or.inl ⟨h1, h2, by omega⟩)))
      · exact Or.inr (Or.inr (Or.inl ⟨h1, by omega, hj, by omega⟩))
    · exact Or.inl ⟨by omega, by omega, hi, by omega⟩

theorem setBc2_bdry {m : Ell ℝ} {v : Buf ℝ} {nF nx ny i j d : Nat} {x : Nat → ℝ}
    (hm : Pattern2Weak m nF nx ny)
    (hv : ∀ i j d s d2, i < nx → j < ny → d < nF → s < 9 → d2 < nF →
        (bc2 nx ny i j s → v.val (slotIx nF 9 (node2 nx i j) d s d2)
          = if s = 4 ∧ d = d2 then 1 else 0))
    (hi : i < nx) (hj : j < ny) (hd : d < nF) (hb : Bdry2 nx ny i j) :
    op { m with vals := v } x (node2 nx i j * nF + d) = x (node2 nx i j * nF + d) := by
  refine op_idRow (W := 9) (slot := 4) hm.nnz hd (by omega) ?_ ?_
  · intro s d2 hs h2
    exact hv i j d s d2 hi hj hd hs h2 (Or.inl hb)
  · simp only
    rw [hm.col hi hj hd (by omega) hd (by omega),
      nbr2_some (I := i) (J := j) (by omega) (by omega) hi hj]
    rfl

/-- Interior rows agree with the original matrix on vectors that vanish on the boundary. -/
theorem setBc2_int {m : Ell ℝ} {v : Buf ℝ} {nF nx ny i j d : Nat} {x : Nat → ℝ}
    (hm : Pattern2Weak m nF nx ny)
    (hv : ∀ i j d s d2, i < nx → j < ny → d < nF → s < 9 → d2 < nF →
        (bc2 nx ny i j s → v.val (slotIx nF 9 (node2 nx i j) d s d2)
          = if s = 4 ∧ d = d2 then 1 else 0) ∧
        (¬ bc2 nx ny i j s → v.val (slotIx nF 9 (node2 nx i j) d s d2)
          = m.vals.val (slotIx nF 9 (node2 nx i j) d s d2)))
    (hi : i < nx) (hj : j < ny) (hd : d < nF) (hb : ¬ Bdry2 nx ny i j)
    (hx : ∀ r, BdryDof2 nF nx ny r → x r = 0) :
    op { m with vals := v } x (node2 nx i j * nF + d) = op m x (node2 nx i j * nF + d) := by
  refine op_congr_row (W := 9) hm.nnz hm.nnz ?_
  intro s d2 hs h2
  simp only
  have hB : ¬ (i = 0 ∨ i + 1 = nx ∨ j = 0 ∨ j + 1 = ny) := hb
  obtain ⟨I, hI⟩ : ∃ I, i + s % 3 = I + 1 := ⟨i + s % 3 - 1, by omega⟩
  obtain ⟨J, hJ⟩ : ∃ J, j + s / 3 = J + 1 := ⟨j + s / 3 - 1, by omega⟩
  rw [hm.col hi hj hd hs h2 (by omega), nbr2_some hI hJ (by omega) (by omega)]
  simp only [slotCol, Int.toNat_natCast]
  by_cases hc : bc2 nx ny i j s
  · have hIJ : Bdry2 nx ny I J := by
      unfold bc2 at hc
      rw [or_iff_right hb] at hc
      unfold Bdry2
      simp only [List.mem_cons, List.not_mem_nil, or_false] at hc
      omega
    rw [hx _ ((bdryDof2_iff (by omega) h2).mpr hIJ), mul_zero, mul_zero]
  · rw [(hv i j d s d2 hi hj hd hs h2).2 hc]

/-- Rows of nodes away from the upper and right sides are fully decoupled from the boundary. -/
theorem setBc2_int_full {m : Ell ℝ} {v : Buf ℝ} {nF nx ny i j d : Nat} {x : Nat → ℝ}
    (hm : Pattern2Weak m nF nx ny)
    (hv : ∀ i j d s d2, i < nx → j < ny → d < nF → s < 9 → d2 < nF →
        (bc2 nx ny i j s → v.val (slotIx nF 9 (node2 nx i j) d s d2)
          = if s = 4 ∧ d = d2 then 1 else 0) ∧
        (¬ bc2 nx ny i j s → v.val (slotIx nF 9 (node2 nx i j) d s d2)
          = m.vals.val (slotIx nF 9 (node2 nx i j) d s d2)))
    (hi : i + 2 < nx) (hj : j + 2 < ny) (hd : d < nF) (hb : ¬ Bdry2 nx ny i j) :
    op { m with vals := v } x (node2 nx i j * nF + d)
      = op m (mask (BdryDof2 nF nx ny) x) (node2 nx i j * nF + d) := by
  refine op_congr_row (W := 9) hm.nnz hm.nnz ?_
  intro s d2 hs h2
  simp only
  have hB : ¬ (i = 0 ∨ i + 1 = nx ∨ j = 0 ∨ j + 1 = ny) := hb
  obtain ⟨I, hI⟩ : ∃ I, i + s % 3 = I + 1 := ⟨i + s % 3 - 1, by omega⟩
  obtain ⟨J, hJ⟩ : ∃ J, j + s / 3 = J + 1 := ⟨j + s / 3 - 1, by omega⟩
  rw [hm.col (by omega) (by omega) hd hs h2 (by omega), nbr2_some hI hJ (by omega) (by omega)]
  simp only [slotCol, Int.toNat_natCast]
  have hbc : bc2 nx ny i j s ↔ Bdry2 nx ny I J := by
    unfold bc2
    rw [or_iff_right hb]
    exact bc2_arith hi hj hB hI hJ hs
  unfold mask
  by_cases hc : bc2 nx ny i j s
  · rw [if_pos ((bdryDof2_iff (by omega) h2).mpr (hbc.mp hc)), mul_zero,
      (hv i j d s d2 (by omega) (by omega) hd hs h2).1 hc, if_neg, zero_mul]
    rintro ⟨rfl, rfl⟩
    have := hbc.mp hc
    unfold Bdry2 at this
    omega
  · rw [if_neg (fun h => hc (hbc.mpr ((bdryDof2_iff (by omega) h2).mp h))),
      (hv i j d s d2 (by omega) (by omega) hd hs h2).2 hc]

end Verif
