import Verif.Lemmas.EllAsm

/-!
# Structured matrices: properties C01 to C10
-/

namespace Verif.Props
open Spec Finset

/-! ## C01 -/

/-- **C01.** Whatever malloc returned (`jc`, `jv`), `ell_init_3D` succeeds and produces the
neighbour pattern; every stored column is a valid column. -/
theorem C01_pattern3D {α : Type} (jc : Nat → Int) (jv : Nat → α) {nF nx ny nz : Nat}
    (hx : 2 ≤ nx) (hy : 2 ≤ ny) (hz : 2 ≤ nz) :
    ∃ m, ellInit3D jc jv nF nx ny nz = .ok m ∧ Pattern3 m nF nx ny nz ∧
      ∀ q, q < m.cols.size → 0 ≤ m.cols.val q ∧ m.cols.val q < m.ncol := by
  obtain ⟨m, h1, h2⟩ := pattern3_init jc jv (nF := nF) hx hy hz
  refine ⟨m, h1, h2, fun q hq => ?_⟩
  have := h2.wf.cols_range q (by rw [← h2.cols_size]; exact hq)
  rw [h2.wf.ncol_eq]; exact this

/-- A concrete instance: 3 × 4 × 5 nodes, 3 fields; node (1,2,3), slot 26 is node (2,3,4). -/
example : ∃ m, ellInit3D (fun _ => -7) (fun _ => (9 : ℝ)) 3 3 4 5 = .ok m ∧
    m.cols.val ((node3 3 4 1 2 3 * 3 + 2) * m.nnz + (26 * 3 + 1)) = (node3 3 4 2 3 4 * 3 + 1 : Nat) := by
  obtain ⟨m, h1, h2, -⟩ := C01_pattern3D (fun _ => -7) (fun _ => (9 : ℝ)) (nF := 3) (nx := 3)
    (ny := 4) (nz := 5) (by omega) (by omega) (by omega)
  refine ⟨m, h1, ?_⟩
  rw [h2.cols 1 2 3 2 26 1 (by omega) (by omega) (by omega) (by omega) (by omega) (by omega)]
  decide

/-! ## C02 -/

/-- **C02, partial.** `ell_init_2D` produces the neighbour pattern except for slot 7 of the
nodes on the right side (corners excepted); every stored column is valid.  Missing: that slot. -/
theorem C02_pattern2D_partial {α : Type} (jc : Nat → Int) (jv : Nat → α) {nF nx ny : Nat}
    (hx : 2 ≤ nx) (hy : 2 ≤ ny) :
    ∃ m, ellInit2D jc jv nF nx ny = .ok m ∧ Pattern2Weak m nF nx ny ∧
      ∀ q, q < m.cols.size → 0 ≤ m.cols.val q ∧ m.cols.val q < m.ncol := by
  obtain ⟨m, h1, h2⟩ := pattern2_init jc jv (nF := nF) hx hy
  refine ⟨m, h1, h2, fun q hq => ?_⟩
  have := h2.wf.cols_range q (by rw [← h2.cols_size]; exact hq)
  rw [h2.wf.ncol_eq]; exact this

/-- **C02 is false** on every grid with at least three rows of nodes: the full pattern never
holds. -/
theorem C02_pattern2D_fails {α : Type} (jc : Nat → Int) (jv : Nat → α) {nF nx ny : Nat}
    (hF : 1 ≤ nF) (hx : 2 ≤ nx) (hy : 3 ≤ ny) :
    ∀ m, ellInit2D jc jv nF nx ny = .ok m → ¬ Pattern2 m nF nx ny := by
  intro m hm hp
  obtain ⟨m', h1, h2⟩ := pattern2_init jc jv (nF := nF) hx (by omega : 2 ≤ ny)
  rw [hm] at h1
  cases h1
  have a := h2.cols_right 1 0 0 (by omega) (by omega) (by omega) (by omega)
  have b := hp.cols (nx - 1) 1 0 7 0 (by omega) (by omega) (by omega) (by omega) (by omega)
  rw [a, nbr2_some (I := nx - 1) (J := 2) (by omega) (by omega) (by omega) (by omega)] at b
  simp only [slotCol, Nat.add_zero] at b
  have e := Nat.eq_of_mul_eq_mul_right (by omega) (Int.natCast_inj.mp b)
  rw [node2_inj (by omega) (by omega)] at e
  omega

/-- On grids with two rows of nodes the full pattern holds. -/
theorem C02_pattern2D_two_rows {α : Type} (jc : Nat → Int) (jv : Nat → α) {nF nx : Nat}
    (hx : 2 ≤ nx) : ∃ m, ellInit2D jc jv nF nx 2 = .ok m ∧ Pattern2 m nF nx 2 := by
  obtain ⟨m, h1, h2⟩ := pattern2_init jc jv (nF := nF) hx (le_refl 2)
  exact ⟨m, h1, h2.nrow, h2.ncol, h2.nnz, h2.cols_size, h2.vals_size,
    fun i j d s d2 hi hj hd hs h2' => h2.cols i j d s d2 hi hj hd hs h2' (by omega)⟩

example : ∃ m, ellInit2D (fun _ => -7) (fun _ => (9 : ℝ)) 2 3 4 = .ok m ∧
    m.cols.val ((node2 3 2 1 * 2 + 0) * m.nnz + (1 * 2 + 1)) = (node2 3 2 0 * 2 + 1 : Nat) ∧
    ¬ Pattern2 m 2 3 4 := by
  obtain ⟨m, h1, h2, -⟩ := C02_pattern2D_partial (fun _ => -7) (fun _ => (9 : ℝ)) (nF := 2) (nx := 3)
    (ny := 4) (by omega) (by omega)
  refine ⟨m, h1, ?_, C02_pattern2D_fails _ _ (by omega) (by omega) (by omega) m h1⟩
  rw [h2.cols 2 1 0 1 1 (by omega) (by omega) (by omega) (by omega) (by omega) (by omega)]
  decide

/-! ## C03 -/

/-- **C03, 3D.** On a structured matrix the routines never fault, for every scalar type, and
return a structured matrix (so the statement applies again to the result). -/
theorem C03_safe3D {α : Type} [Scalar α] {m : Ell α} {nF nx ny nz : Nat}
    (hm : Pattern3 m nF nx ny nz) (hx : 2 ≤ nx) (hy : 2 ≤ ny) (hz : 2 ≤ nz) :
    (∃ m', ellSetZeroMat m = .ok m' ∧ Pattern3 m' nF nx ny nz) ∧
    (∀ ex ey ez (Ae : Buf α), ex + 1 < nx → ey + 1 < ny → ez + 1 < nz →
      Ae.size = 8 * nF * (8 * nF) →
      ∃ m', ellAddStruct3D m ex ey ez Ae nF nx ny nz = .ok m' ∧ Pattern3 m' nF nx ny nz) ∧
    (∃ m', ellSetBc3D m nF nx ny nz = .ok m' ∧ Pattern3 m' nF nx ny nz) ∧
    (∀ x y : Buf α, x.size = m.nrow → y.size = m.nrow →
      ∃ y', ellMvp2D m x y = .ok y' ∧ y'.size = m.nrow) := by
  have hs : m.vals.size = 27 * nF * (nx * ny * nz * nF) := by rw [hm.vals_size, hm.nnz, hm.nrow]
  have keep : ∀ v : Buf α, v.size = 27 * nF * (nx * ny * nz * nF) →
      Pattern3 { m with vals := v } nF nx ny nz := fun v hv =>
    ⟨hm.nrow, hm.ncol, hm.nnz, hm.cols_size, by simp only; rw [hv, hm.nnz, hm.nrow], hm.cols⟩
  refine ⟨?_, ?_, ?_, ?_⟩
  · obtain ⟨v, h1, h2, -⟩ := ellSetZeroMat_eq hm.vals_size
    exact ⟨_, h1, keep v (by rw [h2, hm.nnz, hm.nrow])⟩
  · intro ex ey ez Ae hex hey hez hAe
    obtain ⟨v, h1, h2⟩ := ellAddStruct3D_safe hm.nnz hs hex hey hez hAe
    exact ⟨_, h1, keep v h2⟩
  · obtain ⟨v, h1, h2, -⟩ := ellSetBc3D_eq hx hy hz hm.nnz hs
    exact ⟨_, h1, keep v h2⟩
  · intro x y hxs hys
    exact ⟨_, ellMvp2D_eq hm.wf hxs hys, rfl⟩

/-- **C03, 2D.** Same statement for the 2D routines. -/
theorem C03_safe2D {α : Type} [Scalar α] {m : Ell α} {nF nx ny : Nat}
    (hm : Pattern2Weak m nF nx ny) (hx : 2 ≤ nx) (hy : 2 ≤ ny) :
    (∃ m', ellSetZeroMat m = .ok m' ∧ Pattern2Weak m' nF nx ny) ∧
    (∀ ex ey (Ae : Buf α), ex + 1 < nx → ey + 1 < ny → Ae.size = 4 * nF * (4 * nF) →
      ∃ m', ellAddStruct2D m ex ey Ae nF nx ny = .ok m' ∧ Pattern2Weak m' nF nx ny) ∧
    (∃ m', ellSetBc2D m nF nx ny = .ok m' ∧ Pattern2Weak m' nF nx ny) ∧
    (∀ x y : Buf α, x.size = m.nrow → y.size = m.nrow →
      ∃ y', ellMvp2D m x y = .ok y' ∧ y'.size = m.nrow) := by
  have hs : m.vals.size = 9 * nF * (nx * ny * nF) := by rw [hm.vals_size, hm.nnz, hm.nrow]
  have keep : ∀ v : Buf α, v.size = 9 * nF * (nx * ny * nF) →
      Pattern2Weak { m with vals := v } nF nx ny := fun v hv =>
    ⟨hm.nrow, hm.ncol, hm.nnz, hm.cols_size, by simp only; rw [hv, hm.nnz, hm.nrow], hm.cols,
      hm.cols_right⟩
  refine ⟨?_, ?_, ?_, ?_⟩
  · obtain ⟨v, h1, h2, -⟩ := ellSetZeroMat_eq hm.vals_size
    exact ⟨_, h1, keep v (by rw [h2, hm.nnz, hm.nrow])⟩
  · intro ex ey Ae hex hey hAe
    obtain ⟨v, h1, h2⟩ := ellAddStruct2D_safe hm.nnz hs hex hey hAe
    exact ⟨_, h1, keep v h2⟩
  · obtain ⟨v, h1, h2, -⟩ := ellSetBc2D_eq hx hy hm.nnz hs
    exact ⟨_, h1, keep v h2⟩
  · intro x y hxs hys
    exact ⟨_, ellMvp2D_eq hm.wf hxs hys, rfl⟩

/-- The hypotheses are met by the matrices the library creates. -/
example : ∃ m : Ell Float, Pattern3 m 3 3 4 5 ∧ ∃ m', ellSetBc3D m 3 3 4 5 = .ok m' := by
  obtain ⟨m, -, h, -⟩ := C01_pattern3D (fun _ => 0) (fun _ => (0 : Float)) (nF := 3) (nx := 3)
    (ny := 4) (nz := 5) (by omega) (by omega) (by omega)
  obtain ⟨m', h', -⟩ := (C03_safe3D h (by omega) (by omega) (by omega)).2.2.1
  exact ⟨m, h, m', h'⟩

example : ∃ m : Ell Float, Pattern2Weak m 2 3 4 ∧ ∃ m', ellSetBc2D m 2 3 4 = .ok m' := by
  obtain ⟨m, -, h, -⟩ := C02_pattern2D_partial (fun _ => 0) (fun _ => (0 : Float)) (nF := 2) (nx := 3)
    (ny := 4) (by omega) (by omega)
  obtain ⟨m', h', -⟩ := (C03_safe2D h (by omega) (by omega)).2.2.1
  exact ⟨m, h, m', h'⟩

/-! ## C10 -/

/-- **C10.** `ell_mvp_2D` computes the rows of the stored operator. -/
theorem C10_mvp {m : Ell ℝ} (hm : m.WF) {x y : Buf ℝ} (hx : x.size = m.nrow)
    (hy : y.size = m.nrow) :
    ∃ y', ellMvp2D m x y = .ok y' ∧ y'.size = m.nrow ∧
      ∀ i, i < m.nrow → y'.val i = op m x.val i := by
  refine ⟨_, ellMvp2D_eq hm hx hy, rfl, fun i hi => ?_⟩
  simp only [hi, if_true]
  rw [rowAcc_real]; rfl

/-- **C10, linearity.** -/
theorem C10_linear (m : Ell ℝ) (a b : ℝ) (x x' : Nat → ℝ) (r : Nat) :
    op m (fun i => a * x i + b * x' i) r = a * op m x r + b * op m x' r := by
  unfold op
  rw [mul_sum, mul_sum, ← sum_add_distrib]
  exact sum_congr rfl fun t _ => by ring

/-- A 1 × 1 matrix with a negative entry. -/
example : ∃ y', ellMvp2D (⟨1, 1, 1, ⟨1, fun _ => 0⟩, ⟨1, fun _ => -2⟩⟩ : Ell ℝ) ⟨1, fun _ => 3⟩
    ⟨1, fun _ => 77⟩ = .ok y' ∧ y'.val 0 = -6 := by
  obtain ⟨y', h1, -, h3⟩ := C10_mvp (m := ⟨1, 1, 1, ⟨1, fun _ => 0⟩, ⟨1, fun _ => -2⟩⟩)
    ⟨rfl, rfl, rfl, fun q _ => by simp⟩ (x := ⟨1, fun _ => 3⟩) (y := ⟨1, fun _ => 77⟩) rfl rfl
  refine ⟨y', h1, ?_⟩
  rw [h3 0 (by simp)]
  norm_num [op]

/-! ## C04 -/

/-- **C04.** After `ell_set_zero_mat` every product is zero; the pattern is unchanged. -/
theorem C04_set_zero {m : Ell ℝ} (hm : m.WF) :
    ∃ m', ellSetZeroMat m = .ok m' ∧ m'.WF ∧ m'.nrow = m.nrow ∧ m'.nnz = m.nnz ∧ m'.cols = m.cols ∧
      ∀ x y : Buf ℝ, x.size = m.nrow → y.size = m.nrow →
        ∃ y', ellMvp2D m' x y = .ok y' ∧ ∀ i, i < m.nrow → y'.val i = 0 := by
  obtain ⟨v, h1, h2, h3⟩ := ellSetZeroMat_eq hm.vals_size
  have hw : Ell.WF { m with vals := v } := ⟨hm.ncol_eq, hm.cols_size, h2, hm.cols_range⟩
  refine ⟨_, h1, hw, rfl, rfl, rfl, fun x y hx hy => ?_⟩
  obtain ⟨y', e1, -, e3⟩ := C10_mvp hw (x := x) (y := y) hx hy
  refine ⟨y', e1, fun i hi => ?_⟩
  rw [e3 i hi]
  unfold op
  refine sum_eq_zero fun t ht => ?_
  simp only
  rw [h3 _ (row_lt hi (mem_range.mp ht)), zero_mul]

example : ∃ m : Ell ℝ, m.WF ∧ m.nrow = 180 := by
  obtain ⟨m, -, h, -⟩ := C01_pattern3D (fun _ => 0) (fun _ => (0 : ℝ)) (nF := 3) (nx := 3)
    (ny := 4) (nz := 5) (by omega) (by omega) (by omega)
  exact ⟨m, h.wf, h.nrow⟩

/-! ## C05, C06 -/

/-- **C05.** `ell_add_struct3D` changes the operator by the scatter of the element matrix. -/
theorem C05_add3D {m : Ell ℝ} {nF nx ny nz ex ey ez : Nat} (hm : Pattern3 m nF nx ny nz)
    (hx : ex + 1 < nx) (hy : ey + 1 < ny) (hz : ez + 1 < nz) {Ae : Buf ℝ}
    (hAe : Ae.size = 8 * nF * (8 * nF)) :
    ∃ m', ellAddStruct3D m ex ey ez Ae nF nx ny nz = .ok m' ∧ Pattern3 m' nF nx ny nz ∧
      ∀ (x : Nat → ℝ) (N d : Nat), d < nF →
        op m' x (N * nF + d) = op m x (N * nF + d)
          + scatter nF 8 (enode3 nx ny ex ey ez) Ae.val x N d := by
  have hs : m.vals.size = 27 * nF * (nx * ny * nz * nF) := by rw [hm.vals_size, hm.nnz, hm.nrow]
  refine ⟨_, ellAddStruct3D_eq hm.nnz hs hx hy hz hAe,
    ⟨hm.nrow, hm.ncol, hm.nnz, hm.cols_size, by simp only; rw [hm.nnz, hm.nrow], hm.cols⟩, ?_⟩
  intro x N d hd
  rw [← addW3_mvp hm hx hy hz Ae.val x N d hd]
  unfold op
  simp only [hm.nnz, add_mul, sum_add_distrib]

/-- **C06, partial.** `ell_add_struct2D` changes the operator by the scatter of the element
matrix in all rows of nodes not on the right side.  Missing: rows of right-side nodes (there the
pattern itself is wrong, C02). -/
theorem C06_add2D_partial {m : Ell ℝ} {nF nx ny ex ey : Nat} (hm : Pattern2Weak m nF nx ny)
    (hx : ex + 1 < nx) (hy : ey + 1 < ny) {Ae : Buf ℝ} (hAe : Ae.size = 4 * nF * (4 * nF)) :
    ∃ m', ellAddStruct2D m ex ey Ae nF nx ny = .ok m' ∧ Pattern2Weak m' nF nx ny ∧
      ∀ (x : Nat → ℝ) (i j d : Nat), i + 1 < nx → d < nF →
        op m' x (node2 nx i j * nF + d) = op m x (node2 nx i j * nF + d)
          + scatter nF 4 (enode2 nx ex ey) Ae.val x (node2 nx i j) d := by
  have hs : m.vals.size = 9 * nF * (nx * ny * nF) := by rw [hm.vals_size, hm.nnz, hm.nrow]
  refine ⟨_, ellAddStruct2D_eq hm.nnz hs hx hy hAe,
    ⟨hm.nrow, hm.ncol, hm.nnz, hm.cols_size, by simp only; rw [hm.nnz, hm.nrow], hm.cols,
      hm.cols_right⟩, ?_⟩
  intro x i j d hi hd
  rw [← addW2_mvp hm hx hy Ae.val x i j d hi hd]
  unfold op
  simp only [hm.nnz, add_mul, sum_add_distrib]

/-- **C06 is false** for rows of right-side nodes: on a grid of 2 × 3 nodes, element `(0,1)`
couples node `(1,1)` to node `(1,2)`, but whatever is assembled the row of node `(1,1)` never
sees node `(1,2)`. -/
theorem C06_add2D_fails : ∃ (Ae : Buf ℝ) (x : Nat → ℝ), Ae.size = 4 * 1 * (4 * 1) ∧
    ∀ (jc : Nat → Int) (jv : Nat → ℝ) (m m' : Ell ℝ), ellInit2D jc jv 1 2 3 = .ok m →
      ellAddStruct2D m 0 1 Ae 1 2 3 = .ok m' →
      op m' x (node2 2 1 1 * 1 + 0) ≠ op m x (node2 2 1 1 * 1 + 0)
        + scatter 1 4 (enode2 2 0 1) Ae.val x (node2 2 1 1) 0 := by
  refine ⟨⟨16, fun q => if q = 6 then 1 else 0⟩, fun r => if r = 5 then 1 else 0, rfl, ?_⟩
  intro jc jv m m' hm hm'
  obtain ⟨m0, h1, h2⟩ := pattern2_init jc jv (nF := 1) (nx := 2) (ny := 3) (by omega) (by omega)
  rw [hm] at h1
  cases h1
  have zero : ∀ m1 : Ell ℝ, Pattern2Weak m1 1 2 3 →
      op m1 (fun r => if r = 5 then 1 else 0) (node2 2 1 1 * 1 + 0) = 0 := by
    intro m1 hp
    unfold op
    refine sum_eq_zero fun t ht => ?_
    rw [hp.nnz] at ht ⊢
    obtain ⟨s, d2, hs, hd2, rfl⟩ := row_slot (mem_range.mp ht)
    rw [slotIx_eq_row]
    have hd2 : d2 = 0 := by omega
    subst hd2
    by_cases h7 : s = 7
    · subst h7
      have := hp.cols_right 1 0 0 (by omega) (by omega) (by omega) (by omega)
      rw [hp.nnz, slotIx_eq_row] at this
      rw [this]; simp [node2]
    · rw [hp.col (by omega) (by omega) (by omega) hs (by omega) (by omega)]
      have : (slotCol 1 (nbr2 2 3 1 1 s) 0).toNat ≠ 5 := by
        interval_cases s <;> first | omega | decide
      simp only [this, if_false, mul_zero]
  obtain ⟨m1, e1, e2, -⟩ := C06_add2D_partial h2 (ex := 0) (ey := 1) (by omega) (by omega)
    (Ae := ⟨16, fun q => if q = 6 then 1 else 0⟩) rfl
  rw [hm'] at e1
  cases e1
  rw [zero m h2, zero m' e2]
  simp [scatter, sum_range_succ, enode2, node2, cornerX, cornerY]

example : ∃ m : Ell ℝ, Pattern3 m 3 3 4 5 ∧ ∃ m', ellAddStruct3D m 1 2 3
    ⟨8 * 3 * (8 * 3), fun q => q⟩ 3 3 4 5 = .ok m' := by
  obtain ⟨m, -, h, -⟩ := C01_pattern3D (fun _ => 0) (fun _ => (0 : ℝ)) (nF := 3) (nx := 3)
    (ny := 4) (nz := 5) (by omega) (by omega) (by omega)
  obtain ⟨m', h', -⟩ := C05_add3D h (ex := 1) (ey := 2) (ez := 3) (by omega) (by omega) (by omega)
    (Ae := ⟨8 * 3 * (8 * 3), fun q => q⟩) rfl
  exact ⟨m, h, m', h'⟩

example : ∃ m : Ell ℝ, Pattern2Weak m 2 3 4 ∧ ∃ m', ellAddStruct2D m 1 2
    ⟨4 * 2 * (4 * 2), fun q => q⟩ 2 3 4 = .ok m' := by
  obtain ⟨m, -, h, -⟩ := C02_pattern2D_partial (fun _ => 0) (fun _ => (0 : ℝ)) (nF := 2) (nx := 3)
    (ny := 4) (by omega) (by omega)
  obtain ⟨m', h', -⟩ := C06_add2D_partial h (ex := 1) (ey := 2) (by omega) (by omega)
    (Ae := ⟨4 * 2 * (4 * 2), fun q => q⟩) rfl
  exact ⟨m, h, m', h'⟩

/-! ## C07 -/

/-- **C07, 3D.** Assembling a list of element matrices in another order gives the same matrix. -/
theorem C07_order3D {m : Ell ℝ} {nF nx ny nz : Nat} (hm : Pattern3 m nF nx ny nz)
    {l l' : List ((Nat × Nat × Nat) × Buf ℝ)} (hp : l.Perm l')
    (hl : ∀ e ∈ l, e.1.1 + 1 < nx ∧ e.1.2.1 + 1 < ny ∧ e.1.2.2 + 1 < nz ∧
      e.2.size = 8 * nF * (8 * nF)) :
    ∃ m', loopList l (fun e m => ellAddStruct3D m e.1.1 e.1.2.1 e.1.2.2 e.2 nF nx ny nz) m = .ok m' ∧
      loopList l' (fun e m => ellAddStruct3D m e.1.1 e.1.2.1 e.1.2.2 e.2 nF nx ny nz) m
        = .ok m' := by
  have hs : m.vals.size = 27 * nF * (nx * ny * nz * nF) := by rw [hm.vals_size, hm.nnz, hm.nrow]
  have key : ∀ l : List ((Nat × Nat × Nat) × Buf ℝ), (∀ e ∈ l, e.1.1 + 1 < nx ∧ e.1.2.1 + 1 < ny ∧
      e.1.2.2 + 1 < nz ∧ e.2.size = 8 * nF * (8 * nF)) →
      loopList l (fun e m => ellAddStruct3D m e.1.1 e.1.2.1 e.1.2.2 e.2 nF nx ny nz) m
        = .ok { m with vals := ⟨27 * nF * (nx * ny * nz * nF), fun q => m.vals.val q +
          (l.map (fun e => addW3 nF nx ny e.1.1 e.1.2.1 e.1.2.2 e.2.val q)).sum⟩ } := by
    intro l hl
    have hf : ∀ e ∈ l, ∀ m : Ell ℝ, m.nnz = 27 * nF →
        m.vals.size = 27 * nF * (nx * ny * nz * nF) →
        ellAddStruct3D m e.1.1 e.1.2.1 e.1.2.2 e.2 nF nx ny nz = .ok { m with
          vals := ⟨27 * nF * (nx * ny * nz * nF), fun q => m.vals.val q
            + addW3 nF nx ny e.1.1 e.1.2.1 e.1.2.2 e.2.val q⟩ } := by
      intro e he m' hn hs'
      have := hl e he
      exact ellAddStruct3D_eq hn hs' this.1 this.2.1 this.2.2.1 this.2.2.2
    exact asm_list (w := fun e : (Nat × Nat × Nat) × Buf ℝ =>
        addW3 nF nx ny e.1.1 e.1.2.1 e.1.2.2 e.2.val)
      (f := fun (e : (Nat × Nat × Nat) × Buf ℝ) m =>
        ellAddStruct3D m e.1.1 e.1.2.1 e.1.2.2 e.2 nF nx ny nz) l hf m hm.nnz hs
  refine ⟨_, key l hl, ?_⟩
  rw [key l' (fun e he => hl e (hp.mem_iff.mpr he))]
  have : ∀ q, (l'.map (fun e : (Nat × Nat × Nat) × Buf ℝ =>
      addW3 nF nx ny e.1.1 e.1.2.1 e.1.2.2 e.2.val q)).sum
      = (l.map (fun e => addW3 nF nx ny e.1.1 e.1.2.1 e.1.2.2 e.2.val q)).sum :=
    fun q => ((hp.map _).sum_eq).symm
  simp only [this]

/-- **C07, 2D.** -/
theorem C07_order2D {m : Ell ℝ} {nF nx ny : Nat} (hm : Pattern2Weak m nF nx ny)
    {l l' : List ((Nat × Nat) × Buf ℝ)} (hp : l.Perm l')
    (hl : ∀ e ∈ l, e.1.1 + 1 < nx ∧ e.1.2 + 1 < ny ∧ e.2.size = 4 * nF * (4 * nF)) :
    ∃ m', loopList l (fun e m => ellAddStruct2D m e.1.1 e.1.2 e.2 nF nx ny) m = .ok m' ∧
      loopList l' (fun e m => ellAddStruct2D m e.1.1 e.1.2 e.2 nF nx ny) m = .ok m' := by
  have hs : m.vals.size = 9 * nF * (nx * ny * nF) := by rw [hm.vals_size, hm.nnz, hm.nrow]
  have key : ∀ l : List ((Nat × Nat) × Buf ℝ), (∀ e ∈ l, e.1.1 + 1 < nx ∧ e.1.2 + 1 < ny ∧
      e.2.size = 4 * nF * (4 * nF)) →
      loopList l (fun e m => ellAddStruct2D m e.1.1 e.1.2 e.2 nF nx ny) m
        = .ok { m with vals := ⟨9 * nF * (nx * ny * nF), fun q => m.vals.val q +
          (l.map (fun e => addW2 nF nx e.1.1 e.1.2 e.2.val q)).sum⟩ } := by
    intro l hl
    have hf : ∀ e ∈ l, ∀ m : Ell ℝ, m.nnz = 9 * nF → m.vals.size = 9 * nF * (nx * ny * nF) →
        ellAddStruct2D m e.1.1 e.1.2 e.2 nF nx ny = .ok { m with
          vals := ⟨9 * nF * (nx * ny * nF), fun q => m.vals.val q
            + addW2 nF nx e.1.1 e.1.2 e.2.val q⟩ } := by
      intro e he m' hn hs'
      have := hl e he
      exact ellAddStruct2D_eq hn hs' this.1 this.2.1 this.2.2
    exact asm_list (w := fun e : (Nat × Nat) × Buf ℝ => addW2 nF nx e.1.1 e.1.2 e.2.val)
      (f := fun (e : (Nat × Nat) × Buf ℝ) m => ellAddStruct2D m e.1.1 e.1.2 e.2 nF nx ny)
      l hf m hm.nnz hs
  refine ⟨_, key l hl, ?_⟩
  rw [key l' (fun e he => hl e (hp.mem_iff.mpr he))]
  have : ∀ q, (l'.map (fun e : (Nat × Nat) × Buf ℝ => addW2 nF nx e.1.1 e.1.2 e.2.val q)).sum
      = (l.map (fun e => addW2 nF nx e.1.1 e.1.2 e.2.val q)).sum :=
    fun q => ((hp.map _).sum_eq).symm
  simp only [this]

/-- Two different elements in either order. -/
example : ∃ (m m' : Ell ℝ) (A B : Buf ℝ), A.val 0 ≠ B.val 0 ∧
    loopList [((0, 0, 0), A), ((1, 2, 3), B)]
      (fun e m => ellAddStruct3D m e.1.1 e.1.2.1 e.1.2.2 e.2 3 3 4 5) m = .ok m' ∧
    loopList [((1, 2, 3), B), ((0, 0, 0), A)]
      (fun e m => ellAddStruct3D m e.1.1 e.1.2.1 e.1.2.2 e.2 3 3 4 5) m = .ok m' := by
  obtain ⟨m, -, h, -⟩ := C01_pattern3D (fun _ => 0) (fun _ => (0 : ℝ)) (nF := 3) (nx := 3)
    (ny := 4) (nz := 5) (by omega) (by omega) (by omega)
  obtain ⟨m', h1, h2⟩ := C07_order3D h
    (l := [((0, 0, 0), ⟨8 * 3 * (8 * 3), fun _ => 1⟩), ((1, 2, 3), ⟨8 * 3 * (8 * 3), fun _ => 2⟩)])
    (l' := [((1, 2, 3), ⟨8 * 3 * (8 * 3), fun _ => 2⟩), ((0, 0, 0), ⟨8 * 3 * (8 * 3), fun _ => 1⟩)])
    (List.Perm.swap _ _ _) (by simp)
  exact ⟨m, m', ⟨8 * 3 * (8 * 3), fun _ => 1⟩, ⟨8 * 3 * (8 * 3), fun _ => 2⟩, by norm_num, h1, h2⟩

/-! ## C08, C09 -/

/-- **C08.** After `ell_set_bc_3D`: identity rows on the boundary; interior rows are those of the
original matrix with the boundary components removed. -/
theorem C08_bc3D {m : Ell ℝ} {nF nx ny nz : Nat} (hm : Pattern3 m nF nx ny nz)
    (hx : 2 ≤ nx) (hy : 2 ≤ ny) (hz : 2 ≤ nz) :
    ∃ m', ellSetBc3D m nF nx ny nz = .ok m' ∧ Pattern3 m' nF nx ny nz ∧
      ∀ (x : Nat → ℝ) (i j k d : Nat), i < nx → j < ny → k < nz → d < nF →
        op m' x (node3 nx ny i j k * nF + d) =
          if Bdry3 nx ny nz i j k then x (node3 nx ny i j k * nF + d)
          else op m (mask (BdryDof3 nF nx ny nz) x) (node3 nx ny i j k * nF + d) := by
  have hs : m.vals.size = 27 * nF * (nx * ny * nz * nF) := by rw [hm.vals_size, hm.nnz, hm.nrow]
  obtain ⟨v, h1, h2, h3⟩ := ellSetBc3D_eq hx hy hz hm.nnz hs
  refine ⟨_, h1, ⟨hm.nrow, hm.ncol, hm.nnz, hm.cols_size, by simp only; rw [h2, hm.nnz, hm.nrow],
    hm.cols⟩, ?_⟩
  intro x i j k d hi hj hk hd
  split
  · rename_i hb
    exact setBc3_bdry hm (fun i j k d s d2 a b c e f g => (h3 i j k d s d2 a b c e f g).1)
      hi hj hk hd hb
  · rename_i hb
    exact setBc3_int hm h3 hi hj hk hd hb

/-- The matrix the library creates, `3 × 4 × 5` nodes: boundary node `(0, 1, 2)`, interior node `(1, 1, 2)`. -/
example (x : Nat → ℝ) : ∃ m m' : Ell ℝ, ellSetBc3D m 3 3 4 5 = .ok m' ∧
    op m' x (node3 3 4 0 1 2 * 3 + 1) = x (node3 3 4 0 1 2 * 3 + 1) ∧
    op m' x (node3 3 4 1 1 2 * 3 + 1) = op m (mask (BdryDof3 3 3 4 5) x) (node3 3 4 1 1 2 * 3 + 1) := by
  obtain ⟨m, -, h, -⟩ := C01_pattern3D (fun _ => 0) (fun _ => (0 : ℝ)) (nF := 3) (nx := 3)
    (ny := 4) (nz := 5) (by omega) (by omega) (by omega)
  obtain ⟨m', h1, -, h2⟩ := C08_bc3D h (by omega) (by omega) (by omega)
  refine ⟨m, m', h1, ?_, ?_⟩
  · rw [h2 x 0 1 2 1 (by omega) (by omega) (by omega) (by omega), if_pos (by decide)]
  · rw [h2 x 1 1 2 1 (by omega) (by omega) (by omega) (by omega), if_neg (by decide)]

/-- **C09, partial.** After `ell_set_bc_2D`: identity rows on the boundary; interior rows agree
with the original matrix on vectors vanishing on the boundary; rows of nodes not adjacent to the
upper or right side ignore the boundary components.  Missing: the last claim for nodes adjacent
to the upper or right side. -/
theorem C09_bc2D_partial {m : Ell ℝ} {nF nx ny : Nat} (hm : Pattern2Weak m nF nx ny)
    (hx : 2 ≤ nx) (hy : 2 ≤ ny) :
    ∃ m', ellSetBc2D m nF nx ny = .ok m' ∧ Pattern2Weak m' nF nx ny ∧
      ∀ (x : Nat → ℝ) (i j d : Nat), i < nx → j < ny → d < nF →
        (Bdry2 nx ny i j → op m' x (node2 nx i j * nF + d) = x (node2 nx i j * nF + d)) ∧
        (¬ Bdry2 nx ny i j →
          ((∀ r, BdryDof2 nF nx ny r → x r = 0) →
            op m' x (node2 nx i j * nF + d) = op m x (node2 nx i j * nF + d)) ∧
          (i + 2 < nx → j + 2 < ny → op m' x (node2 nx i j * nF + d)
            = op m (mask (BdryDof2 nF nx ny) x) (node2 nx i j * nF + d))) := by
  have hs : m.vals.size = 9 * nF * (nx * ny * nF) := by rw [hm.vals_size, hm.nnz, hm.nrow]
  obtain ⟨v, h1, h2, h3⟩ := ellSetBc2D_eq hx hy hm.nnz hs
  refine ⟨_, h1, ⟨hm.nrow, hm.ncol, hm.nnz, hm.cols_size, by simp only; rw [h2, hm.nnz, hm.nrow],
    hm.cols, hm.cols_right⟩, ?_⟩
  intro x i j d hi hj hd
  refine ⟨fun hb => ?_, fun hb => ⟨fun h0 => ?_, fun hi2 hj2 => ?_⟩⟩
  · exact setBc2_bdry hm (fun i j d s d2 a b e f g => (h3 i j d s d2 a b e f g).1) hi hj hd hb
  · exact setBc2_int hm h3 hi hj hd hb h0
  · exact setBc2_int_full hm h3 hi2 hj2 hd hb

/-- The matrix the library creates, `5 × 6` nodes: a boundary node and a node away from the upper and the
right side. -/
example (x : Nat → ℝ) : ∃ m m' : Ell ℝ, ellSetBc2D m 2 5 6 = .ok m' ∧
    op m' x (node2 5 0 1 * 2 + 1) = x (node2 5 0 1 * 2 + 1) ∧
    op m' x (node2 5 1 1 * 2 + 1) = op m (mask (BdryDof2 2 5 6) x) (node2 5 1 1 * 2 + 1) := by
  obtain ⟨m, -, h, -⟩ := C02_pattern2D_partial (fun _ => 0) (fun _ => (0 : ℝ)) (nF := 2) (nx := 5)
    (ny := 6) (by omega) (by omega)
  obtain ⟨m', h1, -, h2⟩ := C09_bc2D_partial h (by omega) (by omega)
  exact ⟨m, m', h1, (h2 x 0 1 1 (by omega) (by omega) (by omega)).1 (by decide),
    ((h2 x 1 1 1 (by omega) (by omega) (by omega)).2 (by decide)).2 (by omega) (by omega)⟩

/-- **C09 is false**: on a grid of 4 × 4 nodes the row of the interior node `(2,2)` still sees
the corner `(3,3)`. -/
theorem C09_bc2D_fails : ∃ (m m' : Ell ℝ) (x : Nat → ℝ), Pattern2Weak m 1 4 4 ∧
    ellSetBc2D m 1 4 4 = .ok m' ∧ ¬ Bdry2 4 4 2 2 ∧
    op m' x (node2 4 2 2 * 1 + 0) ≠ op m (mask (BdryDof2 1 4 4) x) (node2 4 2 2 * 1 + 0) := by
  obtain ⟨m, h1, hm⟩ := pattern2_init (fun _ => 0) (fun _ => (1 : ℝ)) (nF := 1) (nx := 4) (ny := 4)
    (by omega) (by omega)
  have hv : ∀ q, m.vals.val q = 1 := by
    obtain ⟨c, e, -⟩ := ellInit2D_cols (fun _ => 0) (fun _ => (1 : ℝ)) (nF := 1) (nx := 4) (ny := 4)
      (by omega) (by omega)
    rw [h1] at e
    cases e
    intro q; rfl
  have hs : m.vals.size = 9 * 1 * (4 * 4 * 1) := by rw [hm.vals_size, hm.nnz, hm.nrow]
  obtain ⟨v, e1, e2, e3⟩ := ellSetBc2D_eq (nx := 4) (ny := 4) (by omega) (by omega) hm.nnz hs
  refine ⟨m, _, fun r => if r = 15 then 1 else 0, hm, e1, by decide, ?_⟩
  have z : op m (mask (BdryDof2 1 4 4) (fun r => if r = 15 then (1 : ℝ) else 0)) (node2 4 2 2 * 1 + 0) = 0 := by
    unfold op
    refine sum_eq_zero fun t _ => ?_
    have : ∀ r, mask (BdryDof2 1 4 4) (fun r => if r = 15 then (1 : ℝ) else 0) r = 0 := by
      intro r
      unfold mask
      split
      · rfl
      · rename_i hb
        show (if r = 15 then (1 : ℝ) else 0) = 0
        rw [if_neg]
        rintro rfl
        exact hb (by decide)
    rw [this, mul_zero]
  rw [z]
  have o : op { m with vals := v } (fun r => if r = 15 then (1 : ℝ) else 0) (node2 4 2 2 * 1 + 0) = 1 := by
    unfold op
    simp only
    rw [hm.nnz, sum_eq_single 8]
    · have h8 := slotIx_eq_row (nF := 1) (W := 9) (n := node2 4 2 2) (d := 0) (s := 8) (d2 := 0)
      simp only [Nat.mul_one, Nat.add_zero] at h8 ⊢
      rw [h8, (e3 2 2 0 8 0 (by omega) (by omega) (by omega) (by omega) (by omega)).2 (by
        unfold bc2 Bdry2; simp), hv, hm.col (by omega) (by omega) (by omega) (by omega) (by omega)
        (by omega), show slotCol 1 (nbr2 4 4 2 2 8) 0 = 15 from by decide]
      simp
    · intro t ht hne
      obtain ⟨s, d2, hs', hd2, rfl⟩ := row_slot (mem_range.mp ht)
      have hd2 : d2 = 0 := by omega
      subst hd2
      rw [slotIx_eq_row, hm.col (by omega) (by omega) (by omega) hs' (by omega) (by omega), if_neg, mul_zero]
      interval_cases s <;> first | (exfalso; omega) | decide
    · intro h; exact absurd (mem_range.mpr (by omega)) h
  rw [o]; norm_num

example : ∃ m : Ell ℝ, Pattern3 m 3 3 4 5 ∧ Bdry3 3 4 5 0 1 2 ∧ ¬ Bdry3 3 4 5 1 1 2 := by
  obtain ⟨m, -, h, -⟩ := C01_pattern3D (fun _ => 0) (fun _ => (0 : ℝ)) (nF := 3) (nx := 3)
    (ny := 4) (nz := 5) (by omega) (by omega) (by omega)
  exact ⟨m, h, by decide, by decide⟩

example : ∃ m : Ell ℝ, Pattern2Weak m 2 5 6 ∧ Bdry2 5 6 0 1 ∧ ¬ Bdry2 5 6 1 1 := by
  obtain ⟨m, -, h, -⟩ := C02_pattern2D_partial (fun _ => 0) (fun _ => (0 : ℝ)) (nF := 2) (nx := 5)
    (ny := 6) (by omega) (by omega)
  exact ⟨m, h, by decide, by decide⟩

end Verif.Props
