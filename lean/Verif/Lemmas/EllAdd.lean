import Verif.Lemmas.EllBc
import Verif.Spec.Operator

/-! # Assembly of element matrices, and safety of the matrix routines -/

namespace Verif
open Spec Finset

/-! ## Tables -/

theorem sn3D_eq {nx ny ex ey ez a : Nat} (ha : a < 8) :
    sn3D nx ny ex ey ez a = enode3 nx ny ex ey ez a := by
  interval_cases a <;> simp [sn3D, enode3, node3, cornerX, cornerY, cornerZ] <;> ring

theorem sn2D_eq {nx ex ey a : Nat} (ha : a < 4) : sn2D nx ex ey a = enode2 nx ex ey a := by
  interval_cases a <;> simp [sn2D, enode2, node2, cornerX, cornerY] <;> ring

theorem colsRow3D_spec : ∀ a, a < 8 → ∀ b, b < 8 → colsRow3D a b < 27 ∧
    cornerX a + colsRow3D a b % 3 = cornerX b + 1 ∧
    cornerY a + colsRow3D a b / 3 % 3 = cornerY b + 1 ∧
    cornerZ a + colsRow3D a b / 9 = cornerZ b + 1 := by decide

theorem colsRow2D_spec : ∀ a, a < 4 → ∀ b, b < 4 → colsRow2D a b < 9 ∧
    cornerX a + colsRow2D a b % 3 = cornerX b + 1 ∧
    cornerY a + colsRow2D a b / 3 = cornerY b + 1 := by decide

theorem nbr3_some {nx ny nz i j k s I J K : Nat} (h1 : i + s % 3 = I + 1)
    (h2 : j + s / 3 % 3 = J + 1) (h3 : k + s / 9 = K + 1) (hI : I < nx) (hJ : J < ny)
    (hK : K < nz) : nbr3 nx ny nz i j k s = some (node3 nx ny I J K) := by
  unfold nbr3
  have e1 : (i : Int) + (s % 3 : Nat) - 1 = I := by omega
  have e2 : (j : Int) + (s / 3 % 3 : Nat) - 1 = J := by omega
  have e3 : (k : Int) + (s / 9 : Nat) - 1 = K := by omega
  simp only [e1, e2, e3]
  rw [if_pos (by omega)]
  simp

theorem nbr2_some {nx ny i j s I J : Nat} (h1 : i + s % 3 = I + 1)
    (h2 : j + s / 3 = J + 1) (hI : I < nx) (hJ : J < ny) :
    nbr2 nx ny i j s = some (node2 nx I J) := by
  unfold nbr2
  have e1 : (i : Int) + (s % 3 : Nat) - 1 = I := by omega
  have e2 : (j : Int) + (s / 3 : Nat) - 1 = J := by omega
  simp only [e1, e2]
  rw [if_pos (by omega)]
  simp

theorem cornerX_le (a : Nat) : cornerX a ≤ 1 := by unfold cornerX; split <;> omega
theorem cornerY_le (a : Nat) : cornerY a ≤ 1 := by unfold cornerY; split <;> omega
theorem cornerZ_le {a : Nat} (h : a < 8) : cornerZ a ≤ 1 := by unfold cornerZ; omega

theorem enode3_lt {nx ny nz ex ey ez a : Nat} (hx : ex + 1 < nx) (hy : ey + 1 < ny)
    (hz : ez + 1 < nz) (ha : a < 8) : enode3 nx ny ex ey ez a < nx * ny * nz := by
  have := cornerX_le a; have := cornerY_le a; have := cornerZ_le ha
  exact node3_lt (by omega) (by omega) (by omega)

theorem enode2_lt {nx ny ex ey a : Nat} (hx : ex + 1 < nx) (hy : ey + 1 < ny) :
    enode2 nx ex ey a < nx * ny := by
  have := cornerX_le a; have := cornerY_le a
  exact node2_lt (by omega) (by omega)

/-! ## Safety for every scalar type -/

/-- A block that never faults and keeps the size of its buffer. -/
def Safe {α : Type} (N : Nat) (f : Buf α → M (Buf α)) : Prop :=
  ∀ v : Buf α, v.size = N → ∃ v', f v = .ok v' ∧ v'.size = N

theorem Safe.loop {α : Type} {N n : Nat} {f : Nat → Buf α → M (Buf α)}
    (h : ∀ i, i < n → Safe N (f i)) : Safe N (Verif.loop n f) := by
  intro v hv
  exact loop_inv (fun _ v => v.size = N) hv (fun i s hi hs => h i hi s hs)

section generic
variable {α : Type} [Scalar α]

theorem Safe.rmw {N i : Nat} {e : α} {g : M α} (hi : i < N) (hg : g = .ok e) :
    Safe N (fun v => do let a ← v.read i; let e ← g; v.write i (a + e)) := by
  intro v hv
  simp only []
  rw [Buf.read_ok (by omega), M_bind_ok', hg, M_bind_ok', Buf.write_ok _ (by omega)]
  exact ⟨_, rfl, hv⟩

theorem addStruct_safe {nF W npe nn : Nat} {sn : Nat → Nat} {cr : Nat → Nat → Nat} {Ae : Buf α}
    (hAe : Ae.size = npe * nF * (npe * nF))
    (hsn : ∀ k, k < npe → sn k < nn) (hcr : ∀ k n, k < npe → n < npe → cr k n < W) :
    Safe (W * nF * (nn * nF))
      (Verif.loop nF (fun i v => Verif.loop npe (fun n v => Verif.loop npe (fun k v =>
        Verif.loop nF (fun j v => do
          let a ← v.read (sn k * (nF * (W * nF)) + i * (W * nF) + cr k n * nF + j)
          let e ← Ae.read (k * (npe * nF * nF) + i * (npe * nF) + n * nF + j)
          v.write (sn k * (nF * (W * nF)) + i * (W * nF) + cr k n * nF + j) (a + e)) v) v) v)) := by
  refine Safe.loop fun i hi => Safe.loop fun n hn => Safe.loop fun k hk => Safe.loop fun j hj => ?_
  have e1 : sn k * (nF * (W * nF)) + i * (W * nF) + cr k n * nF + j
      = slotIx nF W (sn k) i (cr k n) j := ix_form_add
  have e2 : k * (npe * nF * nF) + i * (npe * nF) + n * nF + j
      = (k * nF + i) * (npe * nF) + (n * nF + j) := by ring
  rw [e1, e2]
  refine Safe.rmw (e := Ae.val ((k * nF + i) * (npe * nF) + (n * nF + j)))
    (slotIx_lt (hsn k hk) hi (hcr k n hk hn) hj) ?_
  apply Buf.read_ok
  rw [hAe]
  exact mul_add_lt (mul_add_lt hk hi) (mul_add_lt hn hj)

theorem ellAddStruct3D_safe {m : Ell α} {nF nx ny nz ex ey ez : Nat} {Ae : Buf α}
    (hnnz : m.nnz = 27 * nF) (hsize : m.vals.size = 27 * nF * (nx * ny * nz * nF))
    (hx : ex + 1 < nx) (hy : ey + 1 < ny) (hz : ez + 1 < nz)
    (hAe : Ae.size = 8 * nF * (8 * nF)) :
    ∃ v : Buf α, ellAddStruct3D m ex ey ez Ae nF nx ny nz = .ok { m with vals := v } ∧
      v.size = 27 * nF * (nx * ny * nz * nF) := by
  obtain ⟨nrow, ncol, nnz, cols, vals⟩ := m
  simp only at hnnz hsize
  subst hnnz
  obtain ⟨v, h1, h2⟩ := addStruct_safe (α := α) (W := 27) (nn := nx * ny * nz)
    (sn := sn3D nx ny ex ey ez) (cr := colsRow3D) hAe
    (fun k hk => by rw [sn3D_eq hk]; exact enode3_lt hx hy hz hk)
    (fun k n hk hn => (colsRow3D_spec k hk n hn).1) vals hsize
  refine ⟨v, ?_, h2⟩
  unfold ellAddStruct3D
  simp only []
  rw [h1]; rfl

theorem ellAddStruct2D_safe {m : Ell α} {nF nx ny ex ey : Nat} {Ae : Buf α}
    (hnnz : m.nnz = 9 * nF) (hsize : m.vals.size = 9 * nF * (nx * ny * nF))
    (hx : ex + 1 < nx) (hy : ey + 1 < ny)
    (hAe : Ae.size = 4 * nF * (4 * nF)) :
    ∃ v : Buf α, ellAddStruct2D m ex ey Ae nF nx ny = .ok { m with vals := v } ∧
      v.size = 9 * nF * (nx * ny * nF) := by
  obtain ⟨nrow, ncol, nnz, cols, vals⟩ := m
  simp only at hnnz hsize
  subst hnnz
  obtain ⟨v, h1, h2⟩ := addStruct_safe (α := α) (W := 9) (nn := nx * ny)
    (sn := sn2D nx ex ey) (cr := colsRow2D) hAe
    (fun k hk => by rw [sn2D_eq hk]; exact enode2_lt hx hy)
    (fun k n hk hn => (colsRow2D_spec k hk n hn).1) vals hsize
  refine ⟨v, ?_, h2⟩
  unfold ellAddStruct2D
  simp only []
  rw [h1]; rfl

end generic

/-! ## Values -/

/-- What `ell_add_struct3D` adds to entry `q`. -/
noncomputable def addW3 (nF nx ny ex ey ez : Nat) (Ae : Nat → ℝ) (q : Nat) : ℝ :=
  ∑ i ∈ range nF, ∑ n ∈ range 8, ∑ k ∈ range 8, ∑ j ∈ range nF,
    if q = slotIx nF 27 (sn3D nx ny ex ey ez k) i (colsRow3D k n) j then
      Ae ((k * nF + i) * (8 * nF) + (n * nF + j)) else 0

/-- What `ell_add_struct2D` adds to entry `q`. -/
noncomputable def addW2 (nF nx ex ey : Nat) (Ae : Nat → ℝ) (q : Nat) : ℝ :=
  ∑ i ∈ range nF, ∑ n ∈ range 4, ∑ k ∈ range 4, ∑ j ∈ range nF,
    if q = slotIx nF 9 (sn2D nx ex ey k) i (colsRow2D k n) j then
      Ae ((k * nF + i) * (4 * nF) + (n * nF + j)) else 0

theorem ellAddStruct3D_eq {m : Ell ℝ} {nF nx ny nz ex ey ez : Nat} {Ae : Buf ℝ}
    (hnnz : m.nnz = 27 * nF) (hsize : m.vals.size = 27 * nF * (nx * ny * nz * nF))
    (hx : ex + 1 < nx) (hy : ey + 1 < ny) (hz : ez + 1 < nz)
    (hAe : Ae.size = 8 * nF * (8 * nF)) :
    ellAddStruct3D m ex ey ez Ae nF nx ny nz = .ok { m with
      vals := ⟨27 * nF * (nx * ny * nz * nF),
        fun q => m.vals.val q + addW3 nF nx ny ex ey ez Ae.val q⟩ } := by
  obtain ⟨nrow, ncol, nnz, cols, vals⟩ := m
  simp only at hnnz hsize
  subst hnnz
  have h1 := addStruct_vals (W := 27) (nn := nx * ny * nz)
    (sn := sn3D nx ny ex ey ez) (cr := colsRow3D) hAe
    (fun k hk => by rw [sn3D_eq hk]; exact enode3_lt hx hy hz hk)
    (fun k n hk hn => (colsRow3D_spec k hk n hn).1) vals hsize
  unfold ellAddStruct3D
  simp only []
  rw [h1]; rfl

theorem ellAddStruct2D_eq {m : Ell ℝ} {nF nx ny ex ey : Nat} {Ae : Buf ℝ}
    (hnnz : m.nnz = 9 * nF) (hsize : m.vals.size = 9 * nF * (nx * ny * nF))
    (hx : ex + 1 < nx) (hy : ey + 1 < ny)
    (hAe : Ae.size = 4 * nF * (4 * nF)) :
    ellAddStruct2D m ex ey Ae nF nx ny = .ok { m with
      vals := ⟨9 * nF * (nx * ny * nF),
        fun q => m.vals.val q + addW2 nF nx ex ey Ae.val q⟩ } := by
  obtain ⟨nrow, ncol, nnz, cols, vals⟩ := m
  simp only at hnnz hsize
  subst hnnz
  have h1 := addStruct_vals (W := 9) (nn := nx * ny)
    (sn := sn2D nx ex ey) (cr := colsRow2D) hAe
    (fun k hk => by rw [sn2D_eq hk]; exact enode2_lt hx hy)
    (fun k n hk hn => (colsRow2D_spec k hk n hn).1) vals hsize
  unfold ellAddStruct2D
  simp only []
  rw [h1]; rfl

theorem scatter_congr {nF npe : Nat} {en en' : Nat → Nat} (h : ∀ a, a < npe → en a = en' a)
    (Ae x : Nat → ℝ) (N d : Nat) : scatter nF npe en Ae x N d = scatter nF npe en' Ae x N d := by
  unfold scatter
  refine sum_congr rfl fun a ha => ?_
  rw [h a (mem_range.mp ha)]
  split
  · refine sum_congr rfl fun b hb => ?_
    rw [h b (mem_range.mp hb)]
  · rfl

theorem addW3_mvp {m : Ell ℝ} {nF nx ny nz ex ey ez : Nat} (hm : Pattern3 m nF nx ny nz)
    (hx : ex + 1 < nx) (hy : ey + 1 < ny) (hz : ez + 1 < nz) (Ae x : Nat → ℝ) (N d : Nat)
    (hd : d < nF) :
    ∑ t ∈ range (27 * nF), addW3 nF nx ny ex ey ez Ae ((N * nF + d) * (27 * nF) + t)
        * x (m.cols.val ((N * nF + d) * (27 * nF) + t)).toNat
      = scatter nF 8 (enode3 nx ny ex ey ez) Ae x N d := by
  rw [← scatter_congr (en := sn3D nx ny ex ey ez) (fun a ha => sn3D_eq ha)]
  unfold addW3 scatter
  refine addStruct_mvp (nn := nx * ny * nz) (by omega)
    (fun k n hk hn => (colsRow3D_spec k hk n hn).1) N d hd ?_
  intro k n i j hk hn hi hj _
  have c1 := cornerX_le k; have c2 := cornerY_le k; have c3 := cornerZ_le hk
  have c4 := cornerX_le n; have c5 := cornerY_le n; have c6 := cornerZ_le hn
  obtain ⟨s1, s2, s3, s4⟩ := colsRow3D_spec k hk n hn
  rw [sn3D_eq hk, sn3D_eq hn]
  unfold enode3
  rw [hm.col (by omega) (by omega) (by omega) hi s1 hj,
    nbr3_some (I := ex + cornerX n) (J := ey + cornerY n) (K := ez + cornerZ n)
      (by omega) (by omega) (by omega) (by omega) (by omega) (by omega)]
  rfl

theorem addW2_mvp {m : Ell ℝ} {nF nx ny ex ey : Nat} (hm : Pattern2Weak m nF nx ny)
    (hx : ex + 1 < nx) (hy : ey + 1 < ny) (Ae x : Nat → ℝ) (i j d : Nat) (hi : i + 1 < nx)
    (hd : d < nF) :
    ∑ t ∈ range (9 * nF), addW2 nF nx ex ey Ae ((node2 nx i j * nF + d) * (9 * nF) + t)
        * x (m.cols.val ((node2 nx i j * nF + d) * (9 * nF) + t)).toNat
      = scatter nF 4 (enode2 nx ex ey) Ae x (node2 nx i j) d := by
  rw [← scatter_congr (en := sn2D nx ex ey) (fun a ha => sn2D_eq ha)]
  unfold addW2 scatter
  refine addStruct_mvp (nn := nx * ny) (by omega)
    (fun k n hk hn => (colsRow2D_spec k hk n hn).1) (node2 nx i j) d hd ?_
  intro k n d' d2 hk hn hd' hd2 hN
  have c1 := cornerX_le k; have c2 := cornerY_le k
  have c4 := cornerX_le n; have c5 := cornerY_le n
  obtain ⟨s1, s2, s3⟩ := colsRow2D_spec k hk n hn
  rw [sn2D_eq hk] at hN ⊢
  rw [sn2D_eq hn]
  unfold enode2 at hN ⊢
  rw [node2_inj (by omega) (by omega)] at hN
  rw [hm.col (by omega) (by omega) hd' s1 hd2 (by omega),
    nbr2_some (I := ex + cornerX n) (J := ey + cornerY n)
      (by omega) (by omega) (by omega) (by omega)]
  rfl

end Verif
