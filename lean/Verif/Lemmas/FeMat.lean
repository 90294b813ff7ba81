import Verif.Lemmas.FemLink
import Verif.Props.Matrix

/-! # The assembled matrix -/

namespace Verif
open Spec Finset

/-- A loop whose steps have an effect of type `E`. -/
theorem loop_eff {σ E : Type} [AddCommMonoid E] {n : Nat} {f : Nat → σ → M σ} {g : Nat → E}
    {T : E → σ → σ → Prop} {I : σ → Prop} (T0 : ∀ s, T 0 s s)
    (Tt : ∀ a b s t r, T a s t → T b t r → T (a + b) s r)
    (h : ∀ i s, i < n → I s → ∃ s', f i s = .ok s' ∧ I s' ∧ T (g i) s s') {s : σ} (hs : I s) :
    ∃ s', loop n f s = .ok s' ∧ I s' ∧ T (∑ i ∈ range n, g i) s s' := by
  refine loop_inv (fun n s' => I s' ∧ T (∑ i ∈ range n, g i) s s') ⟨hs, by simpa using T0 s⟩ ?_
  rintro i s1 hi ⟨h1, h2⟩
  obtain ⟨s2, e1, e2, e3⟩ := h i s1 hi h1
  refine ⟨s2, e1, e2, ?_⟩
  rw [sum_range_succ]
  exact Tt _ _ _ _ _ h2 e3

/-! ## Stored variables that do not belong to plastic elements are not written -/

section generic
variable {α : Type} [Scalar α] {c : Cfg α}

/-- The entries of non-plastic elements agree. -/
def SameElastic (c : Cfg α) (v v' : Buf α) : Prop := ∀ k, ¬ PlasticVar c k → v'.val k = v.val k

theorem SameElastic.rfl' {v : Buf α} : SameElastic c v v := fun _ _ => rfl

theorem SameElastic.trans {v v' v'' : Buf α} (h : SameElastic c v v') (h' : SameElastic c v' v'') :
    SameElastic c v v'' := fun k hk => (h' k hk).trans (h k hk)

theorem SameElastic.accum {n : Nat} {g : Nat → Buf α → Buf α}
    (h : ∀ i v, i < n → SameElastic c v (g i v)) (v : Buf α) :
    SameElastic c v (Verif.accum n g v) := by
  induction n with
  | zero => exact SameElastic.rfl'
  | succ n ih => exact (ih fun i v hi => h i v (by omega)).trans (h n _ (by omega))

theorem put3_same (hd : c.dim = 3) {vo v : Buf α} {ex ey ez gp : Nat} {eps : Nat → α}
    (hx : ex < c.nx - 1) (hy : ey < c.ny - 1) (hz : ez < c.nz - 1) (hg : gp < 8) :
    SameElastic c v (put3 (matOf c (c.el ex ey ez)) vo (c.el ex ey ez) gp eps v) := by
  intro k hk
  unfold put3
  by_cases hp : (matOf c (c.el ex ey ez)).plasticity = true
  · simp only [hp, if_true]
    unfold putVars
    by_cases h7 : k / 7 = c.el ex ey ez * 8 + gp
    · exfalso
      apply hk
      have h2 : c.el ex ey ez < (c.nx - 1) * (c.ny - 1) * (c.nz - 1) := gloElem3D_lt hx hy hz
      have h3 : k / 56 = c.el ex ey ez := by
        rw [show k / 56 = k / 7 / 8 from by omega, h7, mul_add_div' hg]
      refine ⟨?_, by rw [h3]; exact hp⟩
      rw [numIntVars3 hd]
      omega
    · simp only [h7, if_false]
  · have hp' : (matOf c (c.el ex ey ez)).plasticity = false := by simpa using hp
    simp [hp']

theorem elemMatPut_same (hd : c.dim = 3) {u : Nat → α} {vo v : Buf α} {ex ey ez : Nat}
    (hx : ex < c.nx - 1) (hy : ey < c.ny - 1) (hz : ez < c.nz - 1) :
    SameElastic c v (elemMatPut c u vo ex ey ez v) := by
  refine SameElastic.accum (fun gp v hg => ?_) v
  unfold gpCtanPut
  simp only
  split
  · exact SameElastic.trans (put3_same hd hx hy hz hg)
      (SameElastic.accum (fun i v _ => put3_same hd hx hy hz hg) _)
  · exact SameElastic.rfl'

theorem Pattern3.withVals {m : Ell α} {nF nx ny nz : Nat} (hm : Pattern3 m nF nx ny nz) {v : Buf α}
    (hv : v.size = 27 * nF * (nx * ny * nz * nF)) : Pattern3 { m with vals := v } nF nx ny nz :=
  ⟨hm.nrow, hm.ncol, hm.nnz, hm.cols_size, by simp only; rw [hv, hm.nnz, hm.nrow], hm.cols⟩

theorem Pattern2Weak.withVals {m : Ell α} {nF nx ny : Nat} (hm : Pattern2Weak m nF nx ny) {v : Buf α}
    (hv : v.size = 9 * nF * (nx * ny * nF)) : Pattern2Weak { m with vals := v } nF nx ny :=
  ⟨hm.nrow, hm.ncol, hm.nnz, hm.cols_size, by simp only; rw [hv, hm.nnz, hm.nrow], hm.cols,
    hm.cols_right⟩

theorem Work.Ok.u3 {w : Work α} (hw : w.Ok c) (hd : c.dim = 3) :
    w.u.size = c.nx * c.ny * c.nz * 3 := by rw [hw.u, hd]; rfl

theorem Work.Ok.u2 {w : Work α} (hw : w.Ok c) (hc : c.Ok) (hd : c.dim = 2) :
    w.u.size = c.nx * c.ny * 2 := by rw [hw.u, hd, hc.nn2 hd]

/-- The assembly of the matrix succeeds; only the matrix values and plastic entries of `vars_new`
change. -/
theorem Work.Ok.wf (hc : c.Ok) {w : Work α} (hw : w.Ok c) : w.A.WF ∧ w.A.nrow = c.nn * c.dim := by
  rcases hc.dim with hd | hd
  · exact ⟨(hw.A2 hd).wf, by rw [(hw.A2 hd).nrow, hc.nn2 hd, hd]⟩
  · exact ⟨(hw.A3 hd).wf, by rw [(hw.A3 hd).nrow, hd]; rfl⟩

/-- The last step of the assembly is the boundary-condition routine. -/
def BcMat (c : Cfg α) (A : Ell α) : Prop :=
  (c.dim = 2 → ∃ m, Pattern2Weak m 2 c.nx c.ny ∧ ellSetBc2D m 2 c.nx c.ny = .ok A) ∧
  (c.dim = 3 → ∃ m, Pattern3 m 3 c.nx c.ny c.nz ∧ ellSetBc3D m 3 c.nx c.ny c.nz = .ok A)

theorem assemblyMat_bc (hc : c.Ok) {w : Work α} (hw : w.Ok c) :
    ∃ A vn, assemblyMat c w = .ok { w with A := A, varsNew := vn } ∧
      Work.Ok c { w with A := A, varsNew := vn } ∧ SameElastic c w.varsNew vn ∧ BcMat c A := by
  unfold assemblyMat
  rcases hc.dim with hd | hd
  · have hA := hw.A2 hd
    obtain ⟨m0, h0, h0'⟩ := (Props.C03_safe2D hA hc.nx hc.ny).1
    rw [h0, M_bind_ok', if_pos hd]
    obtain ⟨m1, h1, h1', -⟩ := loop_eff (E := PUnit) (n := c.nx - 1) (g := fun _ => 0)
      (f := fun ex A => loop (c.ny - 1) (fun ey A => do
        let Ae ← getElemMat2D c ex ey
        ellAddStruct2D A ex ey Ae c.dim c.nx c.ny) A) (T := fun _ _ _ => True)
      (I := fun m => Pattern2Weak m 2 c.nx c.ny) (fun _ => trivial) (fun _ _ _ _ _ _ _ => trivial)
      (by
        intro ex m hx hm
        obtain ⟨m1, h1, h1', -⟩ := loop_eff (E := PUnit) (n := c.ny - 1) (g := fun _ => 0)
          (f := fun ey A => do
            let Ae ← getElemMat2D c ex ey
            ellAddStruct2D A ex ey Ae c.dim c.nx c.ny) (T := fun _ _ _ => True)
          (I := fun m => Pattern2Weak m 2 c.nx c.ny) (fun _ => trivial)
          (fun _ _ _ _ _ _ _ => trivial)
          (by
            intro ey m hy hm
            obtain ⟨m1, h1, h1'⟩ := (Props.C03_safe2D hm hc.nx hc.ny).2.1 ex ey ⟨64, elemMat2 c ex ey⟩
              (by omega) (by omega) rfl
            refine ⟨m1, ?_, h1', trivial⟩
            rw [getElemMat2D_eq hc hd hx hy, M_bind_ok', hd]
            exact h1) hm
        exact ⟨m1, h1, h1', trivial⟩) h0'
    rw [h1, M_bind_ok']
    obtain ⟨m2, h2, h2'⟩ := (Props.C03_safe2D h1' hc.nx hc.ny).2.2.1
    rw [hd, h2, M_bind_ok']
    exact ⟨m2, w.varsNew, rfl, ⟨hw.u, hw.du, hw.b, hw.elemStress, hw.elemStrain, hw.varsOld,
      hw.varsNew, fun _ => h2', fun h => absurd h (by omega)⟩, SameElastic.rfl',
      fun _ => ⟨m1, h1', h2⟩, fun h => absurd h (by omega)⟩
  · have hA := hw.A3 hd
    have hu := hw.u3 hd
    obtain ⟨m0, h0, h0'⟩ := (Props.C03_safe3D hA hc.nx hc.ny (hc.nz3 hd)).1
    rw [h0, M_bind_ok', if_neg (by omega), if_pos hd]
    have ht : ∀ (a b : PUnit) (s t r : MatState α), SameElastic c s.varsNew t.varsNew →
        SameElastic c t.varsNew r.varsNew → SameElastic c s.varsNew r.varsNew :=
      fun _ _ _ _ _ h h' => h.trans h'
    obtain ⟨s1, h1, h1', h1''⟩ := loop_eff (E := PUnit) (n := c.nx - 1) (g := fun _ => 0)
      (f := fun ex s => loop (c.ny - 1) (fun ey s => loop (c.nz - 1) (fun ez s => do
        let r ← getElemMat3D c w.u w.varsOld s.varsNew ex ey ez
        let A ← ellAddStruct3D s.A ex ey ez ⟨576, r.Ae⟩ c.dim c.nx c.ny c.nz
        pure { A := A, varsNew := r.varsNew }) s) s)
      (T := fun _ (s t : MatState α) => SameElastic c s.varsNew t.varsNew)
      (I := fun s => Pattern3 s.A 3 c.nx c.ny c.nz ∧ s.varsNew.size = c.numIntVars)
      (fun _ => SameElastic.rfl') ht
      (by
        intro ex s hx hs
        refine loop_eff (E := PUnit) (g := fun _ => 0)
          (T := fun _ (s t : MatState α) => SameElastic c s.varsNew t.varsNew)
          (fun _ => SameElastic.rfl') ht ?_ hs
        intro ey s hy hs
        refine loop_eff (E := PUnit) (g := fun _ => 0)
          (T := fun _ (s t : MatState α) => SameElastic c s.varsNew t.varsNew)
          (fun _ => SameElastic.rfl') ht ?_ hs
        intro ez s hz hs
        obtain ⟨m1, h1, h1'⟩ := (Props.C03_safe3D hs.1 hc.nx hc.ny (hc.nz3 hd)).2.1 ex ey ez
          ⟨576, elemMat3 c w.u.val w.varsOld ex ey ez⟩ (by omega) (by omega) (by omega) rfl
        refine ⟨⟨m1, elemMatPut c w.u.val w.varsOld ex ey ez s.varsNew⟩, ?_,
          ⟨h1', by simpa using hs.2⟩, elemMatPut_same hd hx hy hz⟩
        rw [getElemMat3D_eq hc hd hu hw.varsOld hs.2 hx hy hz, M_bind_ok', hd, h1]
        rfl) (s := ⟨m0, w.varsNew⟩) ⟨h0', hw.varsNew⟩
    rw [h1, M_bind_ok']
    obtain ⟨m2, h2, h2'⟩ := (Props.C03_safe3D h1'.1 hc.nx hc.ny (hc.nz3 hd)).2.2.1
    rw [hd, h2, M_bind_ok']
    exact ⟨m2, s1.varsNew, rfl, ⟨hw.u, hw.du, hw.b, hw.elemStress, hw.elemStrain, hw.varsOld,
      h1'.2, fun h => absurd h (by omega), fun _ => h2'⟩, h1'',
      fun h => absurd h (by omega), fun _ => ⟨s1.A, h1'.1, h2⟩⟩

theorem assemblyMat_ok (hc : c.Ok) {w : Work α} (hw : w.Ok c) :
    ∃ A vn, assemblyMat c w = .ok { w with A := A, varsNew := vn } ∧
      Work.Ok c { w with A := A, varsNew := vn } ∧ SameElastic c w.varsNew vn := by
  obtain ⟨A, vn, h1, h2, h3, -⟩ := assemblyMat_bc hc hw
  exact ⟨A, vn, h1, h2, h3⟩

end generic

/-! ## Diagonal slots -/

theorem op_unit_row {m : Ell ℝ} {nF W n d slot : Nat} (hnnz : m.nnz = W * nF)
    (hd : d < nF) (hslot : slot < W)
    (hc : ∀ s d2, s < W → d2 < nF → m.vals.val (slotIx nF W n d s d2) ≠ 0 →
      (m.cols.val (slotIx nF W n d s d2)).toNat = n * nF + d → s = slot ∧ d2 = d)
    (hs : (m.cols.val (slotIx nF W n d slot d)).toNat = n * nF + d) :
    op m (unit (n * nF + d)) (n * nF + d) = m.vals.val (slotIx nF W n d slot d) := by
  unfold op
  rw [hnnz, sum_eq_single (slot * nF + d)]
  · rw [slotIx_eq_row, hs]; simp [unit]
  · intro t ht hne
    obtain ⟨s, d2, h1, h2, rfl⟩ := row_slot (mem_range.mp ht)
    rw [slotIx_eq_row]
    by_cases hv : m.vals.val (slotIx nF W n d s d2) = 0
    · rw [hv, zero_mul]
    · unfold unit
      rw [if_neg, mul_zero]
      intro h
      obtain ⟨rfl, rfl⟩ := hc s d2 h1 h2 hv h
      exact hne rfl
  · intro h
    exact absurd (mem_range.mpr (mul_add_lt hslot hd)) h

theorem dof_inj {nF a b d e : Nat} (hd : d < nF) (he : e < nF) (h : a * nF + d = b * nF + e) :
    a = b ∧ d = e := by
  have h1 := congrArg (· / nF) h
  have h2 := congrArg (· % nF) h
  simp only [mul_add_div' hd, mul_add_div' he, mul_add_mod' hd, mul_add_mod' he] at h1 h2
  exact ⟨h1, h2⟩

/-- After `ell_set_bc_3D` slot 13 holds the diagonal. -/
theorem diag3_bc {m : Ell ℝ} {nF nx ny nz : Nat} (hm : Pattern3 m nF nx ny nz) {v : Buf ℝ}
    (hv : ∀ i j k d s d2, i < nx → j < ny → k < nz → d < nF → s < 27 → d2 < nF →
        (bc3 nx ny nz i j k s → v.val (slotIx nF 27 (node3 nx ny i j k) d s d2)
          = if s = 13 ∧ d = d2 then 1 else 0)) :
    DiagSlot { m with vals := v } nF (nx * ny * nz) 13 := by
  intro n d hn hd
  obtain ⟨i, j, k, hi, hj, hk, rfl⟩ := node3_surj hn
  refine Eq.trans (b := v.val (slotIx nF 27 (node3 nx ny i j k) d 13 d))
    (by simp only; rw [hm.nnz, slotIx_eq_row]) (op_unit_row (m := { m with vals := v }) (W := 27)
    (slot := 13) hm.nnz hd (by omega) ?_ ?_).symm
  · intro s d2 hs h2 hv0 hcol
    simp only at hcol hv0
    by_cases hb : Bdry3 nx ny nz i j k
    · rw [hv i j k d s d2 hi hj hk hd hs h2 (Or.inl hb)] at hv0
      by_contra hne
      exact hv0 (if_neg fun h => hne ⟨h.1, h.2.symm⟩)
    · have hB : ¬ (i = 0 ∨ i + 1 = nx ∨ j = 0 ∨ j + 1 = ny ∨ k = 0 ∨ k + 1 = nz) := hb
      obtain ⟨I, hI⟩ : ∃ I, i + s % 3 = I + 1 := ⟨i + s % 3 - 1, by omega⟩
      obtain ⟨J, hJ⟩ : ∃ J, j + s / 3 % 3 = J + 1 := ⟨j + s / 3 % 3 - 1, by omega⟩
      obtain ⟨K, hK⟩ : ∃ K, k + s / 9 = K + 1 := ⟨k + s / 9 - 1, by omega⟩
      rw [hm.col hi hj hk hd hs h2, nbr3_some hI hJ hK (by omega) (by omega) (by omega)] at hcol
      simp only [slotCol, Int.toNat_natCast] at hcol
      obtain ⟨e1, e2⟩ := dof_inj h2 hd hcol
      rw [node3_inj (by omega) (by omega) (by omega) (by omega)] at e1
      omega
  · simp only
    rw [hm.col hi hj hk hd (by omega) hd,
      nbr3_some (I := i) (J := j) (K := k) (by omega) (by omega) (by omega) hi hj hk]
    rfl

theorem diag2_bc {m : Ell ℝ} {nF nx ny : Nat} (hm : Pattern2Weak m nF nx ny) {v : Buf ℝ}
    (hv : ∀ i j d s d2, i < nx → j < ny → d < nF → s < 9 → d2 < nF →
        (bc2 nx ny i j s → v.val (slotIx nF 9 (node2 nx i j) d s d2)
          = if s = 4 ∧ d = d2 then 1 else 0)) :
    DiagSlot { m with vals := v } nF (nx * ny) 4 := by
  intro n d hn hd
  obtain ⟨i, j, hi, hj, rfl⟩ := node2_surj hn
  refine Eq.trans (b := v.val (slotIx nF 9 (node2 nx i j) d 4 d))
    (by simp only; rw [hm.nnz, slotIx_eq_row]) (op_unit_row (m := { m with vals := v }) (W := 9)
    (slot := 4) hm.nnz hd (by omega) ?_ ?_).symm
  · intro s d2 hs h2 hv0 hcol
    simp only at hcol hv0
    by_cases hb : Bdry2 nx ny i j
    · rw [hv i j d s d2 hi hj hd hs h2 (Or.inl hb)] at hv0
      by_contra hne
      exact hv0 (if_neg fun h => hne ⟨h.1, h.2.symm⟩)
    · have hB : ¬ (i = 0 ∨ i + 1 = nx ∨ j = 0 ∨ j + 1 = ny) := hb
      obtain ⟨I, hI⟩ : ∃ I, i + s % 3 = I + 1 := ⟨i + s % 3 - 1, by omega⟩
      obtain ⟨J, hJ⟩ : ∃ J, j + s / 3 = J + 1 := ⟨j + s / 3 - 1, by omega⟩
      rw [hm.col hi hj hd hs h2 (by omega), nbr2_some hI hJ (by omega) (by omega)] at hcol
      simp only [slotCol, Int.toNat_natCast] at hcol
      obtain ⟨e1, e2⟩ := dof_inj h2 hd hcol
      rw [node2_inj (by omega) (by omega)] at e1
      omega
  · simp only
    rw [hm.col hi hj hd (by omega) hd (by omega),
      nbr2_some (I := i) (J := j) (by omega) (by omega) hi hj]
    rfl

/-! ## Scattered element matrices are forces -/

theorem scatter_force {F : Fe} {dim : Nat} {B : Nat → Nat → Nat → ℝ}
    {en : Nat × Nat × Nat → Nat → Nat} {dof : Nat × Nat × Nat → Nat → Nat}
    (hB : HasB F (F.npe * dim) B dof)
    (hdof : ∀ e a d, d < dim → dof e (a * dim + d) = en e a * dim + d)
    {T : Nat × Nat × Nat → Nat → Nat → Nat → ℝ} {Ae : Nat × Nat × Nat → Nat → ℝ}
    (hAe : ∀ e ∈ F.elems, ∀ i j, i < F.npe * dim → j < F.npe * dim → Ae e (i * (F.npe * dim) + j)
      = ∑ gp ∈ range F.npe, ∑ k ∈ range F.nvoi, B gp k i
        * (∑ l ∈ range F.nvoi, T e gp k l * B gp l j) * (F.cell / F.npe))
    (x : Nat → ℝ) (N : Nat) {d : Nat} (hd : d < dim) :
    ∑ e ∈ F.elems, scatter dim F.npe (en e) (Ae e) x N d
      = F.force (fun e gp k => ∑ l ∈ range F.nvoi, T e gp k l * F.strain x e gp l) (N * dim + d) := by
  rw [force_eq hB]
  refine sum_congr rfl fun e he => ?_
  rw [sum_block]
  unfold scatter
  refine sum_congr rfl fun a ha => ?_
  have hi : a * dim + d < F.npe * dim := mul_add_lt (mem_range.mp ha) hd
  rw [sum_eq_single (s := range dim) d]
  · rw [hdof e a d hd]
    by_cases hN : en e a = N
    · subst hN
      simp only [if_true]
      have h1 : ∀ b ∈ range F.npe, ∀ j ∈ range dim,
          Ae e ((a * dim + d) * (F.npe * dim) + (b * dim + j)) * x (en e b * dim + j)
          = Ae e ((a * dim + d) * (F.npe * dim) + (b * dim + j)) * x (dof e (b * dim + j)) := by
        intro b _ j hj
        rw [hdof e b j (mem_range.mp hj)]
      rw [sum_congr rfl fun b hb => sum_congr rfl (h1 b hb),
        ← sum_block F.npe dim (fun j => Ae e ((a * dim + d) * (F.npe * dim) + j) * x (dof e j))]
      unfold elemForce
      have h2 : ∀ j ∈ range (F.npe * dim), Ae e ((a * dim + d) * (F.npe * dim) + j) * x (dof e j)
          = ∑ gp ∈ range F.npe, ∑ k ∈ range F.nvoi, B gp k (a * dim + d)
            * (∑ l ∈ range F.nvoi, T e gp k l * (B gp l j * x (dof e j))) * (F.cell / F.npe) := by
        intro j hj
        rw [hAe e he _ j hi (mem_range.mp hj), sum_mul]
        refine sum_congr rfl fun gp _ => ?_
        rw [sum_mul]
        refine sum_congr rfl fun k _ => ?_
        rw [mul_right_comm, mul_assoc (B gp k (a * dim + d)), sum_mul]
        congr 2
        exact sum_congr rfl fun l _ => by ring
      rw [sum_congr rfl h2, sum_comm]
      refine sum_congr rfl fun gp hg => ?_
      rw [sum_comm]
      refine sum_congr rfl fun k _ => ?_
      rw [← sum_mul, ← mul_sum, sum_comm]
      congr 2
      refine sum_congr rfl fun l hl => ?_
      rw [← mul_sum, hB x e he gp l (mem_range.mp hg) (mem_range.mp hl)]
    · rw [if_neg hN, if_neg]
      intro h
      exact hN (dof_inj hd hd h).1
  · intro d' hd' hne
    rw [hdof e a d' (mem_range.mp hd'), if_neg]
    intro h
    exact hne (dof_inj (mem_range.mp hd') hd h).2
  · intro h; exact absurd (mem_range.mpr hd) h

variable {c : Cfg ℝ}

theorem elemMat3_real (u : Nat → ℝ) (vo : Buf ℝ) {ex ey ez i j : Nat} (hj : j < 24) :
    elemMat3 c u vo ex ey ez (i * 24 + j)
      = ∑ gp ∈ range 8, ∑ k ∈ range 6, bmat3D c.dx c.dy c.dz gp k i
        * (∑ l ∈ range 6, gpCtan c u vo ex ey ez gp k l * bmat3D c.dx c.dy c.dz gp l j)
        * wg3D c := by
  unfold elemMat3
  simp only [accum_sum, zero_add]
  rw [accum_fun (fun gp q => ∑ k ∈ range 6, bmat3D c.dx c.dy c.dz gp k (q / 24)
    * (∑ l ∈ range 6, gpCtan c u vo ex ey ez gp k l * bmat3D c.dx c.dy c.dz gp l (q % 24))
    * wg3D c), zero_add, mul_add_div' hj, mul_add_mod' hj]

theorem elemMat2_real {ex ey i j : Nat} (hj : j < 8) :
    elemMat2 c ex ey (i * 8 + j)
      = ∑ gp ∈ range 4, ∑ k ∈ range 3, bmat2D c.dx c.dy gp k i
        * (∑ l ∈ range 3, ctan2D (matOf c (c.el ex ey 0)) k l * bmat2D c.dx c.dy gp l j)
        * wg2D c := by
  unfold elemMat2
  simp only [accum_sum, zero_add]
  rw [accum_fun (fun gp q => ∑ k ∈ range 3, bmat2D c.dx c.dy gp k (q / 8)
    * (∑ l ∈ range 3, ctan2D (matOf c (c.el ex ey 0)) k l * bmat2D c.dx c.dy gp l (q % 8))
    * wg2D c), zero_add, mul_add_div' hj, mul_add_mod' hj]

theorem op_zero {m m' : Ell ℝ} (h : ∃ v, ellSetZeroMat m = .ok { m with vals := v } ∧
    v.size = m.nnz * m.nrow ∧ ∀ q, q < m.nnz * m.nrow → v.val q = 0)
    (h' : ellSetZeroMat m = .ok m') (x : Nat → ℝ) {r : Nat} (hr : r < m.nrow) : op m' x r = 0 := by
  obtain ⟨v, h1, -, h3⟩ := h
  rw [h1] at h'
  cases h'
  unfold op
  refine sum_eq_zero fun t ht => ?_
  simp only
  rw [h3 _ (row_lt hr (mem_range.mp ht)), zero_mul]

/-- The assembled 3D matrix as an operator. -/
theorem assemblyMat3_op (hc : c.Ok) (hd : c.dim = 3) {w : Work ℝ} (hw : w.Ok c) :
    ∃ A vn, assemblyMat c w = .ok { w with A := A, varsNew := vn } ∧
      Pattern3 A 3 c.nx c.ny c.nz ∧ vn.size = c.numIntVars ∧ SameElastic c w.varsNew vn ∧
      DiagSlot A 3 (c.nx * c.ny * c.nz) 13 ∧
      ∀ x r, r < c.nx * c.ny * c.nz * 3 →
        op A x r = if c.F3.Bd r then x r else
          c.F3.force (fun e gp k => ∑ l ∈ range 6,
            gpCtan c w.u.val w.varsOld e.1 e.2.1 e.2.2 gp k l
              * c.F3.strain (mask c.F3.Bd x) e gp l) r := by
  unfold assemblyMat
  have hA := hw.A3 hd
  have hu := hw.u3 hd
  have hz3 := hc.nz3 hd
  obtain ⟨m0, h0, h0'⟩ := (Props.C03_safe3D hA hc.nx hc.ny hz3).1
  have hz0 : ∀ x r, r < c.nx * c.ny * c.nz * 3 → op m0 x r = 0 := fun x r hr =>
    op_zero (ellSetZeroMat_eq hA.vals_size) h0 x (by rw [hA.nrow]; exact hr)
  rw [h0, M_bind_ok', if_neg (by omega), if_pos hd]
  let T : ((Nat → ℝ) → Nat → Nat → ℝ) → MatState ℝ → MatState ℝ → Prop := fun g s t =>
    SameElastic c s.varsNew t.varsNew ∧
    ∀ x N d, d < 3 → op t.A x (N * 3 + d) = op s.A x (N * 3 + d) + g x N d
  have t0 : ∀ s, T 0 s s := fun s => ⟨SameElastic.rfl', fun x N d _ => by simp⟩
  have ht : ∀ a b s t r, T a s t → T b t r → T (a + b) s r := by
    intro a b s t r h h'
    refine ⟨h.1.trans h'.1, fun x N d hd => ?_⟩
    rw [h'.2 x N d hd, h.2 x N d hd]
    simp only [Pi.add_apply]; ring
  obtain ⟨s1, h1, h1', h1''⟩ := loop_eff (n := c.nx - 1)
    (f := fun ex s => loop (c.ny - 1) (fun ey s => loop (c.nz - 1) (fun ez s => do
      let r ← getElemMat3D c w.u w.varsOld s.varsNew ex ey ez
      let A ← ellAddStruct3D s.A ex ey ez ⟨576, r.Ae⟩ c.dim c.nx c.ny c.nz
      pure { A := A, varsNew := r.varsNew }) s) s)
    (g := fun ex => ∑ ey ∈ range (c.ny - 1), ∑ ez ∈ range (c.nz - 1), fun x N d =>
      scatter 3 8 (enode3 c.nx c.ny ex ey ez) (elemMat3 c w.u.val w.varsOld ex ey ez) x N d)
    (T := T)
    (I := fun s => Pattern3 s.A 3 c.nx c.ny c.nz ∧ s.varsNew.size = c.numIntVars) t0 ht
    (by
      intro ex s hx hs
      refine loop_eff t0 ht ?_ hs
      intro ey s hy hs
      refine loop_eff t0 ht ?_ hs
      intro ez s hz hs
      obtain ⟨m1, h1, h1', h1''⟩ := Props.C05_add3D hs.1 (ex := ex) (ey := ey) (ez := ez)
        (by omega) (by omega) (by omega)
        (Ae := ⟨576, elemMat3 c w.u.val w.varsOld ex ey ez⟩) rfl
      refine ⟨⟨m1, elemMatPut c w.u.val w.varsOld ex ey ez s.varsNew⟩, ?_,
        ⟨h1', by simpa using hs.2⟩, elemMatPut_same hd hx hy hz, h1''⟩
      rw [getElemMat3D_eq hc hd hu hw.varsOld hs.2 hx hy hz, M_bind_ok', hd, h1]
      rfl) (s := ⟨m0, w.varsNew⟩) ⟨h0', hw.varsNew⟩
  rw [h1, M_bind_ok']
  have hs : s1.A.vals.size = 27 * 3 * (c.nx * c.ny * c.nz * 3) := by
    rw [h1'.1.vals_size, h1'.1.nnz, h1'.1.nrow]
  obtain ⟨v, h2, h2', h2''⟩ := ellSetBc3D_eq hc.nx hc.ny hz3 h1'.1.nnz hs
  rw [hd, h2, M_bind_ok']
  have hv : ∀ i j k d s d2, i < c.nx → j < c.ny → k < c.nz → d < 3 → s < 27 → d2 < 3 →
      bc3 c.nx c.ny c.nz i j k s → v.val (slotIx 3 27 (node3 c.nx c.ny i j k) d s d2)
        = if s = 13 ∧ d = d2 then 1 else 0 :=
    fun i j k d s d2 a b c e f g => (h2'' i j k d s d2 a b c e f g).1
  refine ⟨_, _, rfl, Pattern3.withVals h1'.1 h2', h1'.2, h1''.1, diag3_bc h1'.1 hv, ?_⟩
  intro x r hr
  obtain ⟨i, j, k, d, hi, hj, hk, hdd, rfl⟩ := dof_surj3 hr
  split
  · rename_i hb
    exact setBc3_bdry h1'.1 hv hi hj hk hdd
      ((bdryDof3_iff hi hj hdd).mp ((F3_Bd hz3 _).mp hb))
  · rename_i hb
    rw [setBc3_int h1'.1 h2'' hi hj hk hdd
      (fun h => hb ((F3_Bd hz3 _).mpr ((bdryDof3_iff hi hj hdd).mpr h))), h1''.2 _ _ _ hdd,
      hz0 _ _ hr, zero_add]
    have hmask : mask (BdryDof3 3 c.nx c.ny c.nz) x = mask c.F3.Bd x := by
      funext q
      unfold mask
      by_cases h : BdryDof3 3 c.nx c.ny c.nz q
      · rw [if_pos h, if_pos ((F3_Bd hz3 q).mpr h)]
      · rw [if_neg h, if_neg (fun h' => h ((F3_Bd hz3 q).mp h'))]
    rw [hmask]
    simp only [sum_apply]
    have e := scatter_force (F := c.F3) (dim := 3) (hasB3 c)
      (en := fun e => enode3 c.nx c.ny e.1 e.2.1 e.2.2)
      (T := fun e gp k l => gpCtan c w.u.val w.varsOld e.1 e.2.1 e.2.2 gp k l)
      (Ae := fun e => elemMat3 c w.u.val w.varsOld e.1 e.2.1 e.2.2)
      (by
        intro e a d hd
        simp only [edof3]
        rw [mul_add_div' hd, mul_add_mod' hd])
      (by
        intro e _ i j _ hj
        rw [← wg3D_eq]
        exact elemMat3_real _ _ hj)
      (mask c.F3.Bd x) (node3 c.nx c.ny i j k) hdd
    refine Eq.trans ?_ e
    unfold Fe.elems
    rw [sum_product]
    simp only [sum_product]
    rfl

/-- The assembled 2D matrix as an operator (interior rows on vectors that vanish on the
boundary). -/
theorem assemblyMat2_op (hc : c.Ok) (hd : c.dim = 2) {w : Work ℝ} (hw : w.Ok c) :
    ∃ A, assemblyMat c w = .ok { w with A := A } ∧
      Pattern2Weak A 2 c.nx c.ny ∧ DiagSlot A 2 (c.nx * c.ny) 4 ∧
      ∀ x r, r < c.nx * c.ny * 2 →
        (c.F2.Bd r → op A x r = x r) ∧
        (¬ c.F2.Bd r → (∀ q, c.F2.Bd q → x q = 0) → op A x r =
          c.F2.force (fun e gp k => ∑ l ∈ range 3,
            ctan2D (matOf c (c.el e.1 e.2.1 0)) k l * c.F2.strain x e gp l) r) := by
  unfold assemblyMat
  have hA := hw.A2 hd
  obtain ⟨m0, h0, h0'⟩ := (Props.C03_safe2D hA hc.nx hc.ny).1
  have hz0 : ∀ x r, r < c.nx * c.ny * 2 → op m0 x r = 0 := fun x r hr =>
    op_zero (ellSetZeroMat_eq hA.vals_size) h0 x (by rw [hA.nrow]; exact hr)
  rw [h0, M_bind_ok', if_pos hd]
  let T : ((Nat → ℝ) → Nat → Nat → ℝ) → Ell ℝ → Ell ℝ → Prop := fun g s t =>
    ∀ x i j d, i + 1 < c.nx → d < 2 → op t x (node2 c.nx i j * 2 + d)
      = op s x (node2 c.nx i j * 2 + d) + g x (node2 c.nx i j) d
  have t0 : ∀ s, T 0 s s := fun s => fun x i j d _ _ => by simp
  have ht : ∀ a b s t r, T a s t → T b t r → T (a + b) s r := by
    intro a b s t r h h' x i j d hi hd
    rw [h' x i j d hi hd, h x i j d hi hd]
    simp only [Pi.add_apply]; ring
  obtain ⟨s1, h1, h1', h1''⟩ := loop_eff (n := c.nx - 1)
    (f := fun ex A => loop (c.ny - 1) (fun ey A => do
      let Ae ← getElemMat2D c ex ey
      ellAddStruct2D A ex ey Ae c.dim c.nx c.ny) A)
    (g := fun ex => ∑ ey ∈ range (c.ny - 1), fun x N d =>
      scatter 2 4 (enode2 c.nx ex ey) (elemMat2 c ex ey) x N d)
    (T := T) (I := fun s => Pattern2Weak s 2 c.nx c.ny) t0 ht
    (by
      intro ex s hx hs
      refine loop_eff t0 ht ?_ hs
      intro ey s hy hs
      obtain ⟨m1, h1, h1', h1''⟩ := Props.C06_add2D_partial hs (ex := ex) (ey := ey)
        (by omega) (by omega) (Ae := ⟨64, elemMat2 c ex ey⟩) rfl
      refine ⟨m1, ?_, h1', h1''⟩
      rw [getElemMat2D_eq hc hd hx hy, M_bind_ok', hd]
      exact h1) h0'
  rw [h1, M_bind_ok']
  have hs : s1.vals.size = 9 * 2 * (c.nx * c.ny * 2) := by
    rw [h1'.vals_size, h1'.nnz, h1'.nrow]
  obtain ⟨v, h2, h2', h2''⟩ := ellSetBc2D_eq hc.nx hc.ny h1'.nnz hs
  rw [hd, h2, M_bind_ok']
  have hv : ∀ i j d s d2, i < c.nx → j < c.ny → d < 2 → s < 9 → d2 < 2 →
      bc2 c.nx c.ny i j s → v.val (slotIx 2 9 (node2 c.nx i j) d s d2)
        = if s = 4 ∧ d = d2 then 1 else 0 :=
    fun i j d s d2 a b e f g => (h2'' i j d s d2 a b e f g).1
  refine ⟨_, rfl, Pattern2Weak.withVals h1' h2', diag2_bc h1' hv, ?_⟩
  intro x r hr
  obtain ⟨i, j, d, hi, hj, hdd, rfl⟩ := dof_surj2 hr
  have hbd : c.F2.Bd (node2 c.nx i j * 2 + d) ↔ Bdry2 c.nx c.ny i j :=
    (F2_Bd _).trans (bdryDof2_iff hi hdd)
  refine ⟨fun hb => setBc2_bdry h1' hv hi hj hdd (hbd.mp hb), fun hb hx => ?_⟩
  have hb' : ¬ Bdry2 c.nx c.ny i j := fun h => hb (hbd.mpr h)
  have hB : ¬ (i = 0 ∨ i + 1 = c.nx ∨ j = 0 ∨ j + 1 = c.ny) := hb'
  rw [setBc2_int h1' h2'' hi hj hdd hb' (fun q hq => hx q ((F2_Bd q).mpr hq)),
    h1'' _ i j _ (by omega) hdd, hz0 _ _ hr, zero_add]
  simp only [sum_apply]
  have e := scatter_force (F := c.F2) (dim := 2) (hasB2 c)
    (en := fun e => enode2 c.nx e.1 e.2.1)
    (T := fun e gp k l => ctan2D (matOf c (c.el e.1 e.2.1 0)) k l)
    (Ae := fun e => elemMat2 c e.1 e.2.1)
    (by
      intro e a d hd
      simp only [edof2]
      rw [mul_add_div' hd, mul_add_mod' hd])
    (by
      intro e _ i j _ hj
      rw [← wg2D_eq]
      exact elemMat2_real hj)
    x (node2 c.nx i j) hdd
  refine Eq.trans ?_ e
  rw [sum_elems2]
  rfl

end Verif
