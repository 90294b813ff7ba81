import Verif.Lemmas.Built
import Verif.Lemmas.CellMat
import Verif.Lemmas.ElemVec
import Verif.Lemmas.Patch

/-!
# Finite elements: properties C19, C20, C23, C24, C25

Exact arithmetic.  `c.fe` is the grid of the specification (`Spec/Fem.lean`); an element is
`(ex, ey, ez)` with `ez = 0` in two dimensions.  The hypotheses `c.Ok`, `w.Ok c` say that the buffers
have the sizes the constructor gave them; `Lemmas/Built.lean` shows that every object reached by public
calls satisfies them, and `c.Geom`, `c.Elastic` for sensible constructor arguments.
-/

namespace Verif.Props
open Verif Spec Finset

variable {c : Cfg ℝ} {w : Work ℝ}

/-! ### C19 -/

/-- C19: `set_displ` gives every boundary dof the displacement `eps · X` of its node (`X` the node
coordinates, shear strains halved) and leaves every other displacement and every other buffer
unchanged. -/
theorem C19_displ (hc : c.Ok) (hg : c.Divided) (hu : w.u.size = c.nn * c.dim) (eps : Nat → ℝ) :
    ∃ u, setDispl c w eps = .ok { w with u := u } ∧ u.size = c.nn * c.dim ∧
      ∀ q, q < c.nn * c.dim → u.val q =
        if c.fe.Bd q then ∑ k ∈ range c.dim, c.fe.symGrad eps (q % c.dim) k * c.fe.coord (q / c.dim) k
        else w.u.val q := by
  obtain ⟨u, h1, h2, h3, h4⟩ := setDispl_real hc hg hu eps
  refine ⟨u, h1, h2, fun q hq => ?_⟩
  split
  · rename_i hb
    rw [h3 q (by rw [c.fe_nn hc]; exact hq) hb]
    unfold Fe.affine
    rw [c.fe_dim hc, zero_add]
  · rename_i hb
    exact h4 q fun h => hb h.2

example (eps : Nat → ℝ) := C19_displ ex3_ok ex3_geom.toDivided ex3_work.u eps
example (eps : Nat → ℝ) := C19_displ ex2_ok ex2_geom.toDivided ex2_work.u eps

/-- C19 for every scalar type: interior displacements keep their bits. -/
theorem C19_interior {α : Type} [Scalar α] {c : Cfg α} {w : Work α} (hc : c.Ok)
    (hu : w.u.size = c.nn * c.dim) (eps : Nat → α) :
    ∃ u, setDispl c w eps = .ok { w with u := u } ∧ u.size = c.nn * c.dim ∧
      ∀ q, ¬ (q < c.nn * c.dim ∧ (if c.dim = 2 then BdryDof2 2 c.nx c.ny q
        else BdryDof3 3 c.nx c.ny c.nz q)) → u.val q = w.u.val q := by
  rcases hc.dim with hd | hd
  · have hN : c.nn * c.dim = c.nx * c.ny * 2 := by rw [hc.nn2 hd, hd]
    refine ⟨_, setDispl2_eq hc hd (by rw [hu, hN]), hN.symm, fun q hq => ?_⟩
    rw [if_pos hd, hN] at hq
    exact if_neg hq
  · have hN : c.nn * c.dim = c.nx * c.ny * c.nz * 3 := by rw [hd]; rfl
    refine ⟨_, setDispl3_eq hc hd (by rw [hu, hN]), hN.symm, fun q hq => ?_⟩
    rw [if_neg (by omega), hN] at hq
    exact if_neg hq

example (eps : Nat → ℝ) := C19_interior ex3_ok ex3_work.u eps

/-! ### C20 -/

/-- The strain function of the object's dimension. -/
noncomputable def getStrain (c : Cfg ℝ) (u : Buf ℝ) (e : Nat × Nat × Nat) (gp : Nat) : M (Nat → ℝ) :=
  if c.dim = 2 then getStrain2D c u e.1 e.2.1 gp else getStrain3D c u e.1 e.2.1 e.2.2 gp

/-- C20: the code's strain is the symmetric gradient of the multilinear interpolation, at every Gauss
point of every element, for every displacement. -/
theorem C20_strain (hc : c.Ok) {u : Buf ℝ} (hu : u.size = c.nn * c.dim) {e : Nat × Nat × Nat}
    (he : e ∈ c.fe.elems) {gp : Nat} (hg : gp < c.npe) :
    ∃ s, getStrain c u e gp = .ok s ∧ ∀ v, v < c.nvoi → s v = c.fe.strain u.val e gp v := by
  obtain ⟨h1, h2, h3, h4⟩ := c.mem_elems hc he
  unfold getStrain
  rcases hc.dim with hd | hd
  · rw [if_pos hd]
    refine ⟨_, getStrain2D_eq (by rw [hu, hc.nn2 hd, hd]) h1 h2, fun v hv => ?_⟩
    have hv : v < 3 := by unfold Cfg.nvoi at hv; rw [if_pos hd] at hv; exact hv
    have hg : gp < 4 := by unfold Cfg.npe at hg; rw [if_pos hd] at hg; exact hg
    rw [Cfg.fe_2 hd]
    obtain ⟨ex, ey, ez⟩ := e
    obtain rfl : ez = 0 := h3 hd
    exact strain2_eq _ hg hv
  · rw [if_neg (by omega)]
    refine ⟨_, getStrain3D_eq (by rw [hu, hd]; rfl) h1 h2 (h4 hd), fun v hv => ?_⟩
    have hv : v < 6 := by unfold Cfg.nvoi at hv; rw [if_neg (by omega)] at hv; exact hv
    have hg : gp < 8 := by unfold Cfg.npe at hg; rw [if_neg (by omega)] at hg; exact hg
    rw [Cfg.fe_3 hd]
    exact strain3_eq _ hg hv

theorem ex3_elem : ((2, 1, 1) : Nat × Nat × Nat) ∈ ex3.cfg.fe.elems := by
  rw [Cfg.fe_3 ex3_dim]
  obtain ⟨h1, h2, h3⟩ := ex3_size
  simp only [Fe.elems, Cfg.F3, fe3, h1, h2, h3]
  decide

theorem ex2_elem : ((2, 1, 0) : Nat × Nat × Nat) ∈ ex2.cfg.fe.elems := by
  rw [Cfg.fe_2 ex2_dim]
  obtain ⟨h1, h2, h3⟩ := ex2_size
  simp only [Fe.elems, Cfg.F2, fe2, h1, h2]
  decide

theorem ex3_npe : 5 < ex3.cfg.npe := by unfold Cfg.npe; rw [ex3_dim]; decide
theorem ex2_npe : 3 < ex2.cfg.npe := by unfold Cfg.npe; rw [ex2_dim]; decide

example := C20_strain ex3_ok ex3_work.u ex3_elem ex3_npe
example := C20_strain ex2_ok ex2_work.u ex2_elem ex2_npe

/-- C20, patch test: for nodal displacements `t + G X` the code returns exactly the strain components
of `G` (normal strains, engineering shears); for a rigid motion (skew `G`) it returns zero.  Only
non-zero edges are needed. -/
theorem C20_patch (hc : c.Ok) (hx : c.dx ≠ 0) (hy : c.dy ≠ 0) (hz : c.dim = 3 → c.dz ≠ 0) {u : Buf ℝ}
    (hu : u.size = c.nn * c.dim) (G : Nat → Nat → ℝ) (t : Nat → ℝ)
    (h : ∀ q, q < c.nn * c.dim → u.val q =
      t (q % c.dim) + ∑ k ∈ range c.dim, G (q % c.dim) k * c.fe.coord (q / c.dim) k)
    {e : Nat × Nat × Nat} (he : e ∈ c.fe.elems) {gp : Nat} (hg : gp < c.npe) :
    ∃ s, getStrain c u e gp = .ok s ∧ (∀ v, v < c.nvoi → s v = voigt c.dim G v) ∧
      ((∀ i j, i < c.dim → j < c.dim → G i j = -G j i) → ∀ v, v < c.nvoi → s v = 0) := by
  obtain ⟨s, h1, h2⟩ := C20_strain hc hu he hg
  have hU : c.fe.unitGrid.Good := by
    rcases hc.dim with hd | hd
    · rw [Cfg.fe_2 hd]
      exact ⟨Or.inl ⟨rfl, rfl, rfl, rfl⟩, hc.nx, hc.ny, fun _ _ => one_pos⟩
    · have := hc.nz3 hd
      rw [Cfg.fe_3 hd]
      exact ⟨Or.inr ⟨rfl, rfl, rfl, by show 1 ≤ c.nz - 1; omega⟩, hc.nx, hc.ny, fun _ _ => one_pos⟩
  have hh : ∀ k, k < c.fe.dim → c.fe.h k ≠ 0 := by
    intro k hk
    rcases hc.dim with hd | hd
    · rw [Cfg.fe_2 hd]
      show (if k = 0 then c.dx else c.dy) ≠ 0
      split <;> assumption
    · rw [Cfg.fe_3 hd]
      show (if k = 0 then c.dx else if k = 1 then c.dy else c.dz) ≠ 0
      split
      · exact hx
      split
      · exact hy
      exact hz hd
  have h3 : ∀ v, v < c.nvoi → s v = voigt c.dim G v := by
    intro v hv
    have hv' : v < c.fe.nvoi := by rw [c.fe_nvoi]; exact hv
    rw [h2 v hv, ← c.fe_dim hc, ← Fe.strain_affine_ne hU hh G t he gp hv']
    have hgr : ∀ i j, i < c.fe.dim → j < c.fe.dim → c.fe.grad u.val e gp i j
        = c.fe.grad (c.fe.affine G t) e gp i j := by
      intro i j hi hj
      rw [Fe.grad_unit, Fe.grad_unit (u := c.fe.affine G t)]
      congr 1
      refine sum_congr rfl fun a ha => ?_
      congr 1
      have hq : c.fe.unitGrid.node e a * c.fe.unitGrid.dim + i < c.nn * c.dim := by
        rw [← c.fe_nn hc]
        exact mul_add_lt (Fe.node_lt hU he (mem_range.mp ha)) hi
      rw [h _ hq]
      unfold Fe.affine
      rw [c.fe_dim hc]
    exact Fe.voigt_congr (F := c.fe.unitGrid) hU hgr hv'
  refine ⟨s, h1, h3, fun hG v hv => ?_⟩
  rw [h3 v hv]
  have hnv : (c.dim = 2 ∧ c.nvoi = 3) ∨ (c.dim = 3 ∧ c.nvoi = 6) := by
    unfold Cfg.nvoi; rcases hc.dim with h | h <;> simp [h]
  unfold voigt
  split
  · rename_i hv; have := hG v v hv hv; linarith
  split
  · have := hG 0 1 (by omega) (by omega); linarith
  split
  · have := hG 0 2 (by omega) (by omega); linarith
  · have := hG 1 2 (by omega) (by omega); linarith

example (G : Nat → Nat → ℝ) (t : Nat → ℝ) :=
  C20_patch ex3_ok (ex3_geom.dx_pos ex3_ok).ne' (ex3_geom.dy_pos ex3_ok).ne'
    (fun h => (ex3_geom.dz_pos ex3_ok h).ne')
    (u := ⟨ex3.cfg.nn * ex3.cfg.dim, fun q => t (q % ex3.cfg.dim) + ∑ k ∈ range ex3.cfg.dim,
      G (q % ex3.cfg.dim) k * ex3.cfg.fe.coord (q / ex3.cfg.dim) k⟩)
    rfl G t (fun _ _ => rfl) ex3_elem ex3_npe

/-! ### C23 -/

/-- C23: for admissible elastic materials the code's element matrix is symmetric and positive
semidefinite; a displacement without energy has no strain at any Gauss point; and a displacement of one
corner only has no energy only if it is zero. -/
theorem C23_element (hc : c.Ok) (hg : c.Geom) (he : c.Elastic) (hw : w.Ok c)
    {e : Nat × Nat × Nat} (hm : e ∈ c.fe.elems) :
    ∃ Ke, ElemMatrix c w e Ke ∧
      (∀ i j, Ke i j = Ke j i) ∧
      ∀ x : Nat → ℝ,
        0 ≤ ∑ i ∈ range (c.npe * c.dim), ∑ j ∈ range (c.npe * c.dim), x i * Ke i j * x j ∧
        (∑ i ∈ range (c.npe * c.dim), ∑ j ∈ range (c.npe * c.dim), x i * Ke i j * x j = 0 →
          (∀ gp v, gp < c.npe → v < c.nvoi → c.fe.elemStrain x gp v = 0) ∧
          ∀ a, a < c.npe → (∀ b d, b < c.npe → b ≠ a → d < c.dim → x (b * c.dim + d) = 0) →
            ∀ d, d < c.dim → x (a * c.dim + d) = 0) := by
  refine ⟨c.Ke e, elemMatrix_Ke hc he.noPlast hw hm, c.Ke_sym hc he hm, fun x => ?_⟩
  have hF := c.good hc hg
  have hL := c.law_ok hc he
  have hE := c.Ke_vec hc hg he hm x
  have hd := c.fe_dim hc
  have hp : c.fe.npe = c.npe := c.fe_npe
  have hn : c.fe.nvoi = c.nvoi := c.fe_nvoi
  have hnn : ∀ gp ∈ range c.fe.npe, 0 ≤ c.fe.pair (c.law e (c.fe.elemStrain x gp))
      (c.fe.elemStrain x gp) * (c.fe.cell / c.fe.npe) := fun gp _ =>
    mul_nonneg (hL.nonneg hm _) (Fe.weight_pos hF).le
  rw [← hp, ← hd, ← hn]
  refine ⟨by rw [hE]; exact sum_nonneg hnn, fun h0 => ?_⟩
  rw [hE] at h0
  have h1 : ∀ gp v, gp < c.fe.npe → v < c.fe.nvoi → c.fe.elemStrain x gp v = 0 := by
    intro gp v hgp hv
    have h2 := (sum_eq_zero_iff_of_nonneg hnn).mp h0 gp (mem_range.mpr hgp)
    by_contra hne
    have := hL.pos e hm _ ⟨v, hv, hne⟩
    rcases mul_eq_zero.mp h2 with h | h
    · exact this.ne' h
    · exact (Fe.weight_pos hF).ne' h
  refine ⟨h1, fun a ha hz d hdd => ?_⟩
  obtain ⟨u, hu⟩ := c.realize hc hm x
  have hcor : ∀ b d, b < c.fe.npe → d < c.fe.dim →
      u (c.fe.node e b * c.fe.dim + d) = x (b * c.fe.dim + d) := by
    intro b d hb hd
    rw [← hu _ (mul_add_lt hb hd)]
    unfold Fe.dof
    rw [mul_add_div' hd, mul_add_mod' hd]
  rw [← hcor a d ha hdd]
  refine Fe.elem_rigid hF ha (gp := a) ha (fun b d hb hne hd => ?_) (fun v hv => ?_) d hdd
  · rw [hcor b d hb hd]; exact hz b d hb hne hd
  · rw [← elemStrain_eq hF u e a hv, elemStrain_congr hF hu a hv]
    exact h1 a v ha hv

example := C23_element ex3_ok ex3_geom ex3_elastic ex3_work ex3_elem
example := C23_element ex2_ok ex2_geom ex2_elastic ex2_work ex2_elem

/-! ### C24 -/

/-- C24, element: without plasticity the element residual is the element matrix times the element
displacement.  No condition on the elastic constants. -/
theorem C24_element (hc : c.Ok) (he : c.Linear) (hw : w.Ok c) {e : Nat × Nat × Nat}
    (hm : e ∈ c.fe.elems) :
    ∃ Ke be, ElemMatrix c w e Ke ∧ ElemResidual c w e be ∧
      ∀ i, be i = ∑ j ∈ range (c.npe * c.dim), Ke i j * w.u.val (c.fe.dof e j) := by
  refine ⟨c.Ke e, c.fint w e, elemMatrix_Ke hc he hw hm, elemResidual_fint hc hw hm, fun i => ?_⟩
  rw [← c.fe_npe, ← c.fe_dim hc]
  exact c.fint_linear hc he hm i

example := C24_element ex3_ok ex3_elastic.noPlast ex3_work ex3_elem
example := C24_element ex2_ok ex2_elastic.noPlast ex2_work ex2_elem

/-- C24, residual: `assembly_rhs` is zero on boundary dofs and minus the assembled element matrices
applied to the displacement on interior dofs; the returned value is its Euclidean norm; apart from
`b` and `vars_new` nothing changes. -/
theorem C24_residual (hc : c.Ok) (he : c.Linear) (hw : w.Ok c) :
    ∃ r, ∃ Ke : Nat × Nat × Nat → Nat → Nat → ℝ, assemblyRhs c w = .ok r ∧ (∀ e ∈ c.fe.elems, ElemMatrix c w e (Ke e)) ∧
      r.work = { w with b := r.work.b, varsNew := r.work.varsNew } ∧
      r.norm = norm2 (c.nn * c.dim) r.work.b.val ∧
      ∀ q, q < c.nn * c.dim → r.work.b.val q = if c.fe.Bd q then 0 else
        -∑ e ∈ c.fe.elems, ∑ i ∈ range (c.npe * c.dim), if c.fe.dof e i = q then
          ∑ j ∈ range (c.npe * c.dim), Ke e i j * w.u.val (c.fe.dof e j) else 0 := by
  obtain ⟨f, vn, nl, h1, -, -, h2⟩ := assemblyRhs_real hc hw
  refine ⟨_, c.Ke, h1, fun e hm => elemMatrix_Ke hc he hw hm, rfl, rfl, fun q hq => ?_⟩
  show f q = _
  rw [h2 q hq, c.force_linear hc he, c.force_Ke hc, c.fe_npe, c.fe_dim hc]

example := C24_residual ex3_ok ex3_elastic.noPlast ex3_work
example := C24_residual ex2_ok ex2_elastic.noPlast ex2_work

/-- C24, Newton step: the matrix of `assembly_mat` is the exact derivative of the residual for
corrections `x` that vanish on the boundary. -/
theorem C24_newton (hc : c.Ok) (hg : c.Geom) (he : c.Linear) (hw : w.Ok c) {w' : Work ℝ}
    (hw' : w'.Ok c) (x : Nat → ℝ) (hx : ∀ q, q < c.nn * c.dim → c.fe.Bd q → x q = 0)
    (hu : ∀ q, q < c.nn * c.dim → w'.u.val q = w.u.val q + x q) :
    ∃ m r r', assemblyMat c w = .ok m ∧ assemblyRhs c w = .ok r ∧ assemblyRhs c w' = .ok r' ∧
      ∀ q, q < c.nn * c.dim → r'.work.b.val q = r.work.b.val q - op m.A x q := by
  obtain ⟨f, vn, nl, h1, -, -, h2⟩ := assemblyRhs_real hc hw
  obtain ⟨f', vn', nl', h1', -, -, h2'⟩ := assemblyRhs_real hc hw'
  obtain ⟨A, vn'', h3, -, -, -, h4, h5⟩ := assemblyMat_real hc hg hw
  refine ⟨_, _, _, h3, h1, h1', fun q hq => ?_⟩
  show f' q = f q - op A x q
  rw [h2 q hq, h2' q hq]
  by_cases hb : c.fe.Bd q
  · rw [if_pos hb, if_pos hb, h4 x q hq hb, hx q hq hb, sub_zero]
  · rw [if_neg hb, if_neg hb, h5 he x (onI_inner.mpr hx) q hq hb, c.force_linear hc he,
      c.force_linear hc he, c.force_congr hc hg hu q, c.force_add hc]
    ring

example (x : Nat → ℝ) (hx : ∀ q, q < ex3.cfg.nn * ex3.cfg.dim → ex3.cfg.fe.Bd q → x q = 0) :=
  C24_newton ex3_ok ex3_geom ex3_elastic.noPlast ex3_work
    (w' := { ex3.work with u := ⟨ex3.cfg.nn * ex3.cfg.dim, fun q => ex3.work.u.val q + x q⟩ })
    ⟨rfl, ex3_work.du, ex3_work.b, ex3_work.elemStress, ex3_work.elemStrain, ex3_work.varsOld,
      ex3_work.varsNew, ex3_work.A2, ex3_work.A3⟩ x hx (fun _ _ => rfl)

/-! ### C25 -/

theorem dot_unit {n i : Nat} (hi : i < n) (f : Nat → ℝ) : dot n (Spec.unit i) f = f i := by
  unfold dot Spec.unit
  rw [sum_eq_single i]
  · rw [if_pos rfl, one_mul]
  · intro j _ hj; rw [if_neg hj, zero_mul]
  · intro h; exact absurd (mem_range.mpr hi) h

/-- C25, matrix: for admissible elastic materials the matrix of `assembly_mat` is linear, symmetric
and positive definite on the displacements vanishing on the boundary, is the identity on boundary
rows, and the slot of the preconditioner holds strictly positive diagonal entries. -/
theorem C25_spd (hc : c.Ok) (hg : c.Geom) (he : c.Elastic) (hw : w.Ok c) :
    ∃ m, assemblyMat c w = .ok m ∧
      SpdOn (c.nn * c.dim) {r ∈ range (c.nn * c.dim) | ¬ c.fe.Bd r} (op m.A) ∧
      ∀ n d, n < c.nn → d < c.dim →
        m.A.vals.val ((n * c.dim + d) * m.A.nnz + (c.diag * c.dim + d))
            = op m.A (Spec.unit (n * c.dim + d)) (n * c.dim + d) ∧
        0 < m.A.vals.val ((n * c.dim + d) * m.A.nnz + (c.diag * c.dim + d)) := by
  obtain ⟨A, vn, h1, h2, -, h3, h4, h5⟩ := assemblyMat_real hc hg hw
  have hspd : SpdOn (c.nn * c.dim) c.inner (op A) :=
    spd_real hc hg he (h2.wf hc).1 (h2.wf hc).2 h4 fun x hx r hr hb => by
      rw [h5 he.noPlast x hx r hr hb, c.force_law hc he]
  refine ⟨_, h1, hspd, fun n d hn hd => ⟨h3 n d hn hd, ?_⟩⟩
  show 0 < A.vals.val _
  rw [h3 n d hn hd]
  have hr : n * c.dim + d < c.nn * c.dim := mul_add_lt hn hd
  by_cases hb : c.fe.Bd (n * c.dim + d)
  · rw [h4 _ _ hr hb]; unfold Spec.unit; rw [if_pos rfl]; exact one_pos
  · rw [← dot_unit hr (op A (Spec.unit (n * c.dim + d)))]
    refine hspd.pos _ (onI_inner.mpr fun r _ h => ?_) ⟨_, hr, by unfold Spec.unit; rw [if_pos rfl]; exact one_ne_zero⟩
    unfold Spec.unit
    rw [if_neg]
    rintro rfl
    exact hb h

example := C25_spd ex3_ok ex3_geom ex3_elastic ex3_work
example := C25_spd ex2_ok ex2_geom ex2_elastic ex2_work

theorem norm2_zero {n : Nat} {f : Nat → ℝ} : norm2 n f = 0 ↔ ∀ i, i < n → f i = 0 := by
  unfold norm2 dot
  rw [Real.sqrt_eq_zero (sum_nonneg fun i _ => mul_self_nonneg _),
    sum_eq_zero_iff_of_nonneg fun i _ => mul_self_nonneg _]
  simp

/-- The residual that `assembly_rhs` computes is zero. -/
def ZeroResidual (c : Cfg ℝ) (w : Work ℝ) : Prop := ∃ r, assemblyRhs c w = .ok r ∧ r.norm = 0

theorem zeroResidual_iff (hc : c.Ok) (hw : w.Ok c) :
    ZeroResidual c w ↔ c.fe.Equil (c.sig w.u.val w.varsOld) := by
  obtain ⟨f, vn, nl, h1, -, -, h2⟩ := assemblyRhs_real hc hw
  unfold ZeroResidual Fe.Equil
  rw [c.fe_nn hc]
  constructor
  · rintro ⟨r, hr, h0⟩ q hq hb
    rw [h1] at hr
    cases hr
    have := norm2_zero.mp h0 q hq
    rw [h2 q hq, if_neg hb] at this
    linarith
  · intro h
    refine ⟨_, h1, norm2_zero.mpr fun q hq => ?_⟩
    rw [h2 q hq]
    split
    · rfl
    · rename_i hb; rw [h q hq hb, neg_zero]

theorem equil_law (hc : c.Ok) (he : c.Elastic) (u : Nat → ℝ) (vo : Buf ℝ) :
    c.fe.Equil (c.sig u vo) ↔ c.fe.Equil (c.fe.stress c.law u) := by
  unfold Fe.Equil
  simp only [c.force_elastic hc he]

theorem Work.Ok.setU (hw : w.Ok c) {u : Buf ℝ} (hu : u.size = c.nn * c.dim) :
    Work.Ok c { w with u := u } :=
  ⟨hu, hw.du, hw.b, hw.elemStress, hw.elemStrain, hw.varsOld, hw.varsNew, hw.A2, hw.A3⟩

/-- C25, solution: for every prescribed boundary displacement there is exactly one displacement with
zero residual. -/
theorem C25_solution (hc : c.Ok) (hg : c.Geom) (he : c.Elastic) (hw : w.Ok c) (g : Nat → ℝ) :
    (∃ u : Buf ℝ, u.size = c.nn * c.dim ∧ (∀ q, q < c.nn * c.dim → c.fe.Bd q → u.val q = g q) ∧
      ZeroResidual c { w with u := u }) ∧
    ∀ u u' : Buf ℝ, u.size = c.nn * c.dim → u'.size = c.nn * c.dim →
      (∀ q, q < c.nn * c.dim → c.fe.Bd q → u.val q = g q) →
      (∀ q, q < c.nn * c.dim → c.fe.Bd q → u'.val q = g q) →
      ZeroResidual c { w with u := u } → ZeroResidual c { w with u := u' } →
      ∀ q, q < c.nn * c.dim → u.val q = u'.val q := by
  have hF := c.good hc hg
  have hL := c.law_ok hc he
  have hN := c.fe_nn hc
  constructor
  · obtain ⟨u, h1, h2⟩ := Fe.exists_sol hF hL g fun _ => 0
    rw [hN] at h1 h2
    refine ⟨⟨c.nn * c.dim, u⟩, rfl, h1, ?_⟩
    rw [zeroResidual_iff hc (Work.Ok.setU hw rfl), equil_law hc he]
    intro r hr hb
    rw [hN] at hr
    exact h2 r hr hb
  · intro u u' hu hu' h1 h2 h3 h4
    rw [zeroResidual_iff hc (Work.Ok.setU hw hu), equil_law hc he] at h3
    rw [zeroResidual_iff hc (Work.Ok.setU hw hu'), equil_law hc he] at h4
    have := Fe.unique hF hL (u := u.val) (w := u'.val)
      (fun r hr hb => by rw [hN] at hr; rw [h1 r hr hb, h2 r hr hb]) h3 h4
    rw [hN] at this
    exact this

example (g : Nat → ℝ) := C25_solution ex3_ok ex3_geom ex3_elastic ex3_work g
example (g : Nat → ℝ) := C25_solution ex2_ok ex2_geom ex2_elastic ex2_work g

end Verif.Props
