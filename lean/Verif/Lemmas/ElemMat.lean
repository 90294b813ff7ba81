import Verif.Lemmas.CellMat

/-! # Element matrices and element residuals in exact arithmetic -/

namespace Verif
open Spec Finset

/-- Element matrix of a linear law. -/
noncomputable def elemStiff (F : Fe) (B : Nat → Nat → Nat → ℝ) (T : Nat → Nat → ℝ) (i j : Nat) : ℝ :=
  ∑ gp ∈ range F.npe, ∑ k ∈ range F.nvoi, B gp k i
    * (∑ l ∈ range F.nvoi, T k l * B gp l j) * (F.cell / F.npe)

theorem elemStiff_apply {F : Fe} {nd : Nat} {B : Nat → Nat → Nat → ℝ}
    {dof : Nat × Nat × Nat → Nat → Nat} (hB : HasB F nd B dof) (T : Nat → Nat → ℝ) (u : Nat → ℝ)
    {e : Nat × Nat × Nat} (he : e ∈ F.elems) (i : Nat) :
    ∑ j ∈ range nd, elemStiff F B T i j * u (dof e j)
      = ∑ gp ∈ range F.npe, ∑ v ∈ range F.nvoi, B gp v i
        * (∑ l ∈ range F.nvoi, T v l * F.strain u e gp l) * (F.cell / F.npe) := by
  unfold elemStiff
  simp only [sum_mul]
  rw [sum_comm]
  refine sum_congr rfl fun gp hg => ?_
  rw [sum_comm]
  refine sum_congr rfl fun v _ => ?_
  have : ∀ l ∈ range F.nvoi, T v l * F.strain u e gp l
      = ∑ j ∈ range nd, T v l * B gp l j * u (dof e j) := by
    intro l hl
    rw [hB u e he gp l (mem_range.mp hg) (mem_range.mp hl), mul_sum]
    exact sum_congr rfl fun _ _ => by ring
  rw [sum_congr rfl this, sum_comm, mul_sum, sum_mul]
  refine sum_congr rfl fun j _ => ?_
  rw [mul_sum, mul_sum, sum_mul, sum_mul, sum_mul]
  exact sum_congr rfl fun l _ => by ring

theorem elemStiff_energy {F : Fe} {nd : Nat} {B : Nat → Nat → Nat → ℝ}
    {dof : Nat × Nat × Nat → Nat → Nat} (hB : HasB F nd B dof) (T : Nat → Nat → ℝ) (u w : Nat → ℝ)
    {e : Nat × Nat × Nat} (he : e ∈ F.elems) :
    ∑ i ∈ range nd, ∑ j ∈ range nd, u (dof e i) * elemStiff F B T i j * w (dof e j)
      = ∑ gp ∈ range F.npe, F.pair (fun v => ∑ l ∈ range F.nvoi, T v l * F.strain w e gp l)
        (F.strain u e gp) * (F.cell / F.npe) := by
  have h1 : ∀ i ∈ range nd, ∑ j ∈ range nd, u (dof e i) * elemStiff F B T i j * w (dof e j)
      = ∑ gp ∈ range F.npe, ∑ v ∈ range F.nvoi, B gp v i * u (dof e i)
        * (∑ l ∈ range F.nvoi, T v l * F.strain w e gp l) * (F.cell / F.npe) := by
    intro i _
    have : ∀ j ∈ range nd, u (dof e i) * elemStiff F B T i j * w (dof e j)
        = u (dof e i) * (elemStiff F B T i j * w (dof e j)) := fun j _ => by ring
    rw [sum_congr rfl this, ← mul_sum, elemStiff_apply hB T w he, mul_sum]
    refine sum_congr rfl fun gp _ => ?_
    rw [mul_sum]
    exact sum_congr rfl fun v _ => by ring
  rw [sum_congr rfl h1, sum_comm]
  refine sum_congr rfl fun gp hg => ?_
  rw [sum_comm]
  unfold Fe.pair
  rw [sum_mul]
  refine sum_congr rfl fun v hv => ?_
  rw [hB u e he gp v (mem_range.mp hg) (mem_range.mp hv), mul_sum, sum_mul]
  exact sum_congr rfl fun i _ => by ring

variable {c : Cfg ℝ} {w : Work ℝ}

/-- The matrix of strain coefficients of the code. -/
noncomputable def Cfg.B (c : Cfg ℝ) (gp v i : Nat) : ℝ :=
  if c.dim = 2 then bmat2D c.dx c.dy gp v i else bmat3D c.dx c.dy c.dz gp v i

theorem Cfg.hasB (hc : c.Ok) : HasB c.fe (c.fe.npe * c.fe.dim) c.B c.fe.dof := by
  rcases hc.dim with hd | hd
  · rw [Cfg.fe_2 hd]
    intro u e he gp v hg hv
    rw [hasB2 c u e he gp v hg hv]
    refine sum_congr rfl fun i hi => ?_
    have hi : i < 8 := mem_range.mp hi
    unfold Cfg.B Fe.dof
    rw [if_pos hd]
    have h0 : e.2.2 = 0 := by
      have h : e.2.2 < 1 := (Fe.mem_elems.mp he).2.2
      omega
    show _ * u (enode2 c.nx e.1 e.2.1 (i / 2) * 2 + i % 2)
      = _ * u (enode3 c.nx c.ny e.1 e.2.1 e.2.2 (i / 2) * 2 + i % 2)
    rw [h0, ← enode2_eq c.nx c.ny e.1 e.2.1 (by omega)]
  · rw [Cfg.fe_3 hd]
    intro u e he gp v hg hv
    rw [hasB3 c u e he gp v hg hv]
    refine sum_congr rfl fun i _ => ?_
    unfold Cfg.B Fe.dof
    rw [if_neg (by omega)]
    rfl

/-- Element matrix of the code. -/
noncomputable def Cfg.Ke (c : Cfg ℝ) (e : Nat × Nat × Nat) (i j : Nat) : ℝ :=
  elemStiff c.fe c.B (c.tan e) i j

/-- Element residual of the code. -/
noncomputable def Cfg.fint (c : Cfg ℝ) (w : Work ℝ) (e : Nat × Nat × Nat) (i : Nat) : ℝ :=
  elemForce c.fe c.B (c.sig w.u.val w.varsOld) e i

theorem elemMatrix_Ke (hc : c.Ok) (he : c.Linear) (hw : Work.Ok c w) {e : Nat × Nat × Nat}
    (hm : e ∈ c.fe.elems) : ElemMatrix c w e (c.Ke e) := by
  obtain ⟨hx, hy, h2, h3⟩ := c.mem_elems hc hm
  constructor
  · intro hd
    refine ⟨_, getElemMat2D_eq hc hd hx hy, fun i j _ hj => ?_⟩
    show elemMat2 c e.1 e.2.1 (i * 8 + j) = _
    rw [elemMat2_real hj, wg2D_eq]
    unfold Cfg.Ke elemStiff Cfg.tan Cfg.B Cfg.matAt Cfg.el matOf
    simp only [hd, if_true]
    rw [h2 hd, Cfg.fe_2 hd]
    rfl
  · intro hd
    refine ⟨_, getElemMat3D_eq hc hd (hw.u3 hd) hw.varsOld hw.varsNew hx hy (h3 hd),
      fun i j _ hj => ?_⟩
    show elemMat3 c w.u.val w.varsOld e.1 e.2.1 e.2.2 (i * 24 + j) = _
    rw [elemMat3_real _ _ hj, wg3D_eq]
    have hp : (matOf c (c.el e.1 e.2.1 e.2.2)).plasticity = false := he.plast hd e
    unfold Cfg.Ke elemStiff Cfg.tan Cfg.B gpCtan
    simp only [hp, hd, Nat.reduceEqDiff, if_false]
    rw [Cfg.fe_3 hd]
    rfl

theorem elemResidual_fint (hc : c.Ok) (hw : Work.Ok c w) {e : Nat × Nat × Nat}
    (hm : e ∈ c.fe.elems) : ElemResidual c w e (c.fint w e) := by
  obtain ⟨hx, hy, h2, h3⟩ := c.mem_elems hc hm
  constructor
  · intro hd
    rw [getElemRhs2D_eq hc hd (hw.u2 hc hd) hx hy]
    congr 1
    funext i
    rw [elemRhs2_eq]
    unfold Cfg.fint elemForce Cfg.B Cfg.sig
    simp only [hd, if_true]
    rw [Cfg.fe_2 hd]
    rfl
  · intro hd nl
    refine ⟨_, getElemRhs3D_eq hc hd (hw.u3 hd) hw.varsOld hw.varsNew hx hy (h3 hd), ?_⟩
    funext i
    show elemRhs3 c w.u.val w.varsOld e.1 e.2.1 e.2.2 i = _
    rw [elemRhs3_eq]
    unfold Cfg.fint elemForce Cfg.B Cfg.sig
    simp only [hd, Nat.reduceEqDiff, if_false]
    rw [Cfg.fe_3 hd]
    rfl

theorem Cfg.fint_linear (hc : c.Ok) (he : c.Linear) {e : Nat × Nat × Nat} (hm : e ∈ c.fe.elems)
    (i : Nat) : c.fint w e i
      = ∑ j ∈ range (c.fe.npe * c.fe.dim), c.Ke e i j * w.u.val (c.fe.dof e j) := by
  unfold Cfg.fint Cfg.Ke elemForce
  rw [elemStiff_apply (c.hasB hc) _ _ hm]
  refine sum_congr rfl fun gp hg => sum_congr rfl fun v hv => ?_
  rw [Cfg.sig_linear hc he w.u.val w.varsOld hm (mem_range.mp hg) (mem_range.mp hv)]
  rfl

theorem Cfg.Ke_sym (hc : c.Ok) (he : c.Elastic) {e : Nat × Nat × Nat} (hm : e ∈ c.fe.elems)
    (i j : Nat) :
    c.Ke e i j = c.Ke e j i := by
  have hL := c.law_ok hc he
  have h : ∀ i j, c.Ke e i j = ∑ gp ∈ range c.fe.npe,
      c.fe.pair (c.law e (fun l => c.B gp l j)) (fun k => c.B gp k i) * (c.fe.cell / c.fe.npe) := by
    intro i j
    unfold Cfg.Ke elemStiff Fe.pair
    refine sum_congr rfl fun gp _ => ?_
    rw [sum_mul]
    refine sum_congr rfl fun k hk => ?_
    rw [← c.linLaw_law hc (he.at e).toLame _ (mem_range.mp hk)]
    unfold Cfg.linLaw
    ring
  rw [h, h]
  refine sum_congr rfl fun gp _ => ?_
  rw [hL.sym e hm]

/-- Energy of an element displacement. -/
theorem Cfg.Ke_energy (hc : c.Ok) (he : c.Elastic) {e : Nat × Nat × Nat} (hm : e ∈ c.fe.elems)
    (u : Nat → ℝ) :
    ∑ i ∈ range (c.fe.npe * c.fe.dim), ∑ j ∈ range (c.fe.npe * c.fe.dim),
      u (c.fe.dof e i) * c.Ke e i j * u (c.fe.dof e j)
      = ∑ gp ∈ range c.fe.npe,
        c.fe.pair (c.law e (c.fe.strain u e gp)) (c.fe.strain u e gp) * (c.fe.cell / c.fe.npe) := by
  unfold Cfg.Ke
  rw [elemStiff_energy (c.hasB hc) _ _ _ hm]
  refine sum_congr rfl fun gp _ => ?_
  congr 1
  exact Fe.pair_congr (fun v hv => c.linLaw_law hc (he.at e).toLame _ hv) fun _ _ => rfl

end Verif
