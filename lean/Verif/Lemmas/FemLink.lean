import Verif.Lemmas.FemLaw
import Verif.Lemmas.FeEval2
import Verif.Spec.Pcg

/-! # The computed strains, forces and averages in exact arithmetic -/

namespace Verif
open Spec Finset

theorem sum_block (n m : Nat) (f : Nat → ℝ) :
    ∑ i ∈ range (n * m), f i = ∑ a ∈ range n, ∑ d ∈ range m, f (a * m + d) := by
  induction n with
  | zero => simp
  | succ n ih => rw [Nat.succ_mul, sum_range_add, ih, sum_range_succ]

theorem xg3D_eq {gp d : Nat} (hg : gp < 8) (hd : d < 3) :
    (xg3D gp d : ℝ) = gaussPoint * sgn d gp := by
  have e : (gaussX : ℝ) = gaussPoint := rfl
  interval_cases gp <;> interval_cases d <;>
    simp [xg3D, sgn, corner, cornerX, cornerY, cornerZ, e] <;> ring

theorem xg2D_eq {gp d : Nat} (hg : gp < 4) (hd : d < 2) :
    (xg2D gp d : ℝ) = gaussPoint * sgn d gp := by
  have e : (gaussX : ℝ) = gaussPoint := rfl
  interval_cases gp <;> interval_cases d <;>
    simp [xg2D, sgn, corner, cornerX, cornerY, e] <;> ring

set_option maxHeartbeats 1000000 in
theorem dsh3D_eq {dx dy dz : ℝ} {gp a d : Nat} (hg : gp < 8) (ha : a < 8) (hd : d < 3) :
    dsh3D dx dy dz gp a d
      = dShape 3 (fun k => if k = 0 then dx else if k = 1 then dy else dz) gp a d := by
  unfold dsh3D dShape
  rw [xg3D_eq hg (by omega), xg3D_eq hg (by omega), xg3D_eq hg (by omega)]
  interval_cases d
  · rw [Fe.erase3.1, prod_pair (by decide)]
    generalize gaussPoint * sgn 0 gp = x
    generalize gaussPoint * sgn 1 gp = y
    generalize gaussPoint * sgn 2 gp = z
    interval_cases a <;> simp [sgn, corner, cornerX, cornerY, cornerZ] <;> ring
  · rw [Fe.erase3.2.1, prod_pair (by decide)]
    generalize gaussPoint * sgn 0 gp = x
    generalize gaussPoint * sgn 1 gp = y
    generalize gaussPoint * sgn 2 gp = z
    interval_cases a <;> simp [sgn, corner, cornerX, cornerY, cornerZ] <;> ring
  · rw [Fe.erase3.2.2, prod_pair (by decide)]
    generalize gaussPoint * sgn 0 gp = x
    generalize gaussPoint * sgn 1 gp = y
    generalize gaussPoint * sgn 2 gp = z
    interval_cases a <;> simp [sgn, corner, cornerX, cornerY, cornerZ] <;> ring

theorem dsh2D_eq {dx dy : ℝ} {gp a d : Nat} (hg : gp < 4) (ha : a < 4) (hd : d < 2) :
    dsh2D dx dy gp a d = dShape 2 (fun k => if k = 0 then dx else dy) gp a d := by
  unfold dsh2D dShape
  rw [xg2D_eq hg (by omega), xg2D_eq hg (by omega)]
  interval_cases d
  · rw [Fe.erase2.1, prod_singleton]
    generalize gaussPoint * sgn 0 gp = x
    generalize gaussPoint * sgn 1 gp = y
    interval_cases a <;> simp [sgn, corner, cornerX, cornerY] <;> ring
  · rw [Fe.erase2.2, prod_singleton]
    generalize gaussPoint * sgn 0 gp = x
    generalize gaussPoint * sgn 1 gp = y
    interval_cases a <;> simp [sgn, corner, cornerX, cornerY] <;> ring

/-- The 3D grid of an object. -/
noncomputable abbrev Cfg.F3 (c : Cfg ℝ) : Fe := fe3 c.nx c.ny c.nz c.dx c.dy c.dz

/-- The 2D grid of an object. -/
noncomputable abbrev Cfg.F2 (c : Cfg ℝ) : Fe := fe2 c.nx c.ny c.dx c.dy

variable {c : Cfg ℝ}

theorem strain3_eq (u : Nat → ℝ) {ex ey ez gp v : Nat} (hg : gp < 8) (hv : v < 6) :
    strain3 c u ex ey ez gp v = c.F3.strain u (ex, ey, ez) gp v := by
  unfold strain3
  rw [accum_sum, zero_add, show 24 = 8 * 3 from rfl, sum_block]
  have e : ∀ a ∈ range 8, ∑ d ∈ range 3, bmat3D c.dx c.dy c.dz gp v (a * 3 + d)
        * u (edof3 c.nx c.ny ex ey ez (a * 3 + d))
      = voigt 3 (fun i j => dsh3D c.dx c.dy c.dz gp a j
        * u (enode3 c.nx c.ny ex ey ez a * 3 + i)) v := by
    intro a _
    have d0 : (a * 3 + 0) / 3 = a ∧ (a * 3 + 0) % 3 = 0 := by omega
    have d1 : (a * 3 + 1) / 3 = a ∧ (a * 3 + 1) % 3 = 1 := by omega
    have d2 : (a * 3 + 2) / 3 = a ∧ (a * 3 + 2) % 3 = 2 := by omega
    simp only [sum_range_succ, range_zero, sum_empty, zero_add, edof3, bmat3D, d0, d1, d2]
    interval_cases v <;> simp [voigt] <;> ring
  rw [sum_congr rfl e]
  unfold Fe.strain
  rw [Fe.sum_voigt]
  refine Fe.voigt_congr (F := fe3 2 2 2 1 1 1)
    (Fe.good_fe3 (le_refl 2) (le_refl 2) (le_refl 2) one_pos one_pos one_pos) ?_ hv
  intro i j _ hj
  unfold Fe.grad
  refine sum_congr rfl fun a ha => ?_
  rw [dsh3D_eq hg (mem_range.mp ha) hj]
  rfl

theorem enode2_eq (nx ny ex ey : Nat) {a : Nat} (ha : a < 4) :
    enode2 nx ex ey a = enode3 nx ny ex ey 0 a := by
  have : cornerZ a = 0 := by unfold cornerZ; omega
  simp [enode2, enode3, node2, node3, this]

theorem strain2_eq (u : Nat → ℝ) {ex ey gp v : Nat} (hg : gp < 4) (hv : v < 3) :
    strain2 c u ex ey gp v = c.F2.strain u (ex, ey, 0) gp v := by
  unfold strain2
  rw [accum_sum, zero_add, show 8 = 4 * 2 from rfl, sum_block]
  have e : ∀ a ∈ range 4, ∑ d ∈ range 2, bmat2D c.dx c.dy gp v (a * 2 + d)
        * u (edof2 c.nx ex ey (a * 2 + d))
      = voigt 2 (fun i j => dsh2D c.dx c.dy gp a j
        * u (enode2 c.nx ex ey a * 2 + i)) v := by
    intro a _
    have d0 : (a * 2 + 0) / 2 = a ∧ (a * 2 + 0) % 2 = 0 := by omega
    have d1 : (a * 2 + 1) / 2 = a ∧ (a * 2 + 1) % 2 = 1 := by omega
    simp only [sum_range_succ, range_zero, sum_empty, zero_add, edof2, bmat2D, d0, d1]
    interval_cases v <;> simp [voigt] <;> ring
  rw [sum_congr rfl e]
  unfold Fe.strain
  rw [Fe.sum_voigt]
  refine Fe.voigt_congr (F := fe2 2 2 1 1)
    (Fe.good_fe2 (le_refl 2) (le_refl 2) one_pos one_pos) ?_ hv
  intro i j _ hj
  unfold Fe.grad
  refine sum_congr rfl fun a ha => ?_
  rw [dsh2D_eq hg (mem_range.mp ha) hj, enode2_eq c.nx c.ny ex ey (mem_range.mp ha)]
  rfl

/-! ## Forces -/

/-- The strains are computed with a `B` matrix. -/
def HasB (F : Fe) (nd : Nat) (B : Nat → Nat → Nat → ℝ) (dof : Nat × Nat × Nat → Nat → Nat) : Prop :=
  ∀ u, ∀ e ∈ F.elems, ∀ gp v, gp < F.npe → v < F.nvoi →
    F.strain u e gp v = ∑ i ∈ range nd, B gp v i * u (dof e i)

/-- Element vector of a stress field. -/
noncomputable def elemForce (F : Fe) (B : Nat → Nat → Nat → ℝ)
    (s : Nat × Nat × Nat → Nat → Nat → ℝ) (e : Nat × Nat × Nat) (i : Nat) : ℝ :=
  ∑ gp ∈ range F.npe, ∑ v ∈ range F.nvoi, B gp v i * s e gp v * (F.cell / F.npe)

theorem force_eq {F : Fe} {nd : Nat} {B : Nat → Nat → Nat → ℝ} {dof : Nat × Nat × Nat → Nat → Nat}
    (hB : HasB F nd B dof) (s : Nat × Nat × Nat → Nat → Nat → ℝ) (q : Nat) :
    F.force s q = ∑ e ∈ F.elems, ∑ i ∈ range nd,
      if dof e i = q then elemForce F B s e i else 0 := by
  unfold Fe.force Fe.integral elemForce
  refine sum_congr rfl fun e he => ?_
  have h1 : ∀ i ∈ range nd, (if dof e i = q then ∑ gp ∈ range F.npe, ∑ v ∈ range F.nvoi,
        B gp v i * s e gp v * (F.cell / F.npe) else 0)
      = ∑ gp ∈ range F.npe, ∑ v ∈ range F.nvoi,
        B gp v i * (if dof e i = q then 1 else 0) * s e gp v * (F.cell / F.npe) := by
    intro i _
    split
    · simp
    · simp
  rw [sum_congr rfl h1, sum_comm]
  refine sum_congr rfl fun gp hg => ?_
  rw [sum_comm]
  unfold Fe.pair
  rw [sum_mul]
  refine sum_congr rfl fun v hv => ?_
  rw [hB _ e he gp v (mem_range.mp hg) (mem_range.mp hv), mul_sum, sum_mul]
  exact sum_congr rfl fun i _ => by ring

theorem hasB3 (c : Cfg ℝ) : HasB c.F3 24 (fun gp v i => bmat3D c.dx c.dy c.dz gp v i)
    (fun e i => edof3 c.nx c.ny e.1 e.2.1 e.2.2 i) := by
  intro u e _ gp v hg hv
  rw [← strain3_eq (c := c) u hg hv]
  unfold strain3
  rw [accum_sum, zero_add]

theorem hasB2 (c : Cfg ℝ) : HasB c.F2 8 (fun gp v i => bmat2D c.dx c.dy gp v i)
    (fun e i => edof2 c.nx e.1 e.2.1 i) := by
  intro u e he gp v hg hv
  have h0 : e = (e.1, e.2.1, 0) := by
    have := (Fe.mem_elems.mp he).2.2
    have h : e.2.2 < 1 := this
    ext <;> simp; omega
  rw [h0, ← strain2_eq (c := c) u hg hv]
  unfold strain2
  rw [accum_sum, zero_add]

theorem wg3D_eq (c : Cfg ℝ) : wg3D c = c.F3.cell / (c.F3.npe : ℝ) := by
  have h8 : (8.0 : ℝ) = 8 := by norm_num
  have : wg3D c = (1 / (8.0 : ℝ)) * c.dx * c.dy * c.dz := rfl
  rw [this, h8]
  simp only [Fe.cell, fe3, prod_range_succ, prod_range_zero]
  norm_num
  ring

theorem wg2D_eq (c : Cfg ℝ) : wg2D c = c.F2.cell / (c.F2.npe : ℝ) := by
  have h8 : (0.25 : ℝ) = 1 / 4 := by norm_num
  have : wg2D c = (0.25 : ℝ) * c.dx * c.dy := rfl
  rw [this, h8]
  simp only [Fe.cell, fe2, prod_range_succ, prod_range_zero]
  norm_num
  ring

theorem accum_fun {n : Nat} {β : Type} (f : Nat → β → ℝ) (a : β → ℝ) (x : β) :
    accum n (fun i (s : β → ℝ) y => s y + f i y) a x = a x + ∑ i ∈ range n, f i x := by
  induction n with
  | zero => simp [accum]
  | succ n ih => simp only [accum]; rw [ih, sum_range_succ, add_assoc]

theorem scatterVal_real (n : Nat) (index : Nat → Nat) (be f : Nat → ℝ) (k : Nat) :
    scatterVal n index be f k = f k + ∑ i ∈ range n, if index i = k then be i else 0 := by
  unfold scatterVal
  rw [← accum_fun (fun i k => if index i = k then be i else 0)]
  refine congrFun (accum_congr (fun i s _ => ?_) _) k
  funext y
  by_cases h : y = index i
  · subst h; simp
  · rw [if_neg h, if_neg (Ne.symm h), add_zero]

theorem elemRhs3_eq (u : Nat → ℝ) (vo : Buf ℝ) (ex ey ez i : Nat) :
    elemRhs3 c u vo ex ey ez i
      = elemForce c.F3 (fun gp v i => bmat3D c.dx c.dy c.dz gp v i)
        (fun e gp v => gpSig c u vo e.1 e.2.1 e.2.2 gp v) (ex, ey, ez) i := by
  unfold elemRhs3 elemForce
  simp only [accum_sum]
  rw [accum_fun, zero_add, wg3D_eq]
  rfl

theorem elemRhs2_eq (u : Nat → ℝ) (ex ey i : Nat) :
    elemRhs2 c u ex ey i
      = elemForce c.F2 (fun gp v i => bmat2D c.dx c.dy gp v i)
        (fun e gp v => sig2 (matOf c (c.el e.1 e.2.1 0)) (strain2 c u e.1 e.2.1 gp) v)
        (ex, ey, 0) i := by
  unfold elemRhs2 elemForce
  simp only [accum_sum]
  rw [accum_fun, zero_add, wg2D_eq]
  rfl

theorem accum3_fun {a b d : Nat} (f : Nat → Nat → Nat → Nat → ℝ) (g : Nat → ℝ) (x : Nat) :
    accum3 a b d (fun i j k (s : Nat → ℝ) y => s y + f i j k y) g x
      = g x + ∑ e ∈ range a ×ˢ range b ×ˢ range d, f e.1 e.2.1 e.2.2 x := by
  have h1 : ∀ i j (s : Nat → ℝ), accum d (fun k (s : Nat → ℝ) y => s y + f i j k y) s
      = fun y => s y + ∑ k ∈ range d, f i j k y := by
    intro i j s; funext y; exact accum_fun (fun k y => f i j k y) s y
  have h2 : ∀ i (s : Nat → ℝ), accum b (fun j (s : Nat → ℝ) y => s y + ∑ k ∈ range d, f i j k y) s
      = fun y => s y + ∑ j ∈ range b, ∑ k ∈ range d, f i j k y := by
    intro i s; funext y; exact accum_fun (fun j y => ∑ k ∈ range d, f i j k y) s y
  unfold accum3
  simp only [h1, h2]
  rw [accum_fun]
  simp only [sum_product]

theorem accum2_fun {a b : Nat} (f : Nat → Nat → Nat → ℝ) (g : Nat → ℝ) (x : Nat) :
    accum2 a b (fun i j (s : Nat → ℝ) y => s y + f i j y) g x
      = g x + ∑ i ∈ range a, ∑ j ∈ range b, f i j x := by
  have h2 : ∀ i (s : Nat → ℝ), accum b (fun j (s : Nat → ℝ) y => s y + f i j y) s
      = fun y => s y + ∑ j ∈ range b, f i j y := by
    intro i s; funext y; exact accum_fun (fun j y => f i j y) s y
  unfold accum2
  simp only [h2]
  rw [accum_fun]

/-- Stress field of a displacement, 3D. -/
noncomputable def Cfg.sigF3 (c : Cfg ℝ) (u : Nat → ℝ) (vo : Buf ℝ) (e : Nat × Nat × Nat)
    (gp v : Nat) : ℝ := gpSig c u vo e.1 e.2.1 e.2.2 gp v

/-- Stress field of a displacement, 2D. -/
noncomputable def Cfg.sigF2 (c : Cfg ℝ) (u : Nat → ℝ) (e : Nat × Nat × Nat) (gp v : Nat) : ℝ :=
  sig2 (matOf c (c.el e.1 e.2.1 0)) (strain2 c u e.1 e.2.1 gp) v

theorem fint3_eq (u : Nat → ℝ) (vo : Buf ℝ) (f : Nat → ℝ) (q : Nat) :
    fint3 c u vo f q = f q + c.F3.force (c.sigF3 u vo) q := by
  rw [force_eq (hasB3 c)]
  unfold fint3
  have e : (fun ex ey ez f => scatterVal 24 (edof3 c.nx c.ny ex ey ez) (elemRhs3 c u vo ex ey ez) f)
      = fun ex ey ez (s : Nat → ℝ) y => s y + ∑ i ∈ range 24,
        if edof3 c.nx c.ny ex ey ez i = y then elemRhs3 c u vo ex ey ez i else 0 := by
    funext ex ey ez s y; exact scatterVal_real ..
  rw [e, accum3_fun]
  simp only [elemRhs3_eq]
  rfl

theorem sum_elems2 (f : Nat × Nat × Nat → ℝ) :
    ∑ e ∈ c.F2.elems, f e = ∑ i ∈ range (c.nx - 1), ∑ j ∈ range (c.ny - 1), f (i, j, 0) := by
  unfold Fe.elems
  simp [sum_product, fe2]

theorem fint2_eq (u : Nat → ℝ) (f : Nat → ℝ) (q : Nat) :
    fint2 c u f q = f q + c.F2.force (c.sigF2 u) q := by
  rw [force_eq (hasB2 c)]
  unfold fint2
  have e : (fun ex ey f => scatterVal 8 (edof2 c.nx ex ey) (elemRhs2 c u ex ey) f)
      = fun ex ey (s : Nat → ℝ) y => s y + ∑ i ∈ range 8,
        if edof2 c.nx ex ey i = y then elemRhs2 c u ex ey i else 0 := by
    funext ex ey s y; exact scatterVal_real ..
  rw [e, accum2_fun, sum_elems2]
  simp only [elemRhs2_eq]
  rfl

theorem F3_Bd (hz : 2 ≤ c.nz) (q : Nat) : c.F3.Bd q ↔ BdryDof3 3 c.nx c.ny c.nz q := by
  unfold Fe.Bd
  have : c.F3.layers + 1 = c.nz := by simp only [fe3]; omega
  rw [this]
  simp [fe3]

theorem F2_Bd (q : Nat) : c.F2.Bd q ↔ BdryDof2 2 c.nx c.ny q := by
  unfold Fe.Bd
  simp [fe2]

theorem F3_nn (hz : 2 ≤ c.nz) : c.F3.nn * c.F3.dim = c.nx * c.ny * c.nz * 3 := by
  unfold Fe.nn
  have : c.F3.layers + 1 = c.nz := by simp only [fe3]; omega
  rw [this]
  simp [fe3]

theorem F2_nn : c.F2.nn * c.F2.dim = c.nx * c.ny * 2 := by
  unfold Fe.nn; simp [fe2]

theorem resid3_eq (hz : 2 ≤ c.nz) (u : Nat → ℝ) (vo : Buf ℝ) (f0 : Nat → ℝ) {q : Nat}
    (hq : q < c.nx * c.ny * c.nz * 3) :
    resid3 c u vo f0 q = if c.F3.Bd q then 0 else -c.F3.force (c.sigF3 u vo) q := by
  unfold resid3
  simp only [hq, if_true, fint3_eq, zero_add]
  by_cases h : BdryDof3 3 c.nx c.ny c.nz q
  · rw [if_pos h, if_pos ((F3_Bd hz q).mpr h), neg_zero]
  · rw [if_neg h, if_neg (fun h' => h ((F3_Bd hz q).mp h'))]

theorem resid2_eq (u : Nat → ℝ) (f0 : Nat → ℝ) {q : Nat} (hq : q < c.nx * c.ny * 2) :
    resid2 c u f0 q = if c.F2.Bd q then 0 else -c.F2.force (c.sigF2 u) q := by
  unfold resid2
  simp only [hq, if_true, fint2_eq, zero_add]
  by_cases h : BdryDof2 2 c.nx c.ny q
  · rw [if_pos h, if_pos ((F2_Bd q).mpr h), neg_zero]
  · rw [if_neg h, if_neg (fun h' => h ((F2_Bd q).mp h'))]

theorem normOf_real (n : Nat) (f : Nat → ℝ) : normOf n f = norm2 n f := by
  unfold normOf norm2 dot
  rw [accum_sum, zero_add]; rfl

/-! ## Averages -/

theorem aveSig3_eq (u : Nat → ℝ) (vo : Buf ℝ) (v : Nat) :
    aveSig3 c u vo v = c.F3.integral (fun e gp => c.sigF3 u vo e gp v) := by
  unfold aveSig3 Fe.integral
  rw [accum3_fun (fun ex ey ez v => accum 8 (fun gp (b : Nat → ℝ) v => b v
    + gpSig c u vo ex ey ez gp v * wg3D c) (fun _ => 0) v), zero_add]
  refine sum_congr rfl fun e _ => ?_
  rw [accum_fun, zero_add, wg3D_eq]
  rfl

theorem aveEps3_eq (u : Nat → ℝ) {v : Nat} (hv : v < 6) :
    aveEps3 c u v = c.F3.integral (fun e gp => c.F3.strain u e gp v) := by
  unfold aveEps3 Fe.integral
  rw [accum3_fun (fun ex ey ez v => accum 8 (fun gp (b : Nat → ℝ) v => b v
    + strain3 c u ex ey ez gp v * wg3D c) (fun _ => 0) v), zero_add]
  refine sum_congr rfl fun e _ => ?_
  rw [accum_fun, zero_add, wg3D_eq]
  exact sum_congr rfl fun gp hg => by rw [strain3_eq u (mem_range.mp hg) hv]

theorem aveSig2_eq (u : Nat → ℝ) (v : Nat) :
    aveSig2 c u v = c.F2.integral (fun e gp => c.sigF2 u e gp v) := by
  unfold aveSig2 Fe.integral
  rw [accum2_fun (fun ex ey v => accum 4 (fun gp (b : Nat → ℝ) v => b v
    + sig2 (matOf c (c.el ex ey 0)) (strain2 c u ex ey gp) v * wg2D c) (fun _ => 0) v), zero_add,
    sum_elems2]
  refine sum_congr rfl fun e _ => sum_congr rfl fun e' _ => ?_
  rw [accum_fun, zero_add, wg2D_eq]
  rfl

theorem aveEps2_eq (u : Nat → ℝ) {v : Nat} (hv : v < 3) :
    aveEps2 c u v = c.F2.integral (fun e gp => c.F2.strain u e gp v) := by
  unfold aveEps2 Fe.integral
  rw [accum2_fun (fun ex ey v => accum 4 (fun gp (b : Nat → ℝ) v => b v
    + strain2 c u ex ey gp v * wg2D c) (fun _ => 0) v), zero_add, sum_elems2]
  refine sum_congr rfl fun e _ => sum_congr rfl fun e' _ => ?_
  rw [accum_fun, zero_add, wg2D_eq]
  exact sum_congr rfl fun gp hg => by rw [strain2_eq u (mem_range.mp hg) hv]

end Verif
