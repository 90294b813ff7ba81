import Verif.Lemmas.Cell
import Verif.Lemmas.CgRun

/-! # The assembled matrix of an object, 2D and 3D together -/

namespace Verif
open Spec Finset

variable {c : Cfg ℝ}

theorem Cfg.mem_inner {r : Nat} : r ∈ c.inner ↔ r < c.nn * c.dim ∧ ¬ c.fe.Bd r := by
  unfold Cfg.inner; rw [mem_filter, mem_range]

theorem onI_inner {x : Nat → ℝ} :
    OnI (c.nn * c.dim) c.inner x ↔ ∀ r, r < c.nn * c.dim → c.fe.Bd r → x r = 0 := by
  unfold OnI
  constructor
  · intro h r hr hb; exact h r hr (fun hm => (Cfg.mem_inner.mp hm).2 hb)
  · intro h r hr hm
    by_cases hb : c.fe.Bd r
    · exact h r hr hb
    · exact absurd (Cfg.mem_inner.mpr ⟨hr, hb⟩) hm

theorem Cfg.force_congr (hc : c.Ok) (hg : c.Geom) {u w : Nat → ℝ}
    (h : ∀ r, r < c.nn * c.dim → u r = w r) (r : Nat) :
    c.fe.force (c.fe.stress c.linLaw u) r = c.fe.force (c.fe.stress c.linLaw w) r := by
  unfold Fe.force
  refine Fe.integral_congr fun e he gp _ => ?_
  refine Fe.pair_congr (fun v hv => ?_) fun _ _ => rfl
  unfold Fe.stress Cfg.linLaw
  refine sum_congr rfl fun l hl => ?_
  rw [Fe.strain_congr (c.good hc hg) (fun r hr => h r (by rw [← c.fe_nn hc]; exact hr)) he gp
    (mem_range.mp hl)]

theorem Cfg.force_law (hc : c.Ok) (he : c.Elastic) (u : Nat → ℝ) (r : Nat) :
    c.fe.force (c.fe.stress c.linLaw u) r = c.fe.force (c.fe.stress c.law u) r := by
  unfold Fe.force
  refine Fe.integral_congr fun e hm gp _ => ?_
  exact Fe.pair_congr (fun v hv => c.linLaw_law hc (he.at e).toLame _ hv) fun _ _ => rfl

/-- `assembly_mat` in exact arithmetic: boundary rows are rows of the identity; for linear
materials the interior rows give the nodal forces of fields vanishing on the boundary. -/
theorem assemblyMat_real (hc : c.Ok) (hg : c.Geom) {w : Work ℝ} (hw : w.Ok c) :
    ∃ A vn, assemblyMat c w = .ok { w with A := A, varsNew := vn } ∧
      Work.Ok c { w with A := A, varsNew := vn } ∧ SameElastic c w.varsNew vn ∧
      DiagSlot A c.dim c.nn c.diag ∧
      (∀ x r, r < c.nn * c.dim → c.fe.Bd r → op A x r = x r) ∧
      (c.Linear → ∀ x, OnI (c.nn * c.dim) c.inner x → ∀ r, r < c.nn * c.dim → ¬ c.fe.Bd r →
        op A x r = c.fe.force (c.fe.stress c.linLaw x) r) := by
  have hF := c.good hc hg
  rcases hc.dim with hd | hd
  · have hN : c.nn * c.dim = c.nx * c.ny * 2 := by rw [hc.nn2 hd, hd]
    obtain ⟨A, h1, h2, h3, h4⟩ := assemblyMat2_op hc hd hw
    refine ⟨A, w.varsNew, h1, ?_, SameElastic.rfl', ?_, ?_, ?_⟩
    · exact ⟨hw.u, hw.du, hw.b, hw.elemStress, hw.elemStrain, hw.varsOld, hw.varsNew,
        fun _ => h2, fun h => by omega⟩
    · unfold Cfg.diag; rw [if_pos hd, hc.nn2 hd, hd]; exact h3
    · intro x r hr hb
      rw [Cfg.fe_2 hd] at hb
      exact (h4 x r (by rw [← hN]; exact hr)).1 hb
    · intro he x hx r hr hb
      let x' : Nat → ℝ := fun q => if q < c.nn * c.dim then x q else 0
      have hxx : ∀ q, q < c.nn * c.dim → x q = x' q := fun q hq => by
        simp only [x']; rw [if_pos hq]
      have hA : A.nrow = c.nn * c.dim := by rw [h2.nrow, hN]
      rw [op_local h2.wf (v := x') (fun q hq => hxx q (by rw [← hA]; exact hq)) r (by rw [hA]; exact hr)]
      rw [c.force_congr hc hg (w := x') hxx r]
      have hx' : ∀ q, c.F2.Bd q → x' q = 0 := by
        intro q hq
        simp only [x']
        split
        · rename_i h; exact onI_inner.mp hx q h (by rw [Cfg.fe_2 hd]; exact hq)
        · rfl
      have hb' : ¬ c.F2.Bd r := by rw [Cfg.fe_2 hd] at hb; exact hb
      rw [(h4 x' r (by rw [← hN]; exact hr)).2 hb' hx', ← Cfg.fe_2 hd]
      unfold Fe.force
      refine Fe.integral_congr fun e hm gp hgp => ?_
      unfold Fe.pair
      refine sum_congr rfl fun v hv => ?_
      have hv := mem_range.mp hv
      congr 1
      unfold Fe.stress Cfg.linLaw Cfg.tan
      obtain ⟨-, -, h5, -⟩ := c.mem_elems hc hm
      unfold Cfg.matAt matOf Cfg.el
      simp only [hd, if_true]
      rw [h5 hd, Cfg.fe_2 hd]
      rfl
  · have hN : c.nn * c.dim = c.nx * c.ny * c.nz * 3 := by rw [hd]; rfl
    obtain ⟨A, vn, h1, h2, h3, h4, h5, h6⟩ := assemblyMat3_op hc hd hw
    refine ⟨A, vn, h1, ?_, h4, ?_, ?_, ?_⟩
    · exact ⟨hw.u, hw.du, hw.b, hw.elemStress, hw.elemStrain, hw.varsOld, h3,
        fun h => by omega, fun _ => h2⟩
    · unfold Cfg.diag; rw [if_neg (by omega), hd]; exact h5
    · intro x r hr hb
      rw [Cfg.fe_3 hd] at hb
      rw [h6 x r (by rw [← hN]; exact hr), if_pos hb]
    · intro he x hx r hr hb
      have hb' : ¬ c.F3.Bd r := by rw [Cfg.fe_3 hd] at hb; exact hb
      rw [h6 x r (by rw [← hN]; exact hr), if_neg hb']
      rw [c.force_congr hc hg (w := mask c.F3.Bd x) (fun q hq => by
        unfold mask
        split
        · rename_i h
          exact onI_inner.mp hx q hq (by rw [Cfg.fe_3 hd]; exact h)
        · rfl) r, ← Cfg.fe_3 hd]
      unfold Fe.force
      refine Fe.integral_congr fun e hm gp hgp => ?_
      unfold Fe.pair
      refine sum_congr rfl fun v hv => ?_
      have hv := mem_range.mp hv
      congr 1
      unfold Fe.stress Cfg.linLaw Cfg.tan
      simp only [hd, Nat.reduceEqDiff, if_false]
      have hp : (matOf c (c.el e.1 e.2.1 e.2.2)).plasticity = false := he.plast hd e
      unfold gpCtan
      simp only [hp]
      rw [Cfg.fe_3 hd]
      rfl

/-- Positive definiteness. -/
theorem spd_real (hc : c.Ok) (hg : c.Geom) (he : c.Elastic) {A : Ell ℝ} (hA : A.WF)
    (hn : A.nrow = c.nn * c.dim)
    (h1 : ∀ x r, r < c.nn * c.dim → c.fe.Bd r → op A x r = x r)
    (h2 : ∀ x, OnI (c.nn * c.dim) c.inner x → ∀ r, r < c.nn * c.dim → ¬ c.fe.Bd r →
        op A x r = c.fe.force (c.fe.stress c.law x) r) :
    SpdOn (c.nn * c.dim) c.inner (op A) := by
  have hF := c.good hc hg
  have hL := c.law_ok hc he
  have key : ∀ u v, OnI (c.nn * c.dim) c.inner u → OnI (c.nn * c.dim) c.inner v →
      dot (c.nn * c.dim) u (op A v) = c.fe.bil c.law v u := by
    intro u v hu hv
    rw [← Fe.bil_force hF, c.fe_nn hc]
    unfold dot
    refine sum_congr rfl fun r hr => ?_
    have hr := mem_range.mp hr
    by_cases hb : c.fe.Bd r
    · rw [onI_inner.mp hu r hr hb]; ring
    · rw [h2 v hv r hr hb]; ring
  refine ⟨fun r hr => mem_range.mpr (Cfg.mem_inner.mp hr).1, ?_, fun u v a i => op_lin A u v a i,
    ?_, ?_, ?_⟩
  · intro u v h i hi
    exact op_local hA (fun i hi => h i (by rw [← hn]; exact hi)) i (by rw [hn]; exact hi)
  · intro u i hi hm
    refine h1 u i hi ?_
    by_contra hb
    exact hm (Cfg.mem_inner.mpr ⟨hi, hb⟩)
  · intro u v hu hv
    rw [key u v hu hv]
    have : dot (c.nn * c.dim) (op A u) v = dot (c.nn * c.dim) v (op A u) := by
      unfold dot; exact sum_congr rfl fun _ _ => mul_comm _ _
    rw [this, key v u hv hu, Fe.bil_sym hL]
  · intro u hu hne
    rw [key u u hu hu]
    rw [← c.fe_nn hc] at hne
    exact Fe.bil_pos hF hL (fun r hr hb => onI_inner.mp hu r (by rw [← c.fe_nn hc]; exact hr) hb) hne

end Verif
