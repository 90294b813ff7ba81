import Verif.Lemmas.FemLaw
import Verif.Spec.Pcg

/-! # How far the residual determines the average stress -/

namespace Verif.Spec.Fe
open Finset

variable {F : Fe} {L : Nat × Nat × Nat → (Nat → ℝ) → Nat → ℝ}

theorem aveStress_lin (hL : F.Law L) (u w : Nat → ℝ) (a b : ℝ) {v : Nat} (hv : v < F.nvoi) :
    F.aveStress (F.stress L fun r => a * u r + b * w r) v
      = a * F.aveStress (F.stress L u) v + b * F.aveStress (F.stress L w) v := by
  unfold aveStress
  rw [integral_congr (g := fun e gp => a * F.stress L u e gp v + b * F.stress L w e gp v)
    fun e he gp _ => stress_lin hL he u w a b gp hv, integral_lin]
  ring

theorem aveStress_field (hF : F.Good) (hL : F.Law L) {u w : Nat → ℝ}
    (h : ∀ r, r < F.nn * F.dim → u r = w r) {v : Nat} (hv : v < F.nvoi) :
    F.aveStress (F.stress L u) v = F.aveStress (F.stress L w) v := by
  unfold aveStress
  congr 1
  exact integral_congr fun e he gp _ =>
    hL.cong e he _ _ (fun v hv => strain_congr hF h he gp hv) v hv

/-- The forces in the interior, zero on the boundary. -/
noncomputable def innerForce (F : Fe) (s : Nat × Nat × Nat → Nat → Nat → ℝ) (r : Nat) : ℝ :=
  if F.Bd r then 0 else F.force s r

theorem abs_le_norm2 {n q : Nat} {f : Nat → ℝ} (hq : q < n) : |f q| ≤ norm2 n f := by
  unfold norm2 dot
  rw [← Real.sqrt_sq_eq_abs]
  refine Real.sqrt_le_sqrt ?_
  rw [sq]
  exact single_le_sum (f := fun i => f i * f i) (fun i _ => mul_self_nonneg _) (mem_range.mpr hq)

/-- A field that vanishes on the boundary has an average stress bounded by its interior forces. -/
theorem aveStress_bound (hF : F.Good) (hL : F.Law L) :
    ∃ K : ℝ, 0 < K ∧ ∀ w : Nat → ℝ, (∀ r, r < F.nn * F.dim → F.Bd r → w r = 0) →
      ∀ v, v < F.nvoi → |F.aveStress (F.stress L w) v|
        ≤ K * norm2 (F.nn * F.dim) (F.innerForce (F.stress L w)) := by
  let N := F.nn * F.dim
  -- unit solutions
  have hsol : ∀ i : Nat, ∃ u : Nat → ℝ, (∀ r, r < N → F.Bd r → u r = 0) ∧
      ∀ r, r < N → ¬ F.Bd r → F.force (F.stress L u) r = if r = i then 1 else 0 :=
    fun i => exists_sol hF hL (fun _ => 0) fun r => if r = i then 1 else 0
  choose U hU0 hU1 using hsol
  let M := ∑ v ∈ range F.nvoi, ∑ i ∈ range N, |F.aveStress (F.stress L (U i)) v|
  have hM : 0 ≤ M := sum_nonneg fun _ _ => sum_nonneg fun _ _ => abs_nonneg _
  refine ⟨M + 1, by linarith, fun w hw v hv => ?_⟩
  set f := F.innerForce (F.stress L w) with hf
  -- superposition, over the first `n` dofs
  have sup : ∀ n, ∃ x : Nat → ℝ, (∀ r, r < N → F.Bd r → x r = 0) ∧
      (∀ r, r < N → ¬ F.Bd r → F.force (F.stress L x) r = if r < n then f r else 0) ∧
      F.aveStress (F.stress L x) v = ∑ i ∈ range n, f i * F.aveStress (F.stress L (U i)) v := by
    intro n
    induction n with
    | zero =>
      have h0 := force_lin hL w w 0 0
      have h1 := aveStress_lin hL w w 0 0 hv
      refine ⟨fun r => 0 * w r + 0 * w r, fun r _ _ => by ring, fun r _ _ => ?_, ?_⟩
      · rw [h0, if_neg (by omega)]; ring
      · rw [h1, range_zero, sum_empty]; ring
    | succ n ih =>
      obtain ⟨x, x0, x1, x2⟩ := ih
      refine ⟨fun r => 1 * x r + f n * U n r, fun r hr hb => ?_, fun r hr hb => ?_, ?_⟩
      · show 1 * x r + f n * U n r = 0
        rw [x0 r hr hb, hU0 n r hr hb]; ring
      · rw [force_lin hL, x1 r hr hb, hU1 n r hr hb]
        rcases lt_trichotomy r n with h | h | h
        · rw [if_pos h, if_neg (by omega), if_pos (by omega)]; ring
        · subst h; rw [if_neg (lt_irrefl _), if_pos rfl, if_pos (by omega)]; ring
        · rw [if_neg (by omega), if_neg (by omega), if_neg (by omega)]; ring
      · rw [aveStress_lin hL _ _ _ _ hv, x2, sum_range_succ]; ring
  obtain ⟨x, x0, x1, x2⟩ := sup N
  have hz : ∀ r, r < N → (fun r => 1 * w r + (-1) * x r) r = 0 := force_zero hF hL
    (fun r hr hb => by rw [hw r hr hb, x0 r hr hb]; ring)
    (fun r hr hb => by
      rw [force_lin hL, x1 r hr hb, if_pos hr, hf]
      unfold innerForce
      rw [if_neg hb]; ring)
  rw [aveStress_field hF hL (w := x) (fun r hr => by have := hz r hr; simp only at this; linarith) hv, x2]
  have hn : 0 ≤ norm2 N f := Real.sqrt_nonneg _
  calc |∑ i ∈ range N, f i * F.aveStress (F.stress L (U i)) v|
      ≤ ∑ i ∈ range N, |f i * F.aveStress (F.stress L (U i)) v| := abs_sum_le_sum_abs _ _
    _ ≤ ∑ i ∈ range N, norm2 N f * |F.aveStress (F.stress L (U i)) v| := by
        refine sum_le_sum fun i hi => ?_
        rw [abs_mul]
        exact mul_le_mul_of_nonneg_right (abs_le_norm2 (mem_range.mp hi)) (abs_nonneg _)
    _ = norm2 N f * ∑ i ∈ range N, |F.aveStress (F.stress L (U i)) v| := by rw [mul_sum]
    _ ≤ norm2 N f * M := by
        refine mul_le_mul_of_nonneg_left ?_ hn
        exact single_le_sum (f := fun v => ∑ i ∈ range N, |F.aveStress (F.stress L (U i)) v|)
          (fun v _ => sum_nonneg fun _ _ => abs_nonneg _) (mem_range.mpr hv)
    _ ≤ (M + 1) * norm2 N f := by nlinarith

end Verif.Spec.Fe
