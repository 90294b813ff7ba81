import Verif.Lemmas.Accuracy

/-! # Boundary values and interior forces bound a field and its average stress -/

namespace Verif.Spec.Fe
open Finset

variable {F : Fe} {L : Nat × Nat × Nat → (Nat → ℝ) → Nat → ℝ}

/-- A field and its average stress are bounded by its boundary values and interior forces. -/
theorem stable (hF : F.Good) (hL : F.Law L) :
    ∃ K : ℝ, 0 < K ∧ ∀ (w : Nat → ℝ) (B : ℝ), 0 ≤ B →
      (∀ r, r < F.nn * F.dim → F.Bd r → |w r| ≤ B) →
      (∀ r, r < F.nn * F.dim → ¬ F.Bd r → |F.force (F.stress L w) r| ≤ B) →
      (∀ r, r < F.nn * F.dim → |w r| ≤ K * B) ∧
      ∀ v, v < F.nvoi → |F.aveStress (F.stress L w) v| ≤ K * B := by
  let N := F.nn * F.dim
  have hsol : ∀ i : Nat, ∃ u : Nat → ℝ, (∀ r, r < N → F.Bd r → u r = if r = i then 1 else 0) ∧
      ∀ r, r < N → ¬ F.Bd r → F.force (F.stress L u) r = if r = i then 1 else 0 :=
    fun i => exists_sol hF hL (fun r => if r = i then 1 else 0) fun r => if r = i then 1 else 0
  choose U hU0 hU1 using hsol
  let M := ∑ v ∈ range F.nvoi, ∑ i ∈ range N, |F.aveStress (F.stress L (U i)) v|
  let M' := ∑ r ∈ range N, ∑ i ∈ range N, |U i r|
  have hM : 0 ≤ M := sum_nonneg fun _ _ => sum_nonneg fun _ _ => abs_nonneg _
  have hM' : 0 ≤ M' := sum_nonneg fun _ _ => sum_nonneg fun _ _ => abs_nonneg _
  refine ⟨M + M' + 1, by linarith, fun w B hB hb hf => ?_⟩
  let g : Nat → ℝ := fun r => if F.Bd r then w r else F.force (F.stress L w) r
  have hg : ∀ r, r < N → |g r| ≤ B := by
    intro r hr
    show |if F.Bd r then w r else F.force (F.stress L w) r| ≤ B
    split
    · exact hb r hr ‹_›
    · exact hf r hr ‹_›
  have sup : ∀ n, ∃ x : Nat → ℝ, (∀ r, r < N → F.Bd r → x r = if r < n then g r else 0) ∧
      (∀ r, r < N → ¬ F.Bd r → F.force (F.stress L x) r = if r < n then g r else 0) ∧
      (∀ r, x r = ∑ i ∈ range n, g i * U i r) ∧
      ∀ v, v < F.nvoi → F.aveStress (F.stress L x) v
        = ∑ i ∈ range n, g i * F.aveStress (F.stress L (U i)) v := by
    intro n
    induction n with
    | zero =>
      have h0 := force_lin hL w w 0 0
      refine ⟨fun r => 0 * w r + 0 * w r, fun r _ _ => ?_, fun r _ _ => ?_, fun r => ?_,
        fun v hv => ?_⟩
      · rw [if_neg (by omega)]; ring
      · rw [h0, if_neg (by omega)]; ring
      · rw [range_zero, sum_empty]; ring
      · rw [aveStress_lin hL w w 0 0 hv, range_zero, sum_empty]; ring
    | succ n ih =>
      obtain ⟨x, x0, x1, x2, x3⟩ := ih
      refine ⟨fun r => 1 * x r + g n * U n r, fun r hr hb => ?_, fun r hr hb => ?_, fun r => ?_,
        fun v hv => ?_⟩
      · show 1 * x r + g n * U n r = _
        rw [x0 r hr hb, hU0 n r hr hb]
        rcases lt_trichotomy r n with h | h | h
        · rw [if_pos h, if_neg (by omega), if_pos (by omega)]; ring
        · subst h; rw [if_neg (lt_irrefl _), if_pos rfl, if_pos (by omega)]; ring
        · rw [if_neg (by omega), if_neg (by omega), if_neg (by omega)]; ring
      · rw [force_lin hL, x1 r hr hb, hU1 n r hr hb]
        rcases lt_trichotomy r n with h | h | h
        · rw [if_pos h, if_neg (by omega), if_pos (by omega)]; ring
        · subst h; rw [if_neg (lt_irrefl _), if_pos rfl, if_pos (by omega)]; ring
        · rw [if_neg (by omega), if_neg (by omega), if_neg (by omega)]; ring
      · show 1 * x r + g n * U n r = _
        rw [x2, sum_range_succ]; ring
      · rw [aveStress_lin hL _ _ _ _ hv, x3 v hv, sum_range_succ]; ring
  obtain ⟨x, x0, x1, x2, x3⟩ := sup N
  have hz : ∀ r, r < N → (fun r => 1 * w r + (-1) * x r) r = 0 := force_zero hF hL
    (fun r hr hb => by
      show 1 * w r + (-1) * x r = 0
      rw [x0 r hr hb, if_pos hr]
      show 1 * w r + -1 * (if F.Bd r then w r else F.force (F.stress L w) r) = 0
      rw [if_pos hb]; ring)
    (fun r hr hb => by
      rw [force_lin hL, x1 r hr hb, if_pos hr]
      show 1 * F.force (F.stress L w) r + -1 * (if F.Bd r then w r else F.force (F.stress L w) r) = 0
      rw [if_neg hb]; ring)
  have hw : ∀ r, r < N → w r = x r := fun r hr => by have := hz r hr; simp only at this; linarith
  have bnd : ∀ a : Nat → ℝ, |∑ i ∈ range N, g i * a i| ≤ B * ∑ i ∈ range N, |a i| := by
    intro a
    rw [mul_sum]
    refine le_trans (abs_sum_le_sum_abs _ _) (sum_le_sum fun i hi => ?_)
    rw [abs_mul]
    exact mul_le_mul_of_nonneg_right (hg i (mem_range.mp hi)) (abs_nonneg _)
  constructor
  · intro r hr
    rw [hw r hr, x2]
    have h1 : ∑ i ∈ range N, |U i r| ≤ M' :=
      single_le_sum (f := fun r => ∑ i ∈ range N, |U i r|)
        (fun v _ => sum_nonneg fun _ _ => abs_nonneg _) (mem_range.mpr hr)
    refine le_trans (bnd _) ?_
    nlinarith [mul_nonneg hB hM, mul_le_mul_of_nonneg_left h1 hB]
  · intro v hv
    rw [aveStress_field hF hL (w := x) hw hv, x3 v hv]
    have h1 : ∑ i ∈ range N, |F.aveStress (F.stress L (U i)) v| ≤ M :=
      single_le_sum (f := fun v => ∑ i ∈ range N, |F.aveStress (F.stress L (U i)) v|)
        (fun v _ => sum_nonneg fun _ _ => abs_nonneg _) (mem_range.mpr hv)
    refine le_trans (bnd _) ?_
    nlinarith [mul_nonneg hB hM', mul_le_mul_of_nonneg_left h1 hB]

end Verif.Spec.Fe
