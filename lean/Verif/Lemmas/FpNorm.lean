import Verif.Lemmas.Fp
import Verif.Lemmas.FeEval
import Mathlib.Tactic.Linarith
import Mathlib.Tactic.Ring

/-! # The norm test in rounded arithmetic -/

namespace Verif.Spec
open Verif

variable {fp : Fp}

theorem Fl.lt_iff' (x y : Fl fp) : Scalar.lt x y = true ↔ x.val < y.val := Fl.lt_iff ..

theorem Fl.mul_self_nonneg (x : Fl fp) : 0 ≤ (x * x).val :=
  Fl.rnd_nonneg (_root_.mul_self_nonneg x.val)

/-- A rounded sum of rounded squares is at least each of them. -/
theorem sumSq_ge (r : Nat → Fl fp) (n : Nat) :
    0 ≤ (accum n (fun i s => s + r i * r i) (0 : Fl fp)).val ∧
    ∀ q, q < n → (r q * r q).val ≤ (accum n (fun i s => s + r i * r i) (0 : Fl fp)).val := by
  induction n with
  | zero => exact ⟨le_refl _, fun q hq => absurd hq (by omega)⟩
  | succ n ih =>
    obtain ⟨h1, h2⟩ := ih
    have hs : ∀ y : Fl fp, y.val ≤ (accum n (fun i s => s + r i * r i) (0 : Fl fp)).val + (r n * r n).val →
        y.val ≤ (accum (n + 1) (fun i s => s + r i * r i) (0 : Fl fp)).val := by
      intro y hy
      rw [← fp.fix _ y.mem]
      exact fp.mono hy
    have hp := Fl.mul_self_nonneg (r n)
    refine ⟨?_, fun q hq => ?_⟩
    · exact hs 0 (by show (0 : ℝ) ≤ _; linarith)
    · rcases Nat.lt_succ_iff_lt_or_eq.mp hq with h | h
      · exact hs _ (by linarith [h2 q h])
      · subst h; exact hs _ (by linarith)

/-- If the computed norm is at most the tolerance then so are, up to rounding, all entries. -/
theorem norm_small (hu : fp.u ≤ 1 / 8) (he : fp.eta ≤ fp.u ^ 2) {n : Nat} {r : Nat → Fl fp}
    {t : ℝ} (ht : 0 ≤ t) (h : (normOf n r).val ≤ fp.rnd t) {q : Nat} (hq : q < n) :
    |(r q).val| ≤ 2 * (t + fp.u) := by
  have hu0 := fp.u_nonneg
  obtain ⟨-, h2⟩ := sumSq_ge r n
  have h2 := h2 q hq
  set p := (r q * r q).val with hp
  have hp0 : 0 ≤ p := Fl.mul_self_nonneg _
  have h3 : fp.rnd (Real.sqrt p) ≤ (normOf n r).val := fp.mono (Real.sqrt_le_sqrt h2)
  have h4 := abs_le.mp (fp.err (Real.sqrt p))
  have h5 := abs_le.mp (fp.err t)
  have h6 := abs_le.mp (fp.err ((r q).val * (r q).val))
  have hs0 := Real.sqrt_nonneg p
  have hsq := Real.mul_self_sqrt hp0
  set s := Real.sqrt p
  rw [abs_of_nonneg hs0] at h4
  rw [abs_of_nonneg ht] at h5
  rw [abs_of_nonneg (_root_.mul_self_nonneg _)] at h6
  have h7 : (r q).val * (r q).val - fp.u * ((r q).val * (r q).val) - fp.eta ≤ p := by
    have : p = fp.rnd ((r q).val * (r q).val) := rfl
    linarith [h6.1]
  generalize (r q).val = x at *
  generalize fp.u = u at *
  generalize fp.eta = eta at *
  have hu2 : u ^ 2 ≤ u / 8 := by nlinarith
  have h8 : s ≤ 9 / 7 * t + 2 / 7 * u := by nlinarith [h4.1, h5.2]
  have h9 : s * s ≤ (9 / 7 * t + 2 / 7 * u) * (9 / 7 * t + 2 / 7 * u) :=
    mul_self_le_mul_self hs0 h8
  have h10 : 7 / 8 * (x * x) ≤ s * s + u ^ 2 := by
    rw [hsq]; nlinarith [_root_.mul_self_nonneg x]
  refine abs_le_of_sq_le_sq ?_ (by linarith)
  nlinarith [mul_nonneg ht hu0, _root_.mul_self_nonneg t]

end Verif.Spec
