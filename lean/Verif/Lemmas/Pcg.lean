import Verif.Spec.Pcg
import Mathlib.LinearAlgebra.FiniteDimensional.Lemmas
import Mathlib.LinearAlgebra.Dimension.Constructions
import Mathlib.Tactic.Ring
import Mathlib.Tactic.Linarith
import Mathlib.Tactic.FieldSimp
import Mathlib.Tactic.LinearCombination
import Mathlib.Algebra.Order.BigOperators.Ring.Finset

/-! # Theory of preconditioned conjugate gradients -/

namespace Verif
open Spec Finset

section dots
variable {n : Nat}

theorem dot_congr {u u' v v' : Nat → ℝ} (hu : ∀ i, i < n → u i = u' i)
    (hv : ∀ i, i < n → v i = v' i) : dot n u v = dot n u' v' :=
  sum_congr rfl fun i hi => by rw [hu i (mem_range.mp hi), hv i (mem_range.mp hi)]

theorem dot_comm (u v : Nat → ℝ) : dot n u v = dot n v u :=
  sum_congr rfl fun i _ => mul_comm _ _

theorem dot_add_mul (u v w : Nat → ℝ) (c : ℝ) :
    dot n (fun i => u i + c * v i) w = dot n u w + c * dot n v w := by
  unfold dot; rw [mul_sum, ← sum_add_distrib]; exact sum_congr rfl fun i _ => by ring

theorem dot_sub_mul (u v w : Nat → ℝ) (c : ℝ) :
    dot n (fun i => u i - c * v i) w = dot n u w - c * dot n v w := by
  unfold dot; rw [mul_sum, ← sum_sub_distrib]; exact sum_congr rfl fun i _ => by ring

theorem dot_add_mul' (u v w : Nat → ℝ) (c : ℝ) :
    dot n w (fun i => u i + c * v i) = dot n w u + c * dot n w v := by
  rw [dot_comm, dot_add_mul, dot_comm u, dot_comm v]

theorem dot_sub_mul' (u v w : Nat → ℝ) (c : ℝ) :
    dot n w (fun i => u i - c * v i) = dot n w u - c * dot n w v := by
  rw [dot_comm, dot_sub_mul, dot_comm u, dot_comm v]

theorem dot_self_nonneg (u : Nat → ℝ) : 0 ≤ dot n u u :=
  sum_nonneg fun i _ => mul_self_nonneg _

theorem dot_self_eq_zero {u : Nat → ℝ} (h : dot n u u = 0) : ∀ i, i < n → u i = 0 := by
  intro i hi
  have := (sum_eq_zero_iff_of_nonneg (fun i _ => mul_self_nonneg (u i))).mp h i (mem_range.mpr hi)
  exact mul_self_eq_zero.mp this

end dots

section pcg
variable {n N : Nat} {I : Finset Nat} {A : (Nat → ℝ) → Nat → ℝ} {k b : Nat → ℝ}
  {x r p : Nat → Nat → ℝ}

/-- The recurrences keep everything zero on the identity rows. -/
theorem Spec.Pcg.onI (h : Pcg n A k b N x r p)
    (hfix : ∀ u i, i < n → i ∉ I → A u i = u i)
    (hx0 : OnI n I (x 0)) (hb : OnI n I b) :
    ∀ j, j ≤ N → OnI n I (x j) ∧ OnI n I (r j) ∧ (j < N → OnI n I (p j)) := by
  intro j
  induction j with
  | zero =>
    intro _
    have h0 : OnI n I (r 0) := by
      intro i hi hI
      rw [h.r0 i hi, hfix _ i hi hI, hx0 i hi hI, hb i hi hI, sub_zero]
    refine ⟨hx0, h0, fun hN i hi hI => ?_⟩
    rw [h.p0 hN i hi, h0 i hi hI, mul_zero]
  | succ j ih =>
    intro hj
    obtain ⟨ix, ir, ip⟩ := ih (by omega)
    have ip := ip (by omega)
    have hr : OnI n I (r (j + 1)) := by
      intro i hi hI
      rw [h.rS j (by omega) i hi, ir i hi hI, hfix _ i hi hI, ip i hi hI]; ring
    refine ⟨?_, hr, fun hN i hi hI => ?_⟩
    · intro i hi hI
      rw [h.xS j (by omega) i hi, ix i hi hI, ip i hi hI]; ring
    · rw [h.pS j (by omega) i hi, hr i hi hI, ip i hi hI]; ring

/-- The residual of the recurrence is the true residual. -/
theorem Spec.Pcg.residual (h : Pcg n A k b N x r p)
    (hloc : ∀ u v, (∀ i, i < n → u i = v i) → ∀ i, i < n → A u i = A v i)
    (hlin : ∀ u v (c : ℝ) i, A (fun j => u j + c * v j) i = A u i + c * A v i) :
    ∀ j, j ≤ N → ∀ i, i < n → r j i = A (x j) i - b i := by
  intro j
  induction j with
  | zero => intro _ i hi; exact h.r0 i hi
  | succ j ih =>
    intro hj i hi
    rw [h.rS j (by omega) i hi, ih (by omega) i hi,
      hloc (x (j + 1)) (fun i => x j i + (-(rho n k (r j) / dot n (p j) (A (p j)))) * p j i)
        (fun i hi => by rw [h.xS j (by omega) i hi]; ring) i hi, hlin]
    ring

/-- `k r · r' = k r' · r`. -/
theorem kdot_comm (u v : Nat → ℝ) :
    dot n u (fun i => k i * v i) = dot n v (fun i => k i * u i) :=
  sum_congr rfl fun i _ => by ring

theorem rho_nonneg {u : Nat → ℝ} (hk : ∀ i ∈ I, 0 < k i) (hu : OnI n I u) : 0 ≤ rho n k u := by
  unfold rho dot
  refine sum_nonneg fun i hi => ?_
  by_cases h : i ∈ I
  · have := hk i h
    have := mul_self_nonneg (u i)
    nlinarith
  · rw [hu i (mem_range.mp hi) h]; simp

theorem rho_pos {u : Nat → ℝ} (hk : ∀ i ∈ I, 0 < k i) (hu : OnI n I u)
    (h : ∃ i, i < n ∧ u i ≠ 0) : 0 < rho n k u := by
  obtain ⟨i, hi, hne⟩ := h
  have hI : i ∈ I := by by_contra hc; exact hne (hu i hi hc)
  unfold rho dot
  refine sum_pos' (fun i hi => ?_) ⟨i, mem_range.mpr hi, ?_⟩
  · by_cases h : i ∈ I
    · have := hk i h
      have := mul_self_nonneg (u i)
      nlinarith
    · rw [hu i (mem_range.mp hi) h]; simp
  · have := hk i hI
    have := mul_self_pos.mpr hne
    nlinarith

/-- The invariants of conjugate gradients up to step `j`. -/
structure PcgInv (n : Nat) (A : (Nat → ℝ) → Nat → ℝ) (k : Nat → ℝ) (r p : Nat → Nat → ℝ)
    (j : Nat) : Prop where
  rp : ∀ l, l < j → dot n (r j) (p l) = 0
  rz : ∀ l, l < j → dot n (r j) (fun i => k i * r l i) = 0
  rpj : dot n (r j) (p j) = rho n k (r j)
  pAp : ∀ l, l < j → dot n (p j) (A (p l)) = 0

theorem Spec.Pcg.inv (h : Pcg n A k b N x r p) (hA : SpdOn n I A) (hk : ∀ i ∈ I, 0 < k i)
    (hx0 : OnI n I (x 0)) (hb : OnI n I b)
    (hne : ∀ j, j < N → ∃ i, i < n ∧ r j i ≠ 0) :
    ∀ j, j < N → (∀ l, l ≤ j → PcgInv n A k r p l) ∧ 0 < rho n k (r j) ∧
      0 < dot n (p j) (A (p j)) := by
  have on := h.onI hA.fixed hx0 hb
  intro j
  induction j with
  | zero =>
    intro hN
    have hp : ∀ i, i < n → p 0 i = k i * r 0 i := h.p0 hN
    have hrho : 0 < rho n k (r 0) := rho_pos hk (on 0 (by omega)).2.1 (hne 0 hN)
    have e : dot n (r 0) (p 0) = rho n k (r 0) := dot_congr (fun _ _ => rfl) hp
    refine ⟨fun l hl => ?_, hrho, ?_⟩
    · have : l = 0 := by omega
      subst this
      exact ⟨fun l hl => by omega, fun l hl => by omega, e, fun l hl => by omega⟩
    · apply hA.pos _ ((on 0 (by omega)).2.2 hN)
      by_contra hc
      push Not at hc
      have : dot n (r 0) (p 0) = 0 := sum_eq_zero fun i hi => by
        rw [hc i (mem_range.mp hi), mul_zero]
      rw [e] at this
      exact (ne_of_gt hrho) this
  | succ j ih =>
    intro hN
    obtain ⟨ihI, ihrho, ihpAp⟩ := ih (by omega)
    have Ij := ihI j (le_refl j)
    have hrho : 0 < rho n k (r (j + 1)) := rho_pos hk (on (j + 1) (by omega)).2.1 (hne _ hN)
    have onp : ∀ l, l < N → OnI n I (p l) := fun l hl => (on l (by omega)).2.2 hl
    have hr := h.rS j (by omega)
    -- r_{j+1} against the old directions
    have rp : ∀ l, l < j + 1 → dot n (r (j + 1)) (p l) = 0 := by
      intro l hl
      rw [dot_congr (v' := p l) hr (fun _ _ => rfl), dot_sub_mul]
      rcases Nat.lt_succ_iff_lt_or_eq.mp hl with hlt | rfl
      · rw [Ij.rp l hlt, ← hA.sym _ _ (onp j (by omega)) (onp l (by omega)), Ij.pAp l hlt]; ring
      · rw [Ij.rpj, dot_comm (A (p l))]
        field_simp
        ring
    -- r_{j+1} against the old preconditioned residuals
    have rz : ∀ l, l < j + 1 → dot n (r (j + 1)) (fun i => k i * r l i) = 0 := by
      intro l hl
      rcases l with _ | l
      · rw [← rp 0 hl]
        exact dot_congr (fun _ _ => rfl) (fun i hi => (h.p0 (by omega) i hi).symm)
      · have e : dot n (r (j + 1)) (fun i => k i * r (l + 1) i)
            = dot n (r (j + 1)) (fun i => p (l + 1) i
              - rho n k (r (l + 1)) / rho n k (r l) * p l i) :=
          dot_congr (fun _ _ => rfl) (fun i hi => by rw [h.pS l (by omega) i hi]; ring)
        rw [e, dot_sub_mul', rp _ hl, rp l (by omega)]; ring
    have hp := h.pS j hN
    have rpj : dot n (r (j + 1)) (p (j + 1)) = rho n k (r (j + 1)) := by
      rw [dot_congr (u' := r (j + 1)) (fun _ _ => rfl) hp, dot_add_mul', rp j (by omega)]
      unfold rho; ring
    have hdj : rho n k (r j) / dot n (p j) (A (p j)) ≠ 0 :=
      div_ne_zero (ne_of_gt ihrho) (ne_of_gt ihpAp)
    -- new direction is conjugate to the old ones
    have pAp : ∀ l, l < j + 1 → dot n (p (j + 1)) (A (p l)) = 0 := by
      intro l hl
      rw [dot_congr (v' := A (p l)) hp (fun _ _ => rfl), dot_add_mul]
      -- d_l * (z · A p_l) = z · r_l - z · r_{l+1}
      have hz : rho n k (r l) / dot n (p l) (A (p l)) * dot n (fun i => k i * r (j + 1) i) (A (p l))
          = dot n (r (j + 1)) (fun i => k i * r l i)
            - dot n (r (j + 1)) (fun i => k i * r (l + 1) i) := by
        have e : dot n (fun i => k i * r (j + 1) i) (r (l + 1))
            = dot n (fun i => k i * r (j + 1) i) (fun i => r l i
              - rho n k (r l) / dot n (p l) (A (p l)) * A (p l) i) :=
          dot_congr (fun _ _ => rfl) (h.rS l (by omega))
        rw [dot_sub_mul'] at e
        rw [kdot_comm (r (j + 1)) (r l), kdot_comm (r (j + 1)) (r (l + 1)),
          dot_comm (r l), dot_comm (r (l + 1)), e]
        ring
      rcases Nat.lt_succ_iff_lt_or_eq.mp hl with hlt | rfl
      · rw [rz l hl, rz (l + 1) (by omega), sub_zero] at hz
        have hl0 := (ihI l (by omega))
        have hdl : rho n k (r l) / dot n (p l) (A (p l)) ≠ 0 := by
          have h1 : 0 < rho n k (r l) := rho_pos hk (on l (by omega)).2.1 (hne _ (by omega))
          have h2 : 0 < dot n (p l) (A (p l)) := by
            apply hA.pos _ (onp l (by omega))
            by_contra hc
            push Not at hc
            have h3 : dot n (r l) (p l) = 0 := sum_eq_zero fun i hi => by
              rw [hc i (mem_range.mp hi), mul_zero]
            rw [hl0.rpj] at h3
            exact (ne_of_gt h1) h3
          exact div_ne_zero (ne_of_gt h1) (ne_of_gt h2)
        rcases mul_eq_zero.mp hz with h0 | h0
        · exact absurd h0 hdl
        · rw [h0, Ij.pAp l hlt]; ring
      · rw [rz l hl, zero_sub] at hz
        have e2 : dot n (r (l + 1)) (fun i => k i * r (l + 1) i) = rho n k (r (l + 1)) := rfl
        rw [e2] at hz
        have h1 := ne_of_gt ihrho
        have h2 := ne_of_gt ihpAp
        have hz' : dot n (fun i => k i * r (l + 1) i) (A (p l))
            = -rho n k (r (l + 1)) * dot n (p l) (A (p l)) / rho n k (r l) := by
          field_simp at hz ⊢
          linarith
        rw [hz']
        field_simp
        ring
    have Inew : PcgInv n A k r p (j + 1) := ⟨rp, rz, rpj, pAp⟩
    refine ⟨fun l hl => ?_, hrho, ?_⟩
    · rcases Nat.lt_or_ge l (j + 1) with hlt | hge
      · exact ihI l (by omega)
      · have : l = j + 1 := by omega
        subst this; exact Inew
    · apply hA.pos _ (onp _ hN)
      by_contra hc
      push Not at hc
      have h3 : dot n (r (j + 1)) (p (j + 1)) = 0 := sum_eq_zero fun i hi => by
        rw [hc i (mem_range.mp hi), mul_zero]
      rw [rpj] at h3
      exact (ne_of_gt hrho) h3

/-- More residuals than unknowns cannot all be nonzero. -/
theorem Spec.Pcg.finite (h : Pcg n A k b N x r p) (hA : SpdOn n I A) (hk : ∀ i ∈ I, 0 < k i)
    (hx0 : OnI n I (x 0)) (hb : OnI n I b)
    (hne : ∀ j, j < N → ∃ i, i < n ∧ r j i ≠ 0) : N ≤ I.card := by
  have inv := h.inv hA hk hx0 hb hne
  have on := h.onI hA.fixed hx0 hb
  have orth : ∀ j l, j < N → l < N → j ≠ l → dot n (r j) (fun i => k i * r l i) = 0 := by
    intro j l hj hl hjl
    rcases Nat.lt_or_gt_of_ne hjl with hlt | hgt
    · rw [kdot_comm]
      exact ((inv l hl).1 l (le_refl l)).rz j hlt
    · exact ((inv j hj).1 j (le_refl j)).rz l hgt
  have li : LinearIndependent ℝ (fun (j : Fin N) (i : I) => r j i) := by
    rw [Fintype.linearIndependent_iff]
    intro g hg l
    have hsum : ∀ i, i < n → ∑ j : Fin N, g j * r j i = 0 := by
      intro i hi
      by_cases hI : i ∈ I
      · have := congrFun hg ⟨i, hI⟩
        simpa using this
      · refine sum_eq_zero fun j _ => ?_
        rw [(on j (by omega)).2.1 i hi hI, mul_zero]
    have h0 : ∑ j : Fin N, g j * dot n (r j) (fun i => k i * r l i) = 0 := by
      unfold dot
      simp only [mul_sum]
      rw [sum_comm]
      refine sum_eq_zero fun i hi => ?_
      have := hsum i (mem_range.mp hi)
      have e : ∑ j : Fin N, g j * (r j i * (k i * r l i))
          = (∑ j : Fin N, g j * r j i) * (k i * r l i) := by
        rw [sum_mul]; exact sum_congr rfl fun j _ => by ring
      rw [e, this, zero_mul]
    rw [sum_eq_single l] at h0
    · rcases mul_eq_zero.mp h0 with h1 | h1
      · exact h1
      · exact absurd h1 (ne_of_gt (inv l l.2).2.1)
    · intro j _ hj
      rw [orth j l j.2 l.2 (fun e => hj (Fin.ext e)), mul_zero]
    · intro h; exact absurd (mem_univ l) h
  have := li.fintype_card_le_finrank
  simpa using this

/-- Every step strictly decreases the energy. -/
theorem Spec.Pcg.energy_lt (h : Pcg n A k b N x r p) (hA : SpdOn n I A) (hk : ∀ i ∈ I, 0 < k i)
    (hx0 : OnI n I (x 0)) (hb : OnI n I b)
    (hne : ∀ j, j < N → ∃ i, i < n ∧ r j i ≠ 0) {j : Nat} (hj : j < N) :
    energy n A b (x (j + 1)) = energy n A b (x j)
      - rho n k (r j) ^ 2 / dot n (p j) (A (p j)) / 2 := by
  obtain ⟨hI, h1, h2⟩ := h.inv hA hk hx0 hb hne j hj
  have on := h.onI hA.fixed hx0 hb
  have hr := h.residual hA.local' hA.lin j (by omega)
  have hrp := (hI j (le_refl j)).rpj
  set d := rho n k (r j) / dot n (p j) (A (p j)) with hd
  have ex : ∀ i, i < n → x (j + 1) i = x j i + (-d) * p j i := fun i hi => by
    rw [h.xS j hj i hi]; ring
  have eA : ∀ i, i < n → A (x (j + 1)) i = A (x j) i + (-d) * A (p j) i := fun i hi => by
    rw [hA.local' _ _ ex i hi, hA.lin]
  have e1 : dot n (x (j + 1)) (A (x (j + 1)))
      = dot n (x j) (A (x j)) - 2 * d * dot n (p j) (A (x j)) + d ^ 2 * dot n (p j) (A (p j)) := by
    rw [dot_congr ex eA, dot_add_mul, dot_add_mul', dot_add_mul',
      hA.sym (x j) (p j) (on j (by omega)).1 ((on j (by omega)).2.2 hj), dot_comm (A (x j))]
    ring
  have e2 : dot n b (x (j + 1)) = dot n b (x j) - d * dot n b (p j) := by
    rw [dot_congr (u' := b) (fun _ _ => rfl) ex, dot_add_mul']; ring
  have e3 : dot n (p j) (A (x j)) - dot n b (p j) = rho n k (r j) := by
    rw [← hrp, dot_congr (v' := p j) hr (fun _ _ => rfl)]
    unfold dot
    rw [← sum_sub_distrib]
    exact sum_congr rfl fun i _ => by ring
  unfold energy
  rw [e1, e2]
  have h2' := ne_of_gt h2
  have e4 : d * dot n (p j) (A (p j)) = rho n k (r j) := by rw [hd]; field_simp
  have e5 : rho n k (r j) ^ 2 / dot n (p j) (A (p j)) = d * rho n k (r j) := by
    rw [hd]; field_simp
  rw [e5]
  have : d ^ 2 * dot n (p j) (A (p j)) = d * rho n k (r j) := by rw [← e4]; ring
  rw [this]
  linear_combination (-d) * e3

end pcg

end Verif
