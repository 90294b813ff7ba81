import Verif.Lemmas.Fp
import Mathlib.Data.Int.Log
import Mathlib.Algebra.Order.Round
import Mathlib.Tactic.Ring
import Mathlib.Tactic.Positivity
import Mathlib.Tactic.NormNum

/-!
# Binary formats with rounding to nearest

`p` bits, least exponent `emin ≤ 0`, no largest number.  `binary 53 (-1074)` has the numbers of IEEE
binary64 and those beyond its range.
-/

namespace Verif.Spec

/-- The numbers `m * 2 ^ e` with `|m| < 2 ^ p` and `emin ≤ e`. -/
def binSet (p : Nat) (emin : ℤ) : Set ℝ :=
  {x | ∃ m e : ℤ, |m| < 2 ^ p ∧ emin ≤ e ∧ x = m * (2 : ℝ) ^ e}

/-- The exponent at which `x` is rounded. -/
noncomputable def binExp (p : Nat) (emin : ℤ) (x : ℝ) : ℤ := max (Int.log 2 x + 1 - p) emin

/-- Rounding of non-negative numbers, ties upwards. -/
noncomputable def binPos (p : Nat) (emin : ℤ) (x : ℝ) : ℝ :=
  ⌊x / (2 : ℝ) ^ binExp p emin x + 1 / 2⌋ * (2 : ℝ) ^ binExp p emin x

/-- Rounding to nearest, ties away from zero. -/
noncomputable def binRnd (p : Nat) (emin : ℤ) (x : ℝ) : ℝ :=
  if 0 ≤ x then binPos p emin x else -binPos p emin (-x)

variable {p : Nat} {emin : ℤ}

theorem two_zpow_pos (e : ℤ) : 0 < (2 : ℝ) ^ e := zpow_pos (by norm_num) e

theorem binPos_zero : binPos p emin 0 = 0 := by
  unfold binPos
  rw [zero_div, zero_add, show ⌊(1 / 2 : ℝ)⌋ = 0 by norm_num]; simp

theorem binPos_nonneg {x : ℝ} (hx : 0 ≤ x) : 0 ≤ binPos p emin x := by
  unfold binPos
  have h1 := two_zpow_pos (binExp p emin x)
  have : (0 : ℤ) ≤ ⌊x / (2 : ℝ) ^ binExp p emin x + 1 / 2⌋ := by
    rw [Int.floor_nonneg]; positivity
  have : (0 : ℝ) ≤ ⌊x / (2 : ℝ) ^ binExp p emin x + 1 / 2⌋ := by exact_mod_cast this
  positivity

theorem binPos_err {x : ℝ} (hx : 0 ≤ x) :
    |binPos p emin x - x| ≤ (2 : ℝ) ^ binExp p emin x / 2 := by
  unfold binPos
  set w := (2 : ℝ) ^ binExp p emin x with hw
  have hw0 : 0 < w := two_zpow_pos _
  have h1 := Int.floor_le (x / w + 1 / 2)
  have h2 := Int.lt_floor_add_one (x / w + 1 / 2)
  set n : ℝ := (⌊x / w + 1 / 2⌋ : ℝ)
  have hx' : x = x / w * w := by field_simp
  rw [abs_le]
  constructor
  · have : (x / w - 1 / 2) * w ≤ n * w := mul_le_mul_of_nonneg_right (by linarith) hw0.le
    nlinarith
  · have : n * w ≤ (x / w + 1 / 2) * w := mul_le_mul_of_nonneg_right h1 hw0.le
    nlinarith

/-- Members of the format are multiples of the unit at which they are rounded. -/
theorem binExp_le {x : ℝ} (hx : 0 < x) {m e : ℤ} (hm : |m| < 2 ^ p) (he : emin ≤ e)
    (h : x = m * (2 : ℝ) ^ e) : ∃ n : ℤ, x = n * (2 : ℝ) ^ binExp p emin x := by
  have hm' : (|m| : ℝ) < 2 ^ p := by exact_mod_cast hm
  have hlt : x < (2 : ℝ) ^ (p + e : ℤ) := by
    rw [h, zpow_add₀ (by norm_num), zpow_natCast]
    exact mul_lt_mul_of_pos_right (lt_of_le_of_lt (le_abs_self _) hm') (two_zpow_pos e)
  have hlog : Int.log 2 x < p + e := by
    have h1 := Int.zpow_log_le_self (R := ℝ) (b := 2) (by norm_num) hx
    have h2 : (2 : ℝ) ^ Int.log 2 x < (2 : ℝ) ^ (p + e : ℤ) := lt_of_le_of_lt (by exact_mod_cast h1) hlt
    exact (zpow_lt_zpow_iff_right₀ (by norm_num)).mp h2
  have hE : binExp p emin x ≤ e := by
    unfold binExp
    exact max_le (by omega) he
  refine ⟨m * 2 ^ (e - binExp p emin x).toNat, ?_⟩
  push_cast
  rw [mul_assoc, ← zpow_natCast, ← zpow_add₀ (by norm_num), Int.toNat_of_nonneg (by omega),
    sub_add_cancel]
  exact h

theorem binPos_fix {x : ℝ} (hx : 0 ≤ x) (h : x ∈ binSet p emin) : binPos p emin x = x := by
  rcases hx.lt_or_eq with hx | rfl
  · obtain ⟨m, e, hm, he, h⟩ := h
    obtain ⟨n, hn⟩ := binExp_le hx hm he h
    unfold binPos
    set w := (2 : ℝ) ^ binExp p emin x with hw
    have hw0 : 0 < w := two_zpow_pos _
    have : x / w = n := by rw [hn]; field_simp
    rw [this, show ⌊(n : ℝ) + 1 / 2⌋ = n by
      rw [Int.floor_eq_iff]; constructor <;> linarith]
    exact hn.symm
  · exact binPos_zero

theorem lt_top {x : ℝ} (hx : 0 < x) : x < (2 : ℝ) ^ (binExp p emin x + p) := by
  have h := Int.lt_zpow_succ_log_self (R := ℝ) (b := 2) (by norm_num) x
  refine lt_of_lt_of_le (by exact_mod_cast h) ((zpow_le_zpow_iff_right₀ (by norm_num)).mpr ?_)
  have := le_max_left (Int.log 2 x + 1 - p) emin
  unfold binExp
  omega

/-- Rounding up stops at the next power of two. -/
theorem binPos_le_top {x : ℝ} (hx : 0 < x) :
    ⌊x / (2 : ℝ) ^ binExp p emin x + 1 / 2⌋ ≤ 2 ^ p := by
  have h := lt_top (p := p) (emin := emin) hx
  set w := (2 : ℝ) ^ binExp p emin x with hw
  have hw0 : 0 < w := two_zpow_pos _
  have h1 : x / w < 2 ^ p := by
    rw [div_lt_iff₀ hw0]
    rw [zpow_add₀ (by norm_num), zpow_natCast, mul_comm] at h
    exact h
  have : ⌊x / w + 1 / 2⌋ < 2 ^ p + 1 := by
    rw [Int.floor_lt]; push_cast; linarith
  omega

theorem binPos_mem (hp : 1 ≤ p) {x : ℝ} (hx : 0 ≤ x) : binPos p emin x ∈ binSet p emin := by
  rcases hx.lt_or_eq with hx | rfl
  · have h := binPos_le_top (p := p) (emin := emin) hx
    have h0 : 0 ≤ ⌊x / (2 : ℝ) ^ binExp p emin x + 1 / 2⌋ := by
      have := two_zpow_pos (binExp p emin x)
      rw [Int.floor_nonneg]; positivity
    have he : emin ≤ binExp p emin x := le_max_right _ _
    unfold binPos
    rcases h.lt_or_eq with h | h
    · exact ⟨_, _, by rw [abs_of_nonneg h0]; exact h, he, rfl⟩
    · refine ⟨2 ^ (p - 1), binExp p emin x + 1, ?_, by omega, ?_⟩
      · rw [abs_of_nonneg (by positivity)]
        exact pow_lt_pow_right₀ (by norm_num) (by omega)
      · rw [h]
        push_cast
        rw [zpow_add₀ (by norm_num), zpow_one]
        obtain ⟨k, rfl⟩ : ∃ k, p = k + 1 := ⟨p - 1, by omega⟩
        simp only [Nat.add_sub_cancel]
        ring
  · rw [binPos_zero]
    refine ⟨0, emin, by simp, le_refl _, by simp⟩

theorem binExp_mono {x y : ℝ} (hx : 0 < x) (h : x ≤ y) : binExp p emin x ≤ binExp p emin y := by
  unfold binExp
  have := Int.log_mono_right (b := 2) hx h
  omega

theorem binPos_mono (hp : 1 ≤ p) {x y : ℝ} (hx : 0 ≤ x) (h : x ≤ y) : binPos p emin x ≤ binPos p emin y := by
  rcases hx.lt_or_eq with hx | rfl
  swap
  · rw [binPos_zero]; exact binPos_nonneg h
  have hy : 0 < y := lt_of_lt_of_le hx h
  rcases (binExp_mono (p := p) (emin := emin) hx h).lt_or_eq with hlt | heq
  · -- a power of two lies between them
    have hmem : ∀ k : ℤ, emin ≤ k → (2 : ℝ) ^ k ∈ binSet p emin := fun k hk =>
      ⟨1, k, by rw [abs_one]; exact one_lt_pow₀ (by norm_num) (by omega), hk, by simp⟩
    have h1 : binPos p emin x ≤ (2 : ℝ) ^ (binExp p emin x + p) := by
      unfold binPos
      rw [zpow_add₀ (by norm_num), zpow_natCast, mul_comm ((2 : ℝ) ^ binExp p emin x)]
      refine mul_le_mul_of_nonneg_right ?_ (two_zpow_pos _).le
      exact_mod_cast binPos_le_top (p := p) (emin := emin) hx
    refine le_trans h1 ?_
    have hE : binExp p emin y = Int.log 2 y + 1 - p := by
      unfold binExp at hlt ⊢
      have : emin ≤ binExp p emin x := le_max_right _ _
      unfold binExp at this
      omega
    have h2 : (2 : ℝ) ^ (binExp p emin x + p) ≤ (2 : ℝ) ^ (binExp p emin y + p - 1) :=
      (zpow_le_zpow_iff_right₀ (by norm_num)).mpr (by omega)
    refine le_trans h2 ?_
    -- `y` is at least the power and rounding keeps multiples of the unit
    have h3 : (2 : ℝ) ^ (binExp p emin y + p - 1) ≤ y := by
      have := Int.zpow_log_le_self (R := ℝ) (b := 2) (by norm_num) hy
      rw [hE, show Int.log 2 y + 1 - p + p - 1 = Int.log 2 y by ring]
      exact_mod_cast this
    unfold binPos
    set w := (2 : ℝ) ^ binExp p emin y with hw
    have hw0 : 0 < w := two_zpow_pos _
    have e : (2 : ℝ) ^ (binExp p emin y + p - 1) = ((2 ^ (p - 1) : ℤ) : ℝ) * w := by
      push_cast
      rw [hw, ← zpow_natCast, ← zpow_add₀ (by norm_num)]
      congr 1
      omega
    rw [e] at h3 ⊢
    refine mul_le_mul_of_nonneg_right ?_ hw0.le
    have : (2 ^ (p - 1) : ℤ) ≤ ⌊y / w + 1 / 2⌋ := by
      rw [Int.le_floor]
      have := (le_div_iff₀ hw0).mpr h3
      linarith
    exact_mod_cast this
  · unfold binPos
    rw [← heq]
    have hw0 := two_zpow_pos (binExp p emin x)
    refine mul_le_mul_of_nonneg_right ?_ hw0.le
    have : ⌊x / (2 : ℝ) ^ binExp p emin x + 1 / 2⌋ ≤ ⌊y / (2 : ℝ) ^ binExp p emin x + 1 / 2⌋ := by
      refine Int.floor_le_floor ?_
      have := (div_le_div_iff_of_pos_right hw0).mpr h
      linarith
    exact_mod_cast this

theorem binSet_neg {x : ℝ} (h : x ∈ binSet p emin) : -x ∈ binSet p emin := by
  obtain ⟨m, e, hm, he, rfl⟩ := h
  exact ⟨-m, e, by rwa [abs_neg], he, by push_cast; ring⟩

theorem binPos_rel {x : ℝ} (hx : 0 ≤ x) :
    |binPos p emin x - x| ≤ (2 : ℝ) ^ (-(p : ℤ)) * x + (2 : ℝ) ^ (emin - 1) := by
  rcases hx.lt_or_eq with hx | rfl
  · refine le_trans (binPos_err hx.le) ?_
    have e2 : ∀ k : ℤ, (2 : ℝ) ^ k / 2 = (2 : ℝ) ^ (k - 1) := fun k => by
      rw [zpow_sub₀ (by norm_num), zpow_one]
    rw [e2]
    have h1 := two_zpow_pos (-(p : ℤ))
    have h2 := two_zpow_pos (emin - 1)
    rcases max_choice (Int.log 2 x + 1 - p) emin with h | h
    · unfold binExp
      rw [h]
      have := Int.zpow_log_le_self (R := ℝ) (b := 2) (by norm_num) hx
      have h3 : (2 : ℝ) ^ Int.log 2 x ≤ x := by exact_mod_cast this
      have : (2 : ℝ) ^ (Int.log 2 x + 1 - p - 1) = (2 : ℝ) ^ (-(p : ℤ)) * (2 : ℝ) ^ Int.log 2 x := by
        rw [← zpow_add₀ (by norm_num)]; congr 1; ring
      rw [this]
      nlinarith
    · unfold binExp
      rw [h]
      nlinarith
  · rw [binPos_zero]
    simp [(two_zpow_pos _).le]

/-- The format. -/
noncomputable def binary (p : Nat) (emin : ℤ) (hp : 1 ≤ p) (he : emin ≤ 0) : Fp where
  F := binSet p emin
  rnd := binRnd p emin
  u := (2 : ℝ) ^ (-(p : ℤ))
  eta := (2 : ℝ) ^ (emin - 1)
  divZero _ := 0
  mem x := by
    unfold binRnd
    split
    · exact binPos_mem hp ‹_›
    · exact binSet_neg (binPos_mem hp (by linarith))
  fix x hx := by
    unfold binRnd
    split
    · exact binPos_fix ‹_› hx
    · rw [binPos_fix (by linarith) (binSet_neg hx), neg_neg]
  mono := by
    intro x y h
    unfold binRnd
    split
    · rw [if_pos (by linarith)]; exact binPos_mono hp ‹_› h
    · split
      · have := binPos_nonneg (p := p) (emin := emin) (x := -x) (by linarith)
        have := binPos_nonneg (p := p) (emin := emin) (x := y) ‹_›
        linarith
      · exact neg_le_neg (binPos_mono hp (by linarith) (by linarith))
  err x := by
    unfold binRnd
    split
    · rw [abs_of_nonneg (a := x) ‹_›]
      exact binPos_rel ‹_›
    · have hx : x < 0 := not_le.mp ‹_›
      rw [abs_of_neg hx]
      have := binPos_rel (p := p) (emin := emin) (x := -x) (by linarith)
      rwa [show -binPos p emin (-x) - x = -(binPos p emin (-x) - -x) by ring, abs_neg]
  zero := ⟨0, emin, by simp, le_refl _, by simp⟩
  one := ⟨1, 0, by rw [abs_one]; exact one_lt_pow₀ (by norm_num) (by omega), he, by simp⟩
  neg _ h := binSet_neg h
  divZero_mem _ := ⟨0, emin, by simp, le_refl _, by simp⟩
  u_nonneg := (two_zpow_pos _).le
  eta_nonneg := (two_zpow_pos _).le

/-- The numbers of IEEE binary64, and those beyond its range. -/
noncomputable def binary64 : Fp := binary 53 (-1074) (by norm_num) (by norm_num)

theorem binary_eta {hp : 1 ≤ p} {he : emin ≤ 0} (h : emin - 1 ≤ -(2 * p)) :
    (binary p emin hp he).eta ≤ (binary p emin hp he).u ^ 2 := by
  show (2 : ℝ) ^ (emin - 1) ≤ ((2 : ℝ) ^ (-(p : ℤ))) ^ 2
  rw [← zpow_natCast, ← zpow_mul]
  exact (zpow_le_zpow_iff_right₀ (by norm_num)).mpr (by push_cast; omega)

/-- Formats of any precision. -/
theorem exists_format {u0 : ℝ} (h : 0 < u0) : ∃ p emin, ∃ (hp : 1 ≤ p) (he : emin ≤ 0),
    (binary p emin hp he).u ≤ u0 ∧ (binary p emin hp he).eta ≤ (binary p emin hp he).u ^ 2 := by
  obtain ⟨n, hn⟩ := exists_pow_lt_of_lt_one h (show (1 / 2 : ℝ) < 1 by norm_num)
  refine ⟨n + 1, -(2 * (n + 1)), by omega, by omega, ?_, binary_eta (by push_cast; omega)⟩
  show (2 : ℝ) ^ (-((n + 1 : Nat) : ℤ)) ≤ u0
  rw [zpow_neg, zpow_natCast, ← one_div, ← one_div_pow]
  refine le_trans ?_ hn.le
  exact pow_le_pow_of_le_one (by norm_num) (by norm_num) (by omega)

end Verif.Spec
