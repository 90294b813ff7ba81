import Verif.Lemmas.Fp
import Verif.Lemmas.FeEval
import Mathlib.Tactic.Linarith
import Mathlib.Tactic.Positivity
import Mathlib.Tactic.Ring
import Mathlib.Tactic.FieldSimp

/-!
# Rounded values near exact ones, uniformly over a family

A family of computations in formats `fp i` with magnitudes `m i`.  `Near d a x` says: there is one
constant `K` such that, for all members with `K * u ≤ 1`, `a` differs from the exact value `x` by at most
`K * u * m ^ d`, and `x` is at most `K * m ^ d`.  Coefficients have degree 0, fields degree 1.
-/

namespace Verif.Spec

/-- A family of formats with magnitudes. -/
structure Fam (ι : Type) where
  fp : ι → Fp
  m : ι → ℝ
  one_le : ∀ i, 1 ≤ m i
  eta : ∀ i, (fp i).eta ≤ (fp i).u ^ 2

variable {ι : Type} {S : Fam ι}

/-- `a` is `x` up to rounding. -/
def Near (S : Fam ι) (d : Nat) (a x : ι → ℝ) : Prop :=
  ∃ K, 1 ≤ K ∧ ∀ i, K * (S.fp i).u ≤ 1 →
    |a i - x i| ≤ K * (S.fp i).u * S.m i ^ d ∧ |x i| ≤ K * S.m i ^ d

namespace Near

theorem w_one (S : Fam ι) (d : Nat) (i : ι) : 1 ≤ S.m i ^ d := one_le_pow₀ (S.one_le i)

/-- Two constants may be replaced by a common one. -/
theorem up {d : Nat} {a x : ι → ℝ} {K L : ℝ} (hKL : K ≤ L)
    (h : ∀ i, K * (S.fp i).u ≤ 1 →
      |a i - x i| ≤ K * (S.fp i).u * S.m i ^ d ∧ |x i| ≤ K * S.m i ^ d) (i : ι)
    (hL : L * (S.fp i).u ≤ 1) :
    |a i - x i| ≤ L * (S.fp i).u * S.m i ^ d ∧ |x i| ≤ L * S.m i ^ d := by
  have hu := (S.fp i).u_nonneg
  have hw := w_one S d i
  have h1 : K * (S.fp i).u ≤ L * (S.fp i).u := mul_le_mul_of_nonneg_right hKL hu
  obtain ⟨h2, h3⟩ := h i (le_trans h1 hL)
  exact ⟨le_trans h2 (mul_le_mul_of_nonneg_right h1 (by linarith)),
    le_trans h3 (mul_le_mul_of_nonneg_right hKL (by linarith))⟩

/-- Both with the same constant. -/
theorem both {d e : Nat} {a x b y : ι → ℝ} (h : Near S d a x) (h' : Near S e b y) :
    ∃ K, 1 ≤ K ∧ ∀ i, K * (S.fp i).u ≤ 1 →
      (|a i - x i| ≤ K * (S.fp i).u * S.m i ^ d ∧ |x i| ≤ K * S.m i ^ d) ∧
      (|b i - y i| ≤ K * (S.fp i).u * S.m i ^ e ∧ |y i| ≤ K * S.m i ^ e) := by
  obtain ⟨K, hK, h⟩ := h
  obtain ⟨L, hL, h'⟩ := h'
  exact ⟨max K L, le_trans hK (le_max_left _ _), fun i hi =>
    ⟨up (le_max_left _ _) h i hi, up (le_max_right _ _) h' i hi⟩⟩

theorem const (d : Nat) (x : ℝ) : Near S d (fun _ => x) (fun _ => x) := by
  refine ⟨max 1 |x|, le_max_left _ _, fun i _ => ⟨?_, ?_⟩⟩
  · rw [sub_self, abs_zero]
    have := (S.fp i).u_nonneg
    have := w_one S d i
    have := le_max_left 1 |x|
    positivity
  · have := w_one S d i
    have h1 := le_max_left 1 |x|
    have h2 := le_max_right 1 |x|
    nlinarith

/-- Quantities bounded by the magnitude. -/
theorem self {a : ι → ℝ} (h : ∀ i, |a i| ≤ S.m i) : Near S 1 a a := by
  refine ⟨1, le_refl _, fun i _ => ⟨?_, by simpa using h i⟩⟩
  rw [sub_self, abs_zero]
  have := (S.fp i).u_nonneg
  have := w_one S 1 i
  positivity

theorem add {d : Nat} {a x b y : ι → ℝ} (h : Near S d a x) (h' : Near S d b y) :
    Near S d (fun i => a i + b i) (fun i => x i + y i) := by
  obtain ⟨K, hK, h⟩ := both h h'
  refine ⟨2 * K, by linarith, fun i hi => ?_⟩
  have hu := (S.fp i).u_nonneg
  obtain ⟨⟨h1, h2⟩, h3, h4⟩ := h i (by nlinarith)
  constructor
  · calc |a i + b i - (x i + y i)| = |(a i - x i) + (b i - y i)| := by ring_nf
      _ ≤ |a i - x i| + |b i - y i| := abs_add_le _ _
      _ ≤ _ := by linarith
  · linarith [abs_add_le (x i) (y i)]

theorem neg {d : Nat} {a x : ι → ℝ} (h : Near S d a x) :
    Near S d (fun i => -a i) (fun i => -x i) := by
  obtain ⟨K, hK, h⟩ := h
  refine ⟨K, hK, fun i hi => ?_⟩
  have := h i hi
  rwa [abs_neg, show -a i - -x i = -(a i - x i) by ring, abs_neg]

theorem sub {d : Nat} {a x b y : ι → ℝ} (h : Near S d a x) (h' : Near S d b y) :
    Near S d (fun i => a i - b i) (fun i => x i - y i) := by
  simpa only [sub_eq_add_neg] using h.add h'.neg

theorem mul {d e : Nat} {a x b y : ι → ℝ} (h : Near S d a x) (h' : Near S e b y) :
    Near S (d + e) (fun i => a i * b i) (fun i => x i * y i) := by
  obtain ⟨K, hK, h⟩ := both h h'
  refine ⟨K * (K + 1) + K * K, by nlinarith, fun i hi => ?_⟩
  have hu := (S.fp i).u_nonneg
  have hd := w_one S d i
  have he := w_one S e i
  have hKu : K * (S.fp i).u ≤ 1 := by
    refine le_trans (mul_le_mul_of_nonneg_right ?_ hu) hi
    nlinarith
  obtain ⟨⟨h1, h2⟩, h3, h4⟩ := h i hKu
  rw [pow_add]
  generalize S.m i ^ d = w at *
  generalize S.m i ^ e = w' at *
  generalize (S.fp i).u = u at *
  have hb : |b i| ≤ (K + 1) * w' := by
    have : |b i| ≤ |b i - y i| + |y i| := by
      calc |b i| = |(b i - y i) + y i| := by ring_nf
        _ ≤ _ := abs_add_le _ _
    nlinarith
  constructor
  · calc |a i * b i - x i * y i| = |(a i - x i) * b i + x i * (b i - y i)| := by ring_nf
      _ ≤ |(a i - x i) * b i| + |x i * (b i - y i)| := abs_add_le _ _
      _ = |a i - x i| * |b i| + |x i| * |b i - y i| := by rw [abs_mul, abs_mul]
      _ ≤ (K * u * w) * ((K + 1) * w') + (K * w) * (K * u * w') :=
          add_le_add (mul_le_mul h1 hb (abs_nonneg _) (by positivity))
            (mul_le_mul h2 h3 (abs_nonneg _) (by positivity))
      _ = _ := by ring
  · rw [abs_mul]
    calc |x i| * |y i| ≤ (K * w) * (K * w') := mul_le_mul h2 h4 (abs_nonneg _) (by positivity)
      _ = K * K * (w * w') := by ring
      _ ≤ _ := mul_le_mul_of_nonneg_right (by nlinarith) (by positivity)

theorem mul0 {d : Nat} {a x b y : ι → ℝ} (h : Near S 0 a x) (h' : Near S d b y) :
    Near S d (fun i => a i * b i) (fun i => x i * y i) := by
  simpa only [Nat.zero_add] using h.mul h'

theorem rmul0 {d : Nat} {a x b y : ι → ℝ} (h : Near S d a x) (h' : Near S 0 b y) :
    Near S d (fun i => a i * b i) (fun i => x i * y i) := h.mul h'

/-- A constant beyond which the value is bounded away from zero. -/
theorem away {b y : ι → ℝ} (h : Near S 0 b y) {c : ℝ} (hc : 0 < c) (hy : ∀ i, c ≤ |y i|) :
    ∃ K, 1 ≤ K ∧ ∀ i, K * (S.fp i).u ≤ 1 →
      c / 2 ≤ |b i| ∧ |b i - y i| ≤ K * (S.fp i).u := by
  obtain ⟨K, hK, h⟩ := h
  refine ⟨max K (2 * K / c), le_trans hK (le_max_left _ _), fun i hi => ?_⟩
  have hu := (S.fp i).u_nonneg
  have h1 := (h i (le_trans (mul_le_mul_of_nonneg_right (le_max_left _ _) hu) hi)).1
  rw [pow_zero, mul_one] at h1
  have h2 : 2 * K / c * (S.fp i).u ≤ 1 :=
    le_trans (mul_le_mul_of_nonneg_right (le_max_right _ _) hu) hi
  have h3 : K * (S.fp i).u ≤ c / 2 := by
    rw [div_mul_eq_mul_div, div_le_one hc] at h2
    linarith
  refine ⟨?_, le_trans h1 (mul_le_mul_of_nonneg_right (le_max_left _ _) hu)⟩
  have h4 : |y i| ≤ |b i| + |b i - y i| := by
    calc |y i| = |b i - (b i - y i)| := by ring_nf
      _ ≤ _ := abs_sub _ _
  have := hy i
  linarith

theorem inv {b y : ι → ℝ} (h : Near S 0 b y) {c : ℝ} (hc : 0 < c) (hy : ∀ i, c ≤ |y i|) :
    Near S 0 (fun i => (b i)⁻¹) (fun i => (y i)⁻¹) := by
  obtain ⟨K, hK, h⟩ := h.away hc hy
  refine ⟨max K (max (1 / c) (K * (2 / c * (1 / c)))), le_trans hK (le_max_left _ _), fun i hi => ?_⟩
  have hu := (S.fp i).u_nonneg
  obtain ⟨h1, h2⟩ := h i (le_trans (mul_le_mul_of_nonneg_right (le_max_left _ _) hu) hi)
  have hyi := hy i
  have hb0 : 0 < |b i| := by linarith
  have hy0 : 0 < |y i| := by linarith
  have e1 : 1 / |y i| ≤ 1 / c := one_div_le_one_div_of_le hc hyi
  have e2 : 1 / |b i| ≤ 2 / c := by
    rw [div_le_div_iff₀ hb0 hc]; linarith
  simp only [pow_zero, mul_one]
  constructor
  · have hb : b i ≠ 0 := abs_pos.mp hb0
    have hy' : y i ≠ 0 := abs_pos.mp hy0
    have : |(b i)⁻¹ - (y i)⁻¹| = |b i - y i| * (1 / |b i| * (1 / |y i|)) := by
      rw [show (b i)⁻¹ - (y i)⁻¹ = -(b i - y i) * (1 / b i * (1 / y i)) by field_simp; ring,
        abs_mul, abs_neg, abs_mul, abs_div, abs_div, abs_one]
    rw [this]
    calc |b i - y i| * (1 / |b i| * (1 / |y i|))
        ≤ (K * (S.fp i).u) * (2 / c * (1 / c)) :=
          mul_le_mul h2 (mul_le_mul e2 e1 (by positivity) (by positivity)) (by positivity)
            (by positivity)
      _ = K * (2 / c * (1 / c)) * (S.fp i).u := by ring
      _ ≤ _ := mul_le_mul_of_nonneg_right (le_trans (le_max_right _ _) (le_max_right _ _)) hu
  · rw [abs_inv, ← one_div]
    exact le_trans e1 (le_trans (le_max_left _ _) (le_max_right _ _))

/-- Members may be exchanged where the error is large. -/
theorem congr_ev {d : Nat} {a b x : ι → ℝ} (h : Near S d a x) {L : ℝ} (hL : 1 ≤ L)
    (he : ∀ i, L * (S.fp i).u ≤ 1 → a i = b i) : Near S d b x := by
  obtain ⟨K, hK, h⟩ := h
  refine ⟨max K L, le_trans hK (le_max_left _ _), fun i hi => ?_⟩
  have hu := (S.fp i).u_nonneg
  rw [← he i (le_trans (mul_le_mul_of_nonneg_right (le_max_right _ _) hu) hi)]
  exact up (le_max_left _ _) h i hi

theorem congr {d : Nat} {a b x y : ι → ℝ} (h : Near S d a x) (ha : ∀ i, a i = b i)
    (hx : ∀ i, x i = y i) : Near S d b y := by
  rw [← funext ha, ← funext hx]; exact h

/-- Rounding. -/
theorem rnd {d : Nat} {a x : ι → ℝ} (h : Near S d a x) :
    Near S d (fun i => (S.fp i).rnd (a i)) x := by
  obtain ⟨K, hK, h⟩ := h
  refine ⟨2 * K + 2, by linarith, fun i hi => ?_⟩
  have hu := (S.fp i).u_nonneg
  have hw := w_one S d i
  have hKu : K * (S.fp i).u ≤ 1 := by nlinarith
  have hu1 : (S.fp i).u ≤ 1 := by nlinarith
  obtain ⟨h1, h2⟩ := h i hKu
  have h3 := (S.fp i).err (a i)
  have h4 := S.eta i
  generalize S.m i ^ d = w at *
  generalize (S.fp i).u = u at *
  generalize (S.fp i).eta = eta at *
  have ha : |a i| ≤ K * w + w := by
    have : |a i| ≤ |a i - x i| + |x i| := by
      calc |a i| = |(a i - x i) + x i| := by ring_nf
        _ ≤ _ := abs_add_le _ _
    nlinarith
  have h5 : u * |a i| ≤ u * (K * w + w) := mul_le_mul_of_nonneg_left ha hu
  have h6 : u ^ 2 ≤ u * w := by nlinarith
  constructor
  · have : |(S.fp i).rnd (a i) - x i| ≤ |(S.fp i).rnd (a i) - a i| + |a i - x i| := by
      calc _ = |((S.fp i).rnd (a i) - a i) + (a i - x i)| := by ring_nf
        _ ≤ _ := abs_add_le _ _
    nlinarith
  · nlinarith

end Near

/-! ## Operations of the format -/

/-- A family of rounded numbers near exact ones. -/
def NearF (S : Fam ι) (d : Nat) (a : (i : ι) → Fl (S.fp i)) (x : ι → ℝ) : Prop :=
  Near S d (fun i => (a i).val) x

namespace NearF

theorem zero (d : Nat) : NearF S d (fun _ => 0) (fun _ => (0 : ℝ)) := Near.const d 0

theorem one : NearF S 0 (fun _ => 1) (fun _ => (1 : ℝ)) := Near.const 0 1

theorem nat (n : Nat) : NearF S 0 (fun _ => ((n : Nat) : Fl _)) (fun _ => ((n : Nat) : ℝ)) :=
  (Near.const 0 (n : ℝ)).rnd

theorem sci (m : Nat) (s : Bool) (e : Nat) :
    NearF S 0 (fun _ => (OfScientific.ofScientific m s e : Fl _))
      (fun _ => (OfScientific.ofScientific m s e : ℝ)) :=
  (Near.const 0 (OfScientific.ofScientific m s e : ℝ)).rnd

variable {d : Nat} {a b : (i : ι) → Fl (S.fp i)} {x y : ι → ℝ}

theorem self (h : ∀ i, |(a i).val| ≤ S.m i) : NearF S 1 a (fun i => (a i).val) := Near.self h

theorem add (h : NearF S d a x) (h' : NearF S d b y) :
    NearF S d (fun i => a i + b i) (fun i => x i + y i) := (Near.add h h').rnd

theorem sub (h : NearF S d a x) (h' : NearF S d b y) :
    NearF S d (fun i => a i - b i) (fun i => x i - y i) := (Near.sub h h').rnd

theorem neg (h : NearF S d a x) : NearF S d (fun i => -a i) (fun i => -x i) := Near.neg h

theorem mul0 (h : NearF S 0 a x) (h' : NearF S d b y) :
    NearF S d (fun i => a i * b i) (fun i => x i * y i) := (Near.mul0 h h').rnd

theorem rmul0 (h : NearF S d a x) (h' : NearF S 0 b y) :
    NearF S d (fun i => a i * b i) (fun i => x i * y i) := (Near.rmul0 h h').rnd

theorem div (h : NearF S d a x) (h' : NearF S 0 b y) {c : ℝ} (hc : 0 < c) (hy : ∀ i, c ≤ |y i|) :
    NearF S d (fun i => a i / b i) (fun i => x i / y i) := by
  obtain ⟨L, hL, hb⟩ := Near.away h' hc hy
  have h1 : Near S d (fun i => (S.fp i).rnd ((a i).val / (b i).val)) (fun i => x i / y i) := by
    simpa only [div_eq_mul_inv] using (Near.rmul0 h (Near.inv h' hc hy)).rnd
  refine h1.congr_ev hL fun i hi => (Fl.val_div ?_).symm
  have := (hb i hi).1
  exact abs_pos.mp (by linarith)

/-- Division by a constant. -/
theorem divC {y : ℝ} (h : NearF S d a x) (h' : NearF S 0 b fun _ => y) (hy : y ≠ 0) :
    NearF S d (fun i => a i / b i) (fun i => x i / y) :=
  h.div h' (abs_pos.mpr hy) fun _ => le_refl _

theorem congr {a' : (i : ι) → Fl (S.fp i)} {x' : ι → ℝ} (h : NearF S d a x) (ha : ∀ i, a i = a' i)
    (hx : ∀ i, x i = x' i) : NearF S d a' x' := by
  rw [← funext ha, ← funext hx]; exact h

end NearF

/-! ## Loops -/

/-- Loops of equal length preserve relations that every pass preserves. -/
theorem accum_fam {σ τ : ι → Type} {R : ((i : ι) → σ i) → ((i : ι) → τ i) → Prop} {N : Nat}
    {n n' : ι → Nat} (hn : ∀ i, n i = N) (hn' : ∀ i, n' i = N) {f : (i : ι) → Nat → σ i → σ i}
    {g : (i : ι) → Nat → τ i → τ i} {s : (i : ι) → σ i} {t : (i : ι) → τ i} (h0 : R s t)
    (h : ∀ j s t, j < N → R s t → R (fun i => f i j (s i)) (fun i => g i j (t i))) :
    R (fun i => accum (n i) (f i) (s i)) (fun i => accum (n' i) (g i) (t i)) := by
  have e : ∀ i, n i = N := hn
  have : (fun i => accum (n i) (f i) (s i)) = fun i => accum N (f i) (s i) := by
    funext i; rw [hn]
  rw [this]
  have : (fun i => accum (n' i) (g i) (t i)) = fun i => accum N (g i) (t i) := by
    funext i; rw [hn']
  rw [this]
  clear this e
  suffices H : ∀ k, k ≤ N → R (fun i => accum k (f i) (s i)) (fun i => accum k (g i) (t i)) from
    H N le_rfl
  intro k
  induction k with
  | zero => intro _; exact h0
  | succ k ih => intro hk; exact h k _ _ (by omega) (ih (by omega))

/-- Sums. -/
theorem NearF.sum {d N : Nat} {a : Nat → (i : ι) → Fl (S.fp i)} {x : Nat → ι → ℝ}
    {s : (i : ι) → Fl (S.fp i)} {t : ι → ℝ} (hs : NearF S d s t)
    (h : ∀ j, j < N → NearF S d (a j) (x j)) :
    NearF S d (fun i => accum N (fun j s => s + a j i) (s i))
      (fun i => accum N (fun j s => s + x j i) (t i)) :=
  accum_fam (R := NearF S d) (fun _ => rfl) (fun _ => rfl) hs
    fun j s t hj hst => NearF.add hst (h j hj)

end Verif.Spec
