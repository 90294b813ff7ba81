import Verif.Lemmas.FpNear
import Verif.Lemmas.PlasticCell

/-!
# `plastic_step` in rounded arithmetic

The stress is near the exact one, whichever branch the rounded test takes.
-/

namespace Verif.Spec
open Verif

/-! ## Parts of a family -/

section
variable {ι : Type} {S : Fam ι}

/-- A part of a family. -/
def Fam.part (S : Fam ι) (P : ι → Prop) : Fam {i // P i} :=
  ⟨fun i => S.fp i, fun i => S.m i, fun i => S.one_le i, fun i => S.eta i⟩

variable {d : Nat} {a b x y : ι → ℝ}

theorem Near.part (h : Near S d a x) (P : ι → Prop) :
    Near (S.part P) d (fun i => a i) (fun i => x i) := by
  obtain ⟨K, hK, h⟩ := h
  exact ⟨K, hK, fun i hi => h i hi⟩

theorem Near.glue (P : ι → Prop) (h : Near (S.part P) d (fun i => a i) (fun i => x i))
    (h' : Near (S.part fun i => ¬ P i) d (fun i => a i) (fun i => x i)) : Near S d a x := by
  obtain ⟨K, hK, h⟩ := h
  obtain ⟨L, hL, h'⟩ := h'
  refine ⟨max K L, le_trans hK (le_max_left _ _), fun i hi => ?_⟩
  have hu := (S.fp i).u_nonneg
  have hw := Near.w_one S d i
  by_cases hP : P i
  · have := Near.up (S := S.part P) (le_max_left K L) h ⟨i, hP⟩ hi
    exact this
  · have := Near.up (S := S.part fun i => ¬ P i) (le_max_right K L) h' ⟨i, hP⟩ hi
    exact this

/-- Another exact value within the error. -/
theorem Near.shift (h : Near S d a x)
    (he : ∃ K, 1 ≤ K ∧ ∀ i, K * (S.fp i).u ≤ 1 → |x i - y i| ≤ K * (S.fp i).u * S.m i ^ d) :
    Near S d a y := by
  obtain ⟨K, hK, h⟩ := h
  obtain ⟨L, hL, he⟩ := he
  refine ⟨K + L, by linarith, fun i hi => ?_⟩
  have hu := (S.fp i).u_nonneg
  have hw := Near.w_one S d i
  obtain ⟨h1, h2⟩ := h i (by nlinarith)
  have hLu : L * (S.fp i).u ≤ 1 := by nlinarith
  have h3 := he i hLu
  have h4 : L * (S.fp i).u * S.m i ^ d ≤ L * S.m i ^ d := by
    refine mul_le_mul_of_nonneg_right ?_ (by linarith)
    linarith
  constructor
  · calc |a i - y i| = |(a i - x i) + (x i - y i)| := by ring_nf
      _ ≤ _ := abs_add_le _ _
      _ ≤ _ := by nlinarith
  · calc |y i| = |x i - (x i - y i)| := by ring_nf
      _ ≤ |x i| + |x i - y i| := abs_sub _ _
      _ ≤ _ := by nlinarith

theorem Near.refl (h : Near S d a x) : Near S d a a := by
  obtain ⟨K, hK, h⟩ := h
  refine ⟨2 * K, by linarith, fun i hi => ?_⟩
  have hu := (S.fp i).u_nonneg
  have hw := Near.w_one S d i
  obtain ⟨h1, h2⟩ := h i (by nlinarith)
  refine ⟨by rw [sub_self, abs_zero]; positivity, ?_⟩
  have h3 : K * (S.fp i).u * S.m i ^ d ≤ 1 * S.m i ^ d :=
    mul_le_mul_of_nonneg_right (by nlinarith) (by linarith)
  calc |a i| = |(a i - x i) + x i| := by ring_nf
    _ ≤ _ := abs_add_le _ _
    _ ≤ _ := by nlinarith

theorem Near.bounded (h : ∃ K, 1 ≤ K ∧ ∀ i, K * (S.fp i).u ≤ 1 → |a i| ≤ K) : Near S 0 a a := by
  obtain ⟨K, hK, h⟩ := h
  refine ⟨K, hK, fun i hi => ⟨?_, by simpa using h i hi⟩⟩
  have hu := (S.fp i).u_nonneg
  rw [sub_self, abs_zero]; positivity

theorem Near.all6 {a x : Nat → ι → ℝ} (h : ∀ v, v < 6 → Near S d (a v) (x v)) :
    ∃ K, 1 ≤ K ∧ ∀ v, v < 6 → ∀ i, K * (S.fp i).u ≤ 1 →
      |a v i - x v i| ≤ K * (S.fp i).u * S.m i ^ d ∧ |x v i| ≤ K * S.m i ^ d := by
  obtain ⟨k0, g0, h0⟩ := h 0 (by omega)
  obtain ⟨k1, g1, h1⟩ := h 1 (by omega)
  obtain ⟨k2, g2, h2⟩ := h 2 (by omega)
  obtain ⟨k3, g3, h3⟩ := h 3 (by omega)
  obtain ⟨k4, g4, h4⟩ := h 4 (by omega)
  obtain ⟨k5, g5, h5⟩ := h 5 (by omega)
  refine ⟨k0 + k1 + k2 + k3 + k4 + k5, by linarith, fun v hv i hi => ?_⟩
  interval_cases v
  · exact Near.up (by linarith) h0 i hi
  · exact Near.up (by linarith) h1 i hi
  · exact Near.up (by linarith) h2 i hi
  · exact Near.up (by linarith) h3 i hi
  · exact Near.up (by linarith) h4 i hi
  · exact Near.up (by linarith) h5 i hi

end

/-! ## The norm of the trial stress -/

section
variable {fp : Fp}

theorem rel_add (he : fp.eta ≤ fp.u ^ 2) {K L q r a b : ℝ} (hq : 0 ≤ q) (hr : 0 ≤ r) (hK : 0 ≤ K)
    (hL : 0 ≤ L) (ha : |a - q| ≤ K * (fp.u * q + fp.u ^ 2)) (hb : |b - r| ≤ L * (fp.u * r + fp.u ^ 2))
    (hu : (K + L) * fp.u ≤ 1) :
    |fp.rnd (a + b) - (q + r)| ≤ (K + L + 2) * (fp.u * (q + r) + fp.u ^ 2) := by
  have hu0 := fp.u_nonneg
  have h1 := fp.err (a + b)
  have h2 : |a + b - (q + r)| ≤ (K + L) * (fp.u * (q + r) + fp.u ^ 2) := by
    calc |a + b - (q + r)| = |(a - q) + (b - r)| := by ring_nf
      _ ≤ _ := abs_add_le _ _
      _ ≤ K * (fp.u * q + fp.u ^ 2) + L * (fp.u * r + fp.u ^ 2) := add_le_add ha hb
      _ ≤ _ := by nlinarith [mul_nonneg hK (mul_nonneg hu0 hr), mul_nonneg hL (mul_nonneg hu0 hq)]
  have h3 : |a + b| ≤ 2 * (q + r) + fp.u := by
    have e : (K + L) * (fp.u * (q + r) + fp.u ^ 2) = ((K + L) * fp.u) * (q + r + fp.u) := by ring
    have : ((K + L) * fp.u) * (q + r + fp.u) ≤ 1 * (q + r + fp.u) :=
      mul_le_mul_of_nonneg_right hu (by linarith)
    calc |a + b| = |(a + b - (q + r)) + (q + r)| := by ring_nf
      _ ≤ |a + b - (q + r)| + |q + r| := abs_add_le _ _
      _ ≤ _ := by rw [abs_of_nonneg (by linarith : 0 ≤ q + r)]; linarith
  calc |fp.rnd (a + b) - (q + r)| = |(fp.rnd (a + b) - (a + b)) + (a + b - (q + r))| := by ring_nf
    _ ≤ _ := abs_add_le _ _
    _ ≤ _ := by nlinarith [mul_le_mul_of_nonneg_left h3 hu0]

theorem rel_sq (he : fp.eta ≤ fp.u ^ 2) (x : ℝ) :
    |fp.rnd (x * x) - x ^ 2| ≤ 1 * (fp.u * x ^ 2 + fp.u ^ 2) := by
  have h1 := fp.err (x * x)
  rw [abs_of_nonneg (mul_self_nonneg x)] at h1
  rw [sq x]; linarith

theorem rel_two_sq (he : fp.eta ≤ fp.u ^ 2) (hu : fp.u ≤ 1 / 8) (x : ℝ) :
    |fp.rnd (fp.rnd (fp.rnd ((2 : Nat) : ℝ) * x) * x) - 2 * x ^ 2|
      ≤ 5 * (fp.u * (2 * x ^ 2) + fp.u ^ 2) := by
  have hu0 := fp.u_nonneg
  have h1 := fp.err ((2 : Nat) : ℝ)
  push_cast at h1 ⊢
  rw [abs_of_pos (by norm_num : (0:ℝ) < 2)] at h1
  generalize fp.rnd 2 = w at *
  have h2 := fp.err (w * x)
  generalize fp.rnd (w * x) = y at *
  have h3 := fp.err (y * x)
  generalize fp.rnd (y * x) = z at *
  generalize fp.eta = eta at *
  generalize fp.u = u at *
  have hx := abs_nonneg x
  have hx2 : |x| * |x| = x ^ 2 := by rw [abs_mul_abs_self, sq]
  have g1 : |w - 2| ≤ 3 * u := by nlinarith
  have g2 : |w| ≤ 3 := by
    calc |w| = |(w - 2) + 2| := by ring_nf
      _ ≤ |w - 2| + |(2:ℝ)| := abs_add_le _ _
      _ ≤ 3 := by rw [abs_of_pos (by norm_num : (0:ℝ) < 2)]; linarith
  have g3 : |y - 2 * x| ≤ 6 * u * |x| + u ^ 2 := by
    rw [abs_mul] at h2
    calc |y - 2 * x| = |(y - w * x) + (w - 2) * x| := by ring_nf
      _ ≤ |y - w * x| + |(w - 2) * x| := abs_add_le _ _
      _ ≤ _ := by
        rw [abs_mul]
        have e1 : |w| * |x| ≤ 3 * |x| := mul_le_mul_of_nonneg_right g2 hx
        have e2 : |w - 2| * |x| ≤ 3 * u * |x| := mul_le_mul_of_nonneg_right g1 hx
        nlinarith [mul_le_mul_of_nonneg_left e1 hu0]
  have g4 : |y * x - 2 * x ^ 2| ≤ 7 * u * x ^ 2 + u ^ 2 := by
    rw [show y * x - 2 * x ^ 2 = (y - 2 * x) * x by ring, abs_mul]
    have e1 : |y - 2 * x| * |x| ≤ (6 * u * |x| + u ^ 2) * |x| := mul_le_mul_of_nonneg_right g3 hx
    have e2 : (6 * u * |x| + u ^ 2) * |x| = 6 * u * x ^ 2 + u * (u * |x|) := by rw [← hx2]; ring
    have e3 : u * |x| ≤ x ^ 2 + u := by
      rw [← hx2]; nlinarith [sq_nonneg (|x| - u)]
    nlinarith [mul_le_mul_of_nonneg_left e3 hu0]
  have g5 : |y * x| ≤ 3 * x ^ 2 + u := by
    calc |y * x| = |(y * x - 2 * x ^ 2) + 2 * x ^ 2| := by ring_nf
      _ ≤ |y * x - 2 * x ^ 2| + |2 * x ^ 2| := abs_add_le _ _
      _ ≤ _ := by
        rw [abs_of_nonneg (by positivity : 0 ≤ 2 * x ^ 2)]
        nlinarith [sq_nonneg x]
  calc |z - 2 * x ^ 2| = |(z - y * x) + (y * x - 2 * x ^ 2)| := by ring_nf
    _ ≤ _ := abs_add_le _ _
    _ ≤ _ := by nlinarith [mul_le_mul_of_nonneg_left g5 hu0, sq_nonneg x, mul_nonneg hu0 (sq_nonneg x)]

theorem sqrt_near {K u a q : ℝ} (hK : 1 ≤ K) (hu0 : 0 ≤ u) (hu : u ≤ 1) (hq : 0 ≤ q)
    (h : |a - q| ≤ K * (u * q + u ^ 2)) : |Real.sqrt a - Real.sqrt q| ≤ 2 * K * u * (Real.sqrt q + 1) := by
  have hs := Real.sqrt_nonneg q
  have ha := Real.sqrt_nonneg a
  have hq2 := Real.mul_self_sqrt hq
  have hkey : |Real.sqrt a - Real.sqrt q| * Real.sqrt q ≤ |a - q| ∧
      |Real.sqrt a - Real.sqrt q| ^ 2 ≤ |a - q| := by
    by_cases h0 : 0 ≤ a
    · have ha2 := Real.mul_self_sqrt h0
      have e : a - q = (Real.sqrt a - Real.sqrt q) * (Real.sqrt a + Real.sqrt q) := by
        nlinarith
      have e' : |a - q| = |Real.sqrt a - Real.sqrt q| * (Real.sqrt a + Real.sqrt q) := by
        rw [e, abs_mul, abs_of_nonneg (by linarith : 0 ≤ Real.sqrt a + Real.sqrt q)]
      rw [e']
      refine ⟨mul_le_mul_of_nonneg_left (by linarith) (abs_nonneg _), ?_⟩
      rw [sq]
      refine mul_le_mul_of_nonneg_left ?_ (abs_nonneg _)
      rw [abs_le]; constructor <;> linarith
    · have e : Real.sqrt a = 0 := Real.sqrt_eq_zero_of_nonpos (by linarith)
      rw [e, zero_sub, abs_neg, abs_of_nonneg hs, sq, hq2]
      have : q ≤ |a - q| := by rw [abs_of_nonpos (by linarith)]; linarith
      exact ⟨this, this⟩
  obtain ⟨k1, k2⟩ := hkey
  by_cases hc : u ≤ Real.sqrt q
  · by_cases h0 : Real.sqrt q = 0
    · have hu1 : u = 0 := by linarith
      rw [h0] at hq2
      have : |a - q| ≤ 0 := by
        refine h.trans (le_of_eq ?_); rw [hu1]; ring
      have k3 : |Real.sqrt a - Real.sqrt q| ^ 2 ≤ 0 := k2.trans this
      have k4 : |Real.sqrt a - Real.sqrt q| = 0 := by
        have := pow_eq_zero_iff (two_ne_zero) |>.mp (le_antisymm k3 (sq_nonneg _))
        exact this
      rw [k4]; positivity
    · have hp : 0 < Real.sqrt q := lt_of_le_of_ne hs (Ne.symm h0)
      refine le_of_mul_le_mul_right (k1.trans (h.trans ?_)) hp
      have e1 : u ^ 2 ≤ u * Real.sqrt q := by nlinarith
      have e2 : u * q = u * (Real.sqrt q * Real.sqrt q) := by rw [hq2]
      have e3 : K * (u * q + u ^ 2) ≤ K * (u * (Real.sqrt q * Real.sqrt q) + u * Real.sqrt q) := by
        rw [e2]; exact mul_le_mul_of_nonneg_left (by linarith) (by linarith)
      have e4 : 0 ≤ K * (u * (Real.sqrt q * Real.sqrt q) + u * Real.sqrt q) := by positivity
      nlinarith
  · have hc := not_le.mp hc
    have e1 : q ≤ u ^ 2 := by rw [← hq2]; nlinarith
    have e2 : |Real.sqrt a - Real.sqrt q| ^ 2 ≤ (2 * K * u) ^ 2 := by
      refine (k2.trans h).trans ?_
      have e3 : u * q ≤ u ^ 2 := by nlinarith
      have e4 : K * (u * q + u ^ 2) ≤ K * (2 * u ^ 2) := mul_le_mul_of_nonneg_left (by linarith) (by linarith)
      have e5 : K * u ^ 2 ≤ K * K * u ^ 2 := mul_le_mul_of_nonneg_right (by nlinarith) (sq_nonneg u)
      nlinarith [mul_nonneg (by linarith : 0 ≤ K) (sq_nonneg u)]
    have e3 : |Real.sqrt a - Real.sqrt q| ≤ 2 * K * u := le_of_sq_le_sq e2 (by positivity)
    have e4 : 2 * K * u * 1 ≤ 2 * K * u * (Real.sqrt q + 1) :=
      mul_le_mul_of_nonneg_left (by linarith) (by positivity)
    linarith

/-- The rounded norm of the rounded components. -/
theorem sigNorm_rounded (he : fp.eta ≤ fp.u ^ 2) (hu : fp.u ≤ 1 / 32) (s : Nat → Fl fp) :
    |(sigNorm s).val - stressNorm fun v => (s v).val|
      ≤ 60 * fp.u * ((stressNorm fun v => (s v).val) + 1) := by
  have hu0 := fp.u_nonneg
  have hu8 : fp.u ≤ 1 / 8 := by linarith
  have p : ∀ x : ℝ, 0 ≤ x ^ 2 := fun x => sq_nonneg x
  have p2 : ∀ x : ℝ, 0 ≤ 2 * x ^ 2 := fun x => by positivity
  have a1 := rel_add he (p _) (p _) (by norm_num) (by norm_num) (rel_sq he (s 0).val) (rel_sq he (s 1).val)
    (by linarith)
  have a2 := rel_add he (add_nonneg (p _) (p _)) (p _) (by norm_num) (by norm_num) a1 (rel_sq he (s 2).val)
    (by linarith)
  have q2 := add_nonneg (add_nonneg (p (s 0).val) (p (s 1).val)) (p (s 2).val)
  have a3 := rel_add he q2 (p2 _) (by norm_num) (by norm_num) a2 (rel_two_sq he hu8 (s 3).val) (by linarith)
  have q3 := add_nonneg q2 (p2 (s 3).val)
  have a4 := rel_add he q3 (p2 _) (by norm_num) (by norm_num) a3 (rel_two_sq he hu8 (s 4).val) (by linarith)
  have q4 := add_nonneg q3 (p2 (s 4).val)
  have a5 := rel_add he q4 (p2 _) (by norm_num) (by norm_num) a4 (rel_two_sq he hu8 (s 5).val) (by linarith)
  have q5 := add_nonneg q4 (p2 (s 5).val)
  norm_num at a5
  have eq : (stressNorm fun v => (s v).val) = Real.sqrt ((s 0).val ^ 2 + (s 1).val ^ 2 + (s 2).val ^ 2
      + 2 * (s 3).val ^ 2 + 2 * (s 4).val ^ 2 + 2 * (s 5).val ^ 2) := by
    unfold stressNorm; congr 1; ring
  have ev : (sigNorm s).val = fp.rnd (Real.sqrt (fp.rnd (fp.rnd (fp.rnd (fp.rnd (fp.rnd
      (fp.rnd ((s 0).val * (s 0).val) + fp.rnd ((s 1).val * (s 1).val)) + fp.rnd ((s 2).val * (s 2).val))
      + fp.rnd (fp.rnd (fp.rnd 2 * (s 3).val) * (s 3).val)) + fp.rnd (fp.rnd (fp.rnd 2 * (s 4).val) * (s 4).val))
      + fp.rnd (fp.rnd (fp.rnd 2 * (s 5).val) * (s 5).val)))) := by
    unfold sigNorm
    simp only [Fl.val_sqrt, Fl.val_add, Fl.val_mul, Fl.val_nat]
    norm_num
  rw [eq, ev]
  generalize (s 0).val ^ 2 + (s 1).val ^ 2 + (s 2).val ^ 2
      + 2 * (s 3).val ^ 2 + 2 * (s 4).val ^ 2 + 2 * (s 5).val ^ 2 = q at *
  generalize fp.rnd (fp.rnd (fp.rnd (fp.rnd (fp.rnd
      (fp.rnd ((s 0).val * (s 0).val) + fp.rnd ((s 1).val * (s 1).val)) + fp.rnd ((s 2).val * (s 2).val))
      + fp.rnd (fp.rnd (fp.rnd 2 * (s 3).val) * (s 3).val)) + fp.rnd (fp.rnd (fp.rnd 2 * (s 4).val) * (s 4).val))
      + fp.rnd (fp.rnd (fp.rnd 2 * (s 5).val) * (s 5).val)) = a at *
  have h1 := sqrt_near (K := 28) (by norm_num) hu0 (by linarith) q5 a5
  have h2 := fp.err (Real.sqrt a)
  rw [abs_of_nonneg (Real.sqrt_nonneg a)] at h2
  have hs := Real.sqrt_nonneg q
  generalize Real.sqrt a = x at *
  generalize Real.sqrt q = y at *
  have h3 : x ≤ 3 * (y + 1) := by
    have := (abs_le.mp h1).2
    nlinarith
  calc |fp.rnd x - y| = |(fp.rnd x - x) + (x - y)| := by ring_nf
    _ ≤ _ := abs_add_le _ _
    _ ≤ _ := by nlinarith [mul_le_mul_of_nonneg_left h3 hu0]

end

theorem stressNorm_diff (s t : Nat → ℝ) :
    |stressNorm s - stressNorm t| ≤ stressNorm fun i => s i - t i := by
  refine le_of_sq_le_sq ?_ (stressNorm_nonneg _)
  rw [sq_abs, stressNorm_sub_sq]
  nlinarith [sdot_le s t]

theorem stressNorm_le {s : Nat → ℝ} {b : ℝ} (h : ∀ v, v < 6 → |s v| ≤ b) : stressNorm s ≤ 3 * b := by
  have hb : 0 ≤ b := (abs_nonneg _).trans (h 0 (by omega))
  refine le_of_sq_le_sq ?_ (by positivity)
  rw [stressNorm_sq]
  have q : ∀ v, v < 6 → s v ^ 2 ≤ b ^ 2 := fun v hv => sq_le_sq' (by linarith [(abs_le.mp (h v hv)).1])
    (abs_le.mp (h v hv)).2
  have q0 := q 0 (by omega); have q1 := q 1 (by omega); have q2 := q 2 (by omega)
  have q3 := q 3 (by omega); have q4 := q 4 (by omega); have q5 := q 5 (by omega)
  linarith

section
variable {ι : Type} {S : Fam ι}

theorem near_sigNorm {s : (i : ι) → Nat → Fl (S.fp i)} {x : ι → Nat → ℝ}
    (h : ∀ v, v < 6 → NearF S 1 (fun i => s i v) (fun i => x i v)) :
    NearF S 1 (fun i => sigNorm (s i)) (fun i => stressNorm (x i)) := by
  obtain ⟨K, hK, h⟩ := Near.all6 (S := S) (d := 1) (a := fun v i => (s i v).val) (x := fun v i => x i v) h
  refine ⟨60 * (6 * K + 1) + 3 * K + 32, by nlinarith, fun i hi => ?_⟩
  have hu := (S.fp i).u_nonneg
  have hm := S.one_le i
  have hKu : K * (S.fp i).u ≤ 1 := by nlinarith
  have hu32 : (S.fp i).u ≤ 1 / 32 := by nlinarith
  have h1 := sigNorm_rounded (S.eta i) hu32 (s i)
  have h2 := stressNorm_diff (fun v => (s i v).val) (x i)
  have h3 : stressNorm (fun v => (s i v).val - x i v) ≤ 3 * (K * (S.fp i).u * S.m i) :=
    stressNorm_le fun v hv => by simpa using (h v hv i hKu).1
  have h4 : stressNorm (x i) ≤ 3 * (K * S.m i) := stressNorm_le fun v hv => by simpa using (h v hv i hKu).2
  have h5 := stressNorm_nonneg (x i)
  have h6 : K * (S.fp i).u * S.m i ≤ S.m i := by nlinarith
  have h7 : (stressNorm fun v => (s i v).val) ≤ 6 * K * S.m i := by
    have := (abs_le.mp h2).2
    nlinarith
  rw [pow_one]
  generalize (stressNorm fun v => (s i v).val) = y at *
  have h8 : (S.fp i).u * (y + 1) ≤ (S.fp i).u * ((6 * K + 1) * S.m i) :=
    mul_le_mul_of_nonneg_left (by nlinarith) hu
  have h9 : 0 ≤ (S.fp i).u * S.m i := by positivity
  constructor
  · calc |(sigNorm (s i)).val - stressNorm (x i)|
        = |((sigNorm (s i)).val - y) + (y - stressNorm (x i))| := by ring_nf
      _ ≤ _ := abs_add_le _ _
      _ ≤ _ := by nlinarith
  · rw [abs_of_nonneg h5]
    nlinarith

/-- The rounded norm is not much smaller than the components. -/
theorem comp_le_norm {fp : Fp} (he : fp.eta ≤ fp.u ^ 2) (hu : fp.u ≤ 1 / 120) (s : Nat → Fl fp) {v : Nat}
    (hv : v < 6) : |(s v).val| ≤ 2 * (sigNorm s).val + 1 := by
  have h1 := sigNorm_rounded he (by linarith) s
  have h2 := abs_le_stressNorm (fun v => (s v).val) hv
  have h3 := stressNorm_nonneg fun v => (s v).val
  have hu0 := fp.u_nonneg
  have := (abs_le.mp h1).1
  nlinarith

variable {M : Material ℝ} {m : (i : ι) → Material (Fl (S.fp i))} {eps p : (i : ι) → Nat → Fl (S.fp i)}
  {x P : ι → Nat → ℝ} {al : (i : ι) → Fl (S.fp i)} {A : ι → ℝ}

theorem near_devTensor (he : ∀ v, v < 6 → NearF S 1 (fun i => eps i v) (fun i => x i v)) {v : Nat}
    (hv : v < 6) : NearF S 1 (fun i => devTensor (eps i) v) (fun i => devTensor (x i) v) := by
  have e : NearF S 0 (fun _ => (1 / 3.0 : Fl _)) (fun _ => (1 / 3.0 : ℝ)) :=
    NearF.one.divC (NearF.sci _ _ _) (by norm_num)
  unfold devTensor
  split
  · exact (he v hv).sub (e.mul0 (((he 0 (by omega)).add (he 1 (by omega))).add (he 2 (by omega))))
  · exact he v hv

theorem near_sigTrial (hmu : NearF S 0 (fun i => (m i).mu) fun _ => M.mu)
    (he : ∀ v, v < 6 → NearF S 1 (fun i => eps i v) (fun i => x i v))
    (hp : ∀ v, v < 6 → NearF S 1 (fun i => p i v) (fun i => P i v)) {v : Nat} (hv : v < 6) :
    NearF S 1 (fun i => sigTrial (m i) (eps i) (p i) v) (fun i => sigTrial M (x i) (P i) v) := by
  have d := (near_devTensor he hv).sub (near_devTensor hp hv)
  unfold sigTrial
  split
  · exact ((NearF.nat 2).mul0 hmu).mul0 d
  · exact hmu.mul0 d

theorem near_root : NearF S 0 (fun _ => Scalar.sqrt (2.0 / ((3 : Nat) : Fl _)))
    (fun _ => Real.sqrt (2 / 3)) := by
  have h : NearF S 0 (fun _ => (2.0 / ((3 : Nat) : Fl _))) (fun _ => (2.0 / ((3 : Nat) : ℝ))) :=
    (NearF.sci 20 true 1).divC (NearF.nat 3) (by norm_num)
  have e : (2.0 / ((3 : Nat) : ℝ)) = 2 / 3 := by norm_num
  rw [e] at h
  refine Near.rnd (a := fun i => Real.sqrt (2.0 / ((3 : Nat) : Fl (S.fp i))).val) ?_
  obtain ⟨K, hK, h⟩ := h
  refine ⟨2 * K, by linarith, fun i hi => ?_⟩
  have hu := (S.fp i).u_nonneg
  have h1 := (h i (by nlinarith)).1
  rw [pow_zero, mul_one] at h1 ⊢
  have hs : Real.sqrt (2 / 3) * Real.sqrt (2 / 3) = 2 / 3 := Real.mul_self_sqrt (by norm_num)
  have hp := Real.sqrt_nonneg (2 / 3 : ℝ)
  have hle : Real.sqrt (2 / 3) ≤ 1 := by nlinarith
  have hge : (1:ℝ) / 2 ≤ Real.sqrt (2 / 3) := by
    by_contra hc
    have := not_le.mp hc
    nlinarith
  refine ⟨?_, by rw [abs_of_nonneg hp]; nlinarith⟩
  beta_reduce at h1 ⊢
  generalize (2.0 / ((3 : Nat) : Fl (S.fp i))).val = a at *
  have hk : |Real.sqrt a - Real.sqrt (2 / 3)| * Real.sqrt (2 / 3) ≤ |a - 2 / 3| := by
    have ha := Real.sqrt_nonneg a
    by_cases h0 : 0 ≤ a
    · have ha2 := Real.mul_self_sqrt h0
      have e : a - 2 / 3 = (Real.sqrt a - Real.sqrt (2 / 3)) * (Real.sqrt a + Real.sqrt (2 / 3)) := by
        nlinarith
      rw [e, abs_mul, abs_of_nonneg (by linarith : 0 ≤ Real.sqrt a + Real.sqrt (2 / 3))]
      exact mul_le_mul_of_nonneg_left (by linarith) (abs_nonneg _)
    · have e : Real.sqrt a = 0 := Real.sqrt_eq_zero_of_nonpos (by linarith)
      rw [e, zero_sub, abs_neg, abs_of_nonneg hp, hs, abs_of_nonpos (by linarith)]; linarith
  nlinarith [abs_nonneg (Real.sqrt a - Real.sqrt (2 / 3))]

theorem near_radius (hSy : NearF S 0 (fun i => (m i).Sy) fun _ => M.Sy)
    (hKa : NearF S 0 (fun i => (m i).Ka) fun _ => M.Ka) (ha : NearF S 0 al A) :
    NearF S 0 (fun i => Scalar.sqrt (2.0 / ((3 : Nat) : Fl _)) * ((m i).Sy + (m i).Ka * al i))
      (fun i => yieldRadius M.Sy M.Ka (A i)) :=
  near_root.mul0 (hSy.add (hKa.mul0 ha))

theorem near_fTrial (hmu : NearF S 0 (fun i => (m i).mu) fun _ => M.mu)
    (hSy : NearF S 0 (fun i => (m i).Sy) fun _ => M.Sy)
    (hKa : NearF S 0 (fun i => (m i).Ka) fun _ => M.Ka) (ha : NearF S 0 al A)
    (he : ∀ v, v < 6 → NearF S 1 (fun i => eps i v) (fun i => x i v))
    (hp : ∀ v, v < 6 → NearF S 1 (fun i => p i v) (fun i => P i v)) :
    NearF S 1 (fun i => fTrial (m i) (eps i) (p i) (al i))
      (fun i => stressNorm (sigTrial M (x i) (P i)) - yieldRadius M.Sy M.Ka (A i)) := by
  refine (near_sigNorm fun v hv => near_sigTrial hmu he hp hv).sub ?_
  obtain ⟨K, hK, h⟩ := near_radius (M := M) hSy hKa ha
  refine ⟨K, hK, fun i hi => ?_⟩
  have hu := (S.fp i).u_nonneg
  have hm := S.one_le i
  obtain ⟨h1, h2⟩ := h i hi
  rw [pow_zero, mul_one] at h1 h2
  rw [pow_one]
  exact ⟨h1.trans (le_mul_of_one_le_right (by positivity) hm), h2.trans (le_mul_of_one_le_right (by linarith) hm)⟩

theorem ret_flow {s s' N n R R' r B E : ℝ} (hr : 0 < r) (hR : r ≤ R) (hn : r / 2 ≤ n) (hs : |s| ≤ N)
    (h1 : |s' - s| ≤ E) (h2 : |n - N| ≤ E) (h3 : |R' - R| ≤ E) (h4 : R' ≤ n) (h5 : |s' / n| ≤ B) :
    |s - (n - R) * (s' / n) - retFactor N R * s| ≤ E + R * (4 / r) * E + B * E := by
  have hE : 0 ≤ E := (abs_nonneg _).trans h1
  have hB : 0 ≤ B := (abs_nonneg _).trans h5
  have hn0 : 0 < n := by linarith
  have hR0 : 0 < R := by linarith
  unfold retFactor
  split
  · rename_i hlt
    have hN : 0 < N := by linarith
    have e : s - (n - R) * (s' / n) - R / N * s = (s - s') + R * (s' / n - s / N) := by
      field_simp; ring
    have e1 : |s' / n - s / N| ≤ 4 / r * E := by
      have e2 : s' / n - s / N = ((s' - s) * N + s * (N - n)) / (n * N) := by field_simp; ring
      rw [e2, abs_div, abs_of_pos (mul_pos hn0 hN), div_le_iff₀ (mul_pos hn0 hN)]
      calc |(s' - s) * N + s * (N - n)| ≤ |(s' - s) * N| + |s * (N - n)| := abs_add_le _ _
        _ = |s' - s| * N + |s| * |n - N| := by rw [abs_mul, abs_mul, abs_of_pos hN, abs_sub_comm N n]
        _ ≤ E * N + N * E := add_le_add (mul_le_mul_of_nonneg_right h1 hN.le)
            (mul_le_mul hs h2 (abs_nonneg _) hN.le)
        _ ≤ _ := by
          have : 1 ≤ 2 / r * n := by rw [div_mul_eq_mul_div, le_div_iff₀ hr]; linarith
          have h6 : 0 ≤ 2 * E * N := by positivity
          have h7 : 4 / r * E * (n * N) = 2 * E * N * (2 / r * n) := by ring
          rw [h7]; nlinarith
    rw [e]
    calc |(s - s') + R * (s' / n - s / N)| ≤ |s - s'| + |R * (s' / n - s / N)| := abs_add_le _ _
      _ ≤ E + R * (4 / r * E) := by
        rw [abs_mul, abs_of_pos hR0, abs_sub_comm]
        exact add_le_add h1 (mul_le_mul_of_nonneg_left e1 hR0.le)
      _ ≤ _ := by nlinarith [mul_nonneg hB hE]
  · rename_i hge
    have e : s - (n - R) * (s' / n) - 1 * s = -((n - R) * (s' / n)) := by ring
    rw [e, abs_neg, abs_mul]
    have h6 : |n - R| ≤ E := by
      rw [abs_le] at h2 h3 ⊢
      constructor <;> linarith
    have h7 : |n - R| * |s' / n| ≤ E * B := mul_le_mul h6 h5 (abs_nonneg _) hE
    have h8 : 0 ≤ R * (4 / r) * E := by positivity
    nlinarith

theorem ret_stay {s N R E : ℝ} (hR : 0 < R) (hs : |s| ≤ N) (h : N - R ≤ E) (hE : 0 ≤ E) :
    |s - retFactor N R * s| ≤ E := by
  unfold retFactor
  split
  · rename_i hlt
    have hN : 0 < N := by linarith
    have e : s - R / N * s = s / N * (N - R) := by field_simp
    have h1 : |s / N| ≤ 1 := by rw [abs_div, abs_of_pos hN, div_le_one hN]; exact hs
    rw [e, abs_mul, abs_of_nonneg (by linarith : 0 ≤ N - R)]
    nlinarith [abs_nonneg (s / N)]
  · rw [one_mul, sub_self, abs_zero]; exact hE

set_option maxHeartbeats 1000000 in
/-- The stress of `plastic_step` is near the exact one, whichever branch is taken. -/
theorem near_plastic (hM : M.J2) (hmu : NearF S 0 (fun i => (m i).mu) fun _ => M.mu)
    (hk : NearF S 0 (fun i => (m i).k) fun _ => M.k)
    (hSy : NearF S 0 (fun i => (m i).Sy) fun _ => M.Sy)
    (hKa : NearF S 0 (fun i => (m i).Ka) fun _ => M.Ka) (ha : NearF S 0 al A)
    (he : ∀ v, v < 6 → NearF S 1 (fun i => eps i v) (fun i => x i v))
    (hp : ∀ v, v < 6 → NearF S 1 (fun i => p i v) (fun i => P i v)) {r : ℝ} (hr : 0 < r)
    (hR : ∀ i, r ≤ yieldRadius M.Sy M.Ka (A i)) {v : Nat} (hv : v < 6) :
    NearF S 1 (fun i => (plasticStep (m i) (eps i) (p i) (al i)).stress v)
      (fun i => (plasticStep M (x i) (P i) (A i)).stress v) := by
  have hs := fun v (hv : v < 6) => near_sigTrial (M := M) hmu he hp hv
  have hn := near_sigNorm hs
  have hrad := near_radius (M := M) hSy hKa ha
  have hf := near_fTrial (M := M) hmu hSy hKa ha he hp
  have hrad1 : Near S 1 (fun i => (Scalar.sqrt (2.0 / ((3 : Nat) : Fl _)) * ((m i).Sy + (m i).Ka * al i)).val)
      (fun i => yieldRadius M.Sy M.Ka (A i)) := by
    simpa using Near.rmul0 (Near.const (S := S) 1 1) hrad
  have hpre : NearF S 1 (fun i => if v < 3 then sigTrial (m i) (eps i) (p i) v
        + (m i).k * (eps i 0 + eps i 1 + eps i 2) else sigTrial (m i) (eps i) (p i) v)
      (fun i => sigTrial M (x i) (P i) v + if v < 3 then M.k * tr (x i) else 0) := by
    split
    · exact (hs v hv).add (hk.mul0 (((he 0 (by omega)).add (he 1 (by omega))).add (he 2 (by omega))))
    · exact (hs v hv).congr (fun _ => rfl) fun _ => (add_zero _).symm
  have hexact : ∀ i, (plasticStep M (x i) (P i) (A i)).stress v
      = retFactor (stressNorm (sigTrial M (x i) (P i))) (yieldRadius M.Sy M.Ka (A i)) * sigTrial M (x i) (P i) v
        + if v < 3 then M.k * tr (x i) else 0 := fun i => by
    rw [plasticStep_radLaw hM _ _ (hr.le.trans (hR i)) hv, ← hM.bulk]; rfl
  obtain ⟨K1, hK1, f1⟩ := hs v hv
  obtain ⟨K2, hK2, f2⟩ := hn
  obtain ⟨K3, hK3, f3⟩ := hrad
  obtain ⟨K4, hK4, f4⟩ := hf
  refine Near.glue (fun i => 0 < (fTrial (m i) (eps i) (p i) (al i)).val) ?_ ?_
  · -- flow
    let Q := fun i => 0 < (fTrial (m i) (eps i) (p i) (al i)).val
    let T := S.part Q
    -- the norm is bounded below
    have low : ∃ L, 1 ≤ L ∧ ∀ i : {i // Q i}, L * (S.fp i).u ≤ 1 →
        r / 2 ≤ (sigNorm (sigTrial (m i) (eps i) (p i))).val ∧
        (Scalar.sqrt (2.0 / ((3 : Nat) : Fl _)) * ((m i).Sy + (m i).Ka * al i)).val
          ≤ (sigNorm (sigTrial (m i) (eps i) (p i))).val := by
      refine ⟨K3 * (2 / r + 1), ?_, fun i hi => ?_⟩
      · have : 0 < 2 / r := by positivity
        nlinarith
      have hu := (S.fp i).u_nonneg
      have h2r : 0 < 2 / r := by positivity
      have h0 : K3 * (S.fp i).u * (2 / r) + K3 * (S.fp i).u ≤ 1 := by
        calc _ = K3 * (2 / r + 1) * (S.fp i).u := by ring
          _ ≤ 1 := hi
      have hKu0 : 0 ≤ K3 * (S.fp i).u := by positivity
      have h1 := (f3 i (by nlinarith)).1
      rw [pow_zero, mul_one] at h1
      have h2 := hR i
      have h3 : K3 * (S.fp i).u ≤ r / 2 := by
        have : K3 * (S.fp i).u * (2 / r) ≤ 1 := by linarith
        rw [mul_div_assoc', div_le_one hr] at this
        linarith
      have h4 : (Scalar.sqrt (2.0 / ((3 : Nat) : Fl _)) * ((m i).Sy + (m i).Ka * al i)).val
          ≤ (sigNorm (sigTrial (m i) (eps i) (p i))).val := by
        by_contra hc
        have hc := not_le.mp hc
        have h5 : (fTrial (m i) (eps i) (p i) (al i)).val ≤ 0 := by
          unfold fTrial
          rw [Fl.val_sub, ← Fl.rnd_zero (fp := S.fp i)]
          exact (S.fp i).mono (by linarith)
        exact absurd i.2 (not_lt.mpr h5)
      exact ⟨by linarith [(abs_le.mp h1).1], h4⟩
    obtain ⟨L, hL, low⟩ := low
    -- the direction
    have bnd : ∃ B, 1 ≤ B ∧ ∀ i : {i // Q i}, B * (S.fp i).u ≤ 1 →
        |(sigTrial (m i) (eps i) (p i) v).val / (sigNorm (sigTrial (m i) (eps i) (p i))).val| ≤ B := by
      have h2r' : 0 < 2 / r := by positivity
      refine ⟨L + 120 + 2 + 2 / r, by linarith, fun i hi => ?_⟩
      have hu := (S.fp i).u_nonneg
      have h2r : 0 < 2 / r := by positivity
      have h1 := (low i (by nlinarith)).1
      have h2 := comp_le_norm (S.eta i) (by nlinarith) (sigTrial (m i) (eps i) (p i)) hv
      have h3 : 0 < (sigNorm (sigTrial (m i) (eps i) (p i))).val := by linarith
      rw [abs_div, abs_of_pos h3, div_le_iff₀ h3]
      have h4 : 1 ≤ 2 / r * (sigNorm (sigTrial (m i) (eps i) (p i))).val := by
        rw [div_mul_eq_mul_div, le_div_iff₀ hr]; linarith
      nlinarith
    have hdir : NearF T 0 (fun i : {i // Q i} => sigTrial (m i) (eps i) (p i) v / sigNorm (sigTrial (m i) (eps i) (p i)))
        (fun i => (sigTrial (m i) (eps i) (p i) v).val / (sigNorm (sigTrial (m i) (eps i) (p i))).val) := by
      refine (Near.bounded (S := T) bnd).rnd.congr_ev hL fun i hi => (Fl.val_div ?_).symm
      have := (low i hi).1
      exact ne_of_gt (by linarith)
    -- the increment
    have hfT : NearF T 1 (fun i : {i // Q i} => fTrial (m i) (eps i) (p i) (al i))
        (fun i => (sigNorm (sigTrial (m i) (eps i) (p i))).val - yieldRadius M.Sy M.Ka (A i)) := by
      have h1 : Near T 1 (fun i : {i // Q i} => (sigNorm (sigTrial (m i) (eps i) (p i))).val)
          (fun i => (sigNorm (sigTrial (m i) (eps i) (p i))).val) :=
        (Near.part (S := S) ⟨K2, hK2, f2⟩ Q).refl
      exact (Near.sub h1 (hrad1.part Q)).rnd
    have hmuT : NearF T 0 (fun i : {i // Q i} => (m i).mu) fun _ => M.mu := Near.part hmu Q
    have hKaT : NearF T 0 (fun i : {i // Q i} => (m i).Ka) fun _ => M.Ka := Near.part hKa Q
    have hmu0 := hM.mu_pos
    have hden : NearF T 0 (fun i : {i // Q i} => (((2 : Nat) : Fl _) * (m i).mu
          * (1.0 + (0.0 * (m i).Ka) / (((3 : Nat) : Fl _) * (m i).mu))))
        (fun _ => ((2 : Nat) : ℝ) * M.mu * (1.0 + (0.0 * M.Ka) / (((3 : Nat) : ℝ) * M.mu))) :=
      ((NearF.nat 2).mul0 hmuT).mul0 ((NearF.sci 10 true 1).add
        (((NearF.sci 0 true 1).mul0 hKaT).divC ((NearF.nat 3).mul0 hmuT)
          (mul_ne_zero (by norm_num) hmu0.ne')))
    have eden : ((2 : Nat) : ℝ) * M.mu * (1.0 + (0.0 * M.Ka) / (((3 : Nat) : ℝ) * M.mu)) = 2 * M.mu := by
      norm_num
    rw [eden] at hden
    have hdl := hfT.divC hden (by positivity)
    have hmain := (NearF.sub (S := T) (Near.part hpre Q) ((((NearF.nat 2).mul0 hmuT).mul0 hdl).rmul0 hdir))
    have hval : ∀ i : {i // Q i}, (plasticStep (m i) (eps i) (p i) (al i)).stress v
        = (if v < 3 then sigTrial (m i) (eps i) (p i) v
          + (m i).k * (eps i 0 + eps i 1 + eps i 2) else sigTrial (m i) (eps i) (p i) v)
        - ((2 : Nat) : Fl _) * (m i).mu * (fTrial (m i) (eps i) (p i) (al i) / (((2 : Nat) : Fl _) * (m i).mu
          * (1.0 + (0.0 * (m i).Ka) / (((3 : Nat) : Fl _) * (m i).mu))))
          * (sigTrial (m i) (eps i) (p i) v / sigNorm (sigTrial (m i) (eps i) (p i))) := by
      intro i
      have hlt : Scalar.lt 0 (fTrial (m i) (eps i) (p i) (al i)) = true := (Fl.lt_iff _ _).mpr i.2
      unfold plasticStep
      simp only [hlt, if_true]
      rfl
    refine (Near.congr hmain (fun i => (congrArg Fl.val (hval i)).symm) fun _ => rfl).shift ?_
    obtain ⟨B, hB, bnd⟩ := bnd
    have h4r : 0 < 4 / r := by positivity
    let E := K1 + K2 + K3
    have hE : 3 ≤ E := by show _ ≤ K1 + K2 + K3; linarith
    refine ⟨L + B + (E + K3 * (4 / r) * E + B * E), ?_, fun i hi => ?_⟩
    · have : 0 < K3 * (4 / r) * E := by positivity
      have : 0 < B * E := by positivity
      linarith
    have hu := (S.fp i).u_nonneg
    have hm := S.one_le i
    have hi' : (L + B + (E + K3 * (4 / r) * E + B * E)) * (S.fp i).u ≤ 1 := hi
    have hp1 : 0 < K3 * (4 / r) * E := by positivity
    have hp2 : 0 < B * E := by positivity
    have hEu : E * (S.fp i).u ≤ 1 := by nlinarith
    have g1 := (Near.up (by show K1 ≤ K1 + K2 + K3; linarith) f1 i hEu).1
    have g2 := (Near.up (by show K2 ≤ K1 + K2 + K3; linarith) f2 i hEu).1
    have g3 := (Near.up (by show K3 ≤ K1 + K2 + K3; linarith) f3 i hEu).1
    have g4 := (f3 i (by nlinarith)).2
    have g5 := low i (by nlinarith)
    have g6 := bnd i (by nlinarith)
    rw [pow_zero, mul_one] at g3 g4
    rw [pow_one] at g1 g2
    have g7 : |(Scalar.sqrt (2.0 / ((3 : Nat) : Fl _)) * ((m i).Sy + (m i).Ka * al i)).val
        - yieldRadius M.Sy M.Ka (A i)| ≤ E * (S.fp i).u * S.m i :=
      g3.trans (le_mul_of_one_le_right (by positivity) hm)
    have hres := ret_flow hr (hR i) g5.1 (abs_le_stressNorm (sigTrial M (x i) (P i)) hv) g1 g2 g7 g5.2 g6
    have g8 : yieldRadius M.Sy M.Ka (A i) ≤ K3 := (le_abs_self _).trans g4
    rw [hexact, pow_one]
    have hT : (T.fp i).u = (S.fp i).u := rfl
    have hTm : T.m i = S.m i := rfl
    rw [hT, hTm]
    have ec : ((2 : Nat) : ℝ) * M.mu * (((sigNorm (sigTrial (m i) (eps i) (p i))).val
        - yieldRadius M.Sy M.Ka (A i)) / (2 * M.mu)) = (sigNorm (sigTrial (m i) (eps i) (p i))).val
        - yieldRadius M.Sy M.Ka (A i) := by
      push_cast; field_simp
    rw [ec]
    have ed : ∀ a b c d : ℝ, a + b - c - (d + b) = a - c - d := fun a b c d => by ring
    rw [ed]
    refine hres.trans ?_
    have hw : 0 ≤ E * (S.fp i).u * S.m i := by positivity
    have k1 : yieldRadius M.Sy M.Ka (A i) * (4 / r) * (E * (S.fp i).u * S.m i)
        ≤ K3 * (4 / r) * (E * (S.fp i).u * S.m i) :=
      mul_le_mul_of_nonneg_right (mul_le_mul_of_nonneg_right g8 h4r.le) hw
    have k2 : 0 ≤ (L + B) * ((S.fp i).u * S.m i) := by positivity
    have k3 : (L + B + (E + K3 * (4 / r) * E + B * E)) * (S.fp i).u * S.m i
        = (L + B) * ((S.fp i).u * S.m i) + (E * (S.fp i).u * S.m i
          + K3 * (4 / r) * (E * (S.fp i).u * S.m i) + B * (E * (S.fp i).u * S.m i)) := by ring
    rw [k3]
    linarith
  · -- no flow
    let Q := fun i => ¬ 0 < (fTrial (m i) (eps i) (p i) (al i)).val
    let T := S.part Q
    have hmuT : NearF T 0 (fun i : {i // Q i} => (m i).mu) fun _ => M.mu := Near.part hmu Q
    have hmain := (NearF.sub (S := T) (Near.part hpre Q) ((((NearF.nat 2).mul0 hmuT).mul0
      (NearF.zero 1)).rmul0 (NearF.zero 0)))
    have hval : ∀ i : {i // Q i}, (plasticStep (m i) (eps i) (p i) (al i)).stress v
        = (if v < 3 then sigTrial (m i) (eps i) (p i) v
          + (m i).k * (eps i 0 + eps i 1 + eps i 2) else sigTrial (m i) (eps i) (p i) v)
        - ((2 : Nat) : Fl _) * (m i).mu * 0 * 0 := by
      intro i
      have hlt : ¬ Scalar.lt 0 (fTrial (m i) (eps i) (p i) (al i)) = true := fun h => i.2 ((Fl.lt_iff _ _).mp h)
      unfold plasticStep
      simp only [hlt, if_false]
      rfl
    refine (Near.congr hmain (fun i => (congrArg Fl.val (hval i)).symm) fun _ => rfl).shift ?_
    refine ⟨K4, hK4, fun i hi => ?_⟩
    have hu := (S.fp i).u_nonneg
    have hm := S.one_le i
    have g1 := (f4 i hi).1
    have g2 : (fTrial (m i) (eps i) (p i) (al i)).val ≤ 0 := not_lt.mp i.2
    rw [pow_one] at g1 ⊢
    have hT : (T.fp i).u = (S.fp i).u := rfl
    have hTm : T.m i = S.m i := rfl
    rw [hexact, hT, hTm]
    have ed : ∀ a b c d : ℝ, a + b - c * 0 * 0 - (d + b) = a - d := fun a b c d => by ring
    rw [ed]
    refine ret_stay (hr.trans_le (hR i)) (abs_le_stressNorm (sigTrial M (x i) (P i)) hv) ?_ (by positivity)
    have := (abs_le.mp g1).1
    linarith

end

end Verif.Spec
