import Verif.Lemmas.FpFe
import Verif.Spec.Rounded
import Verif.Props.Micro

/-!
# Types of the elements in rounded arithmetic
-/

namespace Verif
open Spec

/-- A comparison that is not a tie comes out right when the precision is high enough. -/
theorem Spec.Near.lt {ι : Type} {S : Fam ι} {a b : ι → ℝ} {x y : ℝ} (ha : Near S 0 a fun _ => x)
    (hb : Near S 0 b fun _ => y) (hxy : x ≠ y) :
    ∃ L, 1 ≤ L ∧ ∀ i, L * (S.fp i).u ≤ 1 → (a i < b i ↔ x < y) := by
  obtain ⟨K, hK, h⟩ := Near.both ha hb
  have hd : 0 < |x - y| := abs_pos.mpr (sub_ne_zero.mpr hxy)
  refine ⟨K + 4 * K / |x - y|, by have := div_nonneg (by positivity : 0 ≤ 4 * K) hd.le; linarith,
    fun i hi => ?_⟩
  have hu := (S.fp i).u_nonneg
  have h0 : 0 ≤ 4 * K / |x - y| := by positivity
  have h1 : K * (S.fp i).u ≤ 1 := by nlinarith
  obtain ⟨⟨h2, -⟩, h3, -⟩ := h i h1
  rw [pow_zero, mul_one] at h2 h3
  have h4 : 4 * (K * (S.fp i).u) ≤ |x - y| := by
    have : 4 * K / |x - y| * (S.fp i).u ≤ 1 := by nlinarith [mul_nonneg (by linarith : 0 ≤ K) hu]
    rw [div_mul_eq_mul_div, div_le_one hd] at this
    linarith
  have h5 := abs_le.mp h2
  have h6 := abs_le.mp h3
  by_cases h7 : x < y
  · rw [abs_of_neg (by linarith)] at h4 hd
    exact ⟨fun _ => h7, fun _ => by linarith⟩
  · have h7 : y < x := lt_of_le_of_ne (not_lt.mp h7) (Ne.symm hxy)
    rw [abs_of_pos (by linarith)] at h4 hd
    exact ⟨fun _ => by linarith, fun _ => by linarith⟩

/-- Finitely many thresholds have a common one. -/
theorem exists_common {P : Nat → ℝ → Prop} (hm : ∀ q L L', L ≤ L' → P q L → P q L') {N : Nat}
    (h : ∀ q, q < N → ∃ L, 1 ≤ L ∧ P q L) : ∃ L, 1 ≤ L ∧ ∀ q, q < N → P q L := by
  induction N with
  | zero => exact ⟨1, le_refl _, fun q hq => absurd hq (by omega)⟩
  | succ N ih =>
    obtain ⟨L, hL, h1⟩ := ih fun q hq => h q (by omega)
    obtain ⟨L', -, h2⟩ := h N (by omega)
    refine ⟨max L L', le_trans hL (le_max_left _ _), fun q hq => ?_⟩
    rcases Nat.lt_succ_iff_lt_or_eq.mp hq with hlt | rfl
    · exact hm q _ _ (le_max_left _ _) (h1 q hlt)
    · exact hm q _ _ (le_max_right _ _) h2

/-- Arguments in a format. -/
structure ArgsRun (a : Args ℝ) where
  fp : Fp
  eta : fp.eta ≤ fp.u ^ 2
  a' : Args (Fl fp)
  same : SameArgs a' a

def ArgsRun.fam (a : Args ℝ) : Fam (ArgsRun a) := ⟨ArgsRun.fp, fun _ => 1, fun _ => le_refl _, ArgsRun.eta⟩

/-- Coordinate of the centre of an element as the code computes it. -/
def centreC {α : Type} [Scalar α] (L : α) (n e : Nat) : α :=
  ((e : Nat) : α) * (L / ((n - 1 : Nat) : α)) + L / ((n - 1 : Nat) : α) / ((2 : Nat) : α)

theorem near_par {a : Args ℝ} {i : Nat} (hi : i < 4) :
    NearF (ArgsRun.fam a) 0 (fun R => R.a'.microParams i) fun _ => a.microParams i :=
  (Near.const (S := ArgsRun.fam a) 0 (a.microParams i)).congr
    (fun R => (R.same.microParams i hi).symm) fun _ => rfl

theorem near_centre {a : Args ℝ} {i n : Nat} (hi : i < 4) (hn : 2 ≤ n) (e : Nat) :
    NearF (ArgsRun.fam a) 0 (fun R => centreC (R.a'.microParams i) n e) fun _ =>
      centreC (a.microParams i) n e := by
  have hne : ((n - 1 : Nat) : ℝ) ≠ 0 := by
    have : (n - 1 : Nat) ≠ 0 := by omega
    exact_mod_cast this
  have hd := NearF.divC (near_par (a := a) hi) (NearF.nat (n - 1)) hne
  exact ((NearF.nat e).mul0 hd).add (NearF.divC hd (NearF.nat 2) (by norm_num))

/-- Square of the offset from the centre of the cell. -/
def offC {α : Type} [Scalar α] (L : α) (n e : Nat) : α :=
  (L / ((2 : Nat) : α) - centreC L n e) * (L / ((2 : Nat) : α) - centreC L n e)

theorem near_off {a : Args ℝ} {i n : Nat} (hi : i < 4) (hn : 2 ≤ n) (e : Nat) :
    NearF (ArgsRun.fam a) 0 (fun R => offC (R.a'.microParams i) n e) fun _ =>
      offC (a.microParams i) n e := by
  have h := (NearF.divC (near_par (a := a) hi) (NearF.nat 2) (by norm_num)).sub (near_centre hi hn e)
  exact h.mul0 h

/-- The two sides of the comparison that classifies an element. -/
def lhsC {α : Type} [Scalar α] (a : Args α) (ex ey ez : Nat) : α :=
  if a.microType = 0 then
    (if a.dim = 2 then offC (a.microParams 0) (a.size 0) ex + offC (a.microParams 1) (a.size 1) ey
     else offC (a.microParams 0) (a.size 0) ex + offC (a.microParams 1) (a.size 1) ey
      + offC (a.microParams 2) (a.size 2) ez)
  else centreC (a.microParams 1) (a.size 1) ey

def rhsC {α : Type} [Scalar α] (a : Args α) : α :=
  if a.microType = 0 then a.microParams 3 * a.microParams 3 else a.microParams 3

theorem near_lhs {a : Args ℝ} (ha : a.Ok) (ex ey ez : Nat) :
    NearF (ArgsRun.fam a) 0 (fun R => lhsC R.a' ex ey ez) fun _ => lhsC a ex ey ez := by
  have e : ∀ R : ArgsRun a, lhsC R.a' ex ey ez = if a.microType = 0 then
    (if a.dim = 2 then offC (R.a'.microParams 0) (a.size 0) ex + offC (R.a'.microParams 1) (a.size 1) ey
     else offC (R.a'.microParams 0) (a.size 0) ex + offC (R.a'.microParams 1) (a.size 1) ey
      + offC (R.a'.microParams 2) (a.size 2) ez)
    else centreC (R.a'.microParams 1) (a.size 1) ey := fun R => by
      unfold lhsC
      rw [R.same.microType, R.same.dim, R.same.size, R.same.size, R.same.size]
  unfold lhsC
  refine NearF.congr (a := fun R : ArgsRun a => if a.microType = 0 then
    (if a.dim = 2 then offC (R.a'.microParams 0) (a.size 0) ex + offC (R.a'.microParams 1) (a.size 1) ey
     else offC (R.a'.microParams 0) (a.size 0) ex + offC (R.a'.microParams 1) (a.size 1) ey
      + offC (R.a'.microParams 2) (a.size 2) ez)
    else centreC (R.a'.microParams 1) (a.size 1) ey) ?_ (fun R => (e R).symm) fun _ => rfl
  by_cases hm : a.microType = 0
  · simp only [hm, if_true]
    have h2 := (near_off (a := a) (i := 0) (by omega) ha.nx ex).add (near_off (i := 1) (by omega) ha.ny ey)
    by_cases hd : a.dim = 2
    · simp only [hd, if_true]; exact h2
    · simp only [hd, if_false]
      exact h2.add (near_off (i := 2) (by omega) (ha.nz (by have := ha.dim; omega)) ez)
  · simp only [hm, if_false]
    exact near_centre (by omega) ha.ny ey

theorem near_rhs (a : Args ℝ) : NearF (ArgsRun.fam a) 0 (fun R => rhsC R.a') fun _ => rhsC a := by
  have h := near_par (a := a) (i := 3) (by omega)
  refine NearF.congr (a := fun R : ArgsRun a =>
    if a.microType = 0 then R.a'.microParams 3 * R.a'.microParams 3 else R.a'.microParams 3) ?_
    (fun R => by unfold rhsC; rw [R.same.microType]; rfl) fun _ => rfl
  unfold rhsC
  by_cases hm : a.microType = 0
  · simp only [hm, if_true]; exact h.mul0 h
  · simp only [hm, if_false]; exact h

/-- What the constructor stores. -/
theorem stored_eq {α : Type} [Scalar α] {a : Args α} (ha : a.Ok) {j : Junk α} {c : Cfg α}
    (hb : BuiltFrom a j c) {ex ey ez : Nat} (h0 : ex + 1 < a.size 0) (h1 : ey + 1 < a.size 1)
    (h2 : a.dim = 2 → ez = 0) (h3 : a.dim = 3 → ez + 1 < a.size 2) :
    c.elemType.val (gloElem3D (a.size 0) (a.size 1) ex ey ez)
      = if Scalar.lt (lhsC a ex ey ez) (rhsC a) = true then 1 else 0 := by
  have he := hb.elem
  obtain ⟨et, ct, rfl⟩ := hb.eq
  have e1 := he ex ey ez (by show ex < a.size 0 - 1; omega) (by show ey < a.size 1 - 1; omega) h2
    (fun hd => by
      have hd : a.dim = 3 := hd
      have := h3 hd
      show ez < (if a.dim = 2 then 1 else a.size 2) - 1
      rw [if_neg (by omega)]; omega)
  refine Eq.trans e1 ?_
  have h10 : ¬ (1 : Int) = 0 := by decide
  have h32 : ¬ (3 : Nat) = 2 := by decide
  rcases ha.dim with hd | hd <;> rcases ha.micro with hm | hm
  · simp only [elemTypeOf, getElemType2D, mkCfg, lhsC, rhsC, offC, centreC, hd, hm, if_true]
  · simp only [elemTypeOf, getElemType2D, mkCfg, lhsC, rhsC, centreC, hd, hm, h10, if_true, if_false]
  · simp only [elemTypeOf, getElemType3D, mkCfg, lhsC, rhsC, offC, centreC, hd, hm, h32, if_true, if_false]
  · simp only [elemTypeOf, getElemType3D, mkCfg, lhsC, rhsC, centreC, hd, hm, h10, h32, if_true, if_false]

/-- Exactly. -/
theorem centreC_real {L : ℝ} {n e : Nat} (hn : 2 ≤ n) : centreC L n e = Props.centre L n e :=
  Props.centre_eq hn

theorem lhsC_inc {a : Args ℝ} (ha : a.Ok) (hm : a.microType = 0) (ex ey ez : Nat) :
    Real.sqrt (lhsC a ex ey ez) = Props.offCentre a ex ey ez ∧ 0 ≤ lhsC a ex ey ez := by
  unfold lhsC Props.offCentre offC
  rw [if_pos hm, centreC_real ha.nx, centreC_real ha.ny]
  rcases ha.dim with hd | hd
  · rw [if_pos hd, if_pos hd]
    exact ⟨by congr 1; push_cast; ring, add_nonneg (mul_self_nonneg _) (mul_self_nonneg _)⟩
  · rw [if_neg (by omega), if_neg (by omega), centreC_real (ha.nz hd)]
    exact ⟨by congr 1; push_cast; ring,
      add_nonneg (add_nonneg (mul_self_nonneg _) (mul_self_nonneg _)) (mul_self_nonneg _)⟩

end Verif
