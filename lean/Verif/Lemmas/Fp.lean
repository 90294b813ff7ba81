import Verif.Spec.Fp
import Mathlib.Tactic.Linarith

/-! # Rounded arithmetic: the operations on values -/

namespace Verif.Spec.Fl
open Verif

variable {fp : Fp}

@[ext] theorem ext {x y : Fl fp} (h : x.val = y.val) : x = y := by
  cases x; cases y; cases h; rfl

@[simp] theorem round_val (x : ℝ) : (Fl.round fp x).val = fp.rnd x := rfl

@[simp] theorem rnd_val (x : Fl fp) : fp.rnd x.val = x.val := fp.fix _ x.mem

@[simp] theorem val_zero : (0 : Fl fp).val = 0 := rfl
@[simp] theorem val_one : (1 : Fl fp).val = 1 := rfl
@[simp] theorem val_add (x y : Fl fp) : (x + y).val = fp.rnd (x.val + y.val) := rfl
@[simp] theorem val_sub (x y : Fl fp) : (x - y).val = fp.rnd (x.val - y.val) := rfl
@[simp] theorem val_mul (x y : Fl fp) : (x * y).val = fp.rnd (x.val * y.val) := rfl
@[simp] theorem val_neg (x : Fl fp) : (-x).val = -x.val := rfl
@[simp] theorem val_sqrt (x : Fl fp) : (Scalar.sqrt x).val = fp.rnd (Real.sqrt x.val) := rfl
@[simp] theorem val_nat (n : Nat) : ((n : Nat) : Fl fp).val = fp.rnd n := rfl
@[simp] theorem val_sci (m : Nat) (s : Bool) (e : Nat) :
    (OfScientific.ofScientific m s e : Fl fp).val = fp.rnd (OfScientific.ofScientific m s e) := rfl

theorem val_div {x y : Fl fp} (h : y.val ≠ 0) : (x / y).val = fp.rnd (x.val / y.val) := by
  show Fl.val (if y.val = 0 then _ else _) = _
  rw [if_neg h]; rfl

@[simp] theorem lt_iff (x y : Fl fp) : Scalar.lt x y = true ↔ x.val < y.val := by
  show decide (x.val < y.val) = true ↔ _
  rw [decide_eq_true_iff]

@[simp] theorem rnd_zero : fp.rnd 0 = 0 := fp.fix _ fp.zero

theorem rnd_nonneg {x : ℝ} (h : 0 ≤ x) : 0 ≤ fp.rnd x := by
  have := fp.mono h
  rwa [rnd_zero] at this

end Verif.Spec.Fl
