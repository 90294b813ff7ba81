import Verif.Model.Scalar
import Mathlib.Order.Monotone.Basic

/-!
# Rounded arithmetic: specification

A format is a set of representable numbers and a rounding into it.  `Fl fp` is the arithmetic in which
every operation is the exact one followed by the rounding.  What is assumed of a rounding holds for
IEEE binary64 in each of its rounding modes as long as nothing overflows (`Verif.Lemmas.FpBinary`
constructs rounding to nearest): it is monotone, it fixes representable numbers, and its error is
relative to the result down to the smallest numbers.  Results of a division by zero are left open.
-/

namespace Verif.Spec

/-- A floating-point format without largest number. -/
structure Fp where
  /-- the representable numbers -/
  F : Set ℝ
  /-- the rounding -/
  rnd : ℝ → ℝ
  /-- bound on the relative error -/
  u : ℝ
  /-- bound on the error of numbers too small for that -/
  eta : ℝ
  /-- result of a division by zero -/
  divZero : ℝ → ℝ
  mem : ∀ x, rnd x ∈ F
  fix : ∀ x ∈ F, rnd x = x
  mono : Monotone rnd
  err : ∀ x, |rnd x - x| ≤ u * |x| + eta
  zero : (0 : ℝ) ∈ F
  one : (1 : ℝ) ∈ F
  neg : ∀ x ∈ F, -x ∈ F
  divZero_mem : ∀ x, divZero x ∈ F
  u_nonneg : 0 ≤ u
  eta_nonneg : 0 ≤ eta

/-- The representable numbers of a format, as a type. -/
structure Fl (fp : Fp) where
  /-- the real number -/
  val : ℝ
  mem : val ∈ fp.F

/-- Rounding to the type. -/
def Fl.round (fp : Fp) (x : ℝ) : Fl fp := ⟨fp.rnd x, fp.mem x⟩

open Classical in
/-- Every operation is the exact operation followed by a rounding; negation and comparison are exact;
literals and integers are rounded. -/
noncomputable instance (fp : Fp) : Scalar (Fl fp) where
  zero := ⟨0, fp.zero⟩
  one := ⟨1, fp.one⟩
  add x y := Fl.round fp (x.val + y.val)
  sub x y := Fl.round fp (x.val - y.val)
  mul x y := Fl.round fp (x.val * y.val)
  div x y := if y.val = 0 then ⟨fp.divZero x.val, fp.divZero_mem _⟩ else Fl.round fp (x.val / y.val)
  neg x := ⟨-x.val, fp.neg _ x.mem⟩
  natCast n := Fl.round fp n
  ofScientific m s e := Fl.round fp (OfScientific.ofScientific m s e)
  sqrt x := Fl.round fp (Real.sqrt x.val)
  lt x y := decide (x.val < y.val)
  isNaN _ := false

end Verif.Spec
