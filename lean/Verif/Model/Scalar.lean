import Mathlib.Analysis.Real.Sqrt
import Mathlib.Tactic.NormNum

/-!
# Scalars

The whole C++ code is modelled once, over an arbitrary type of scalars that offers the
operations the code uses on `double`.  No laws are assumed: a theorem stated for every
`Scalar α` is in particular a statement about IEEE doubles with rounding, infinities and
NaN.  Numerical theorems are stated for `α = ℝ`.
-/

namespace Verif

/-- The operations on `double` used by /repo/src/*.cpp.  `lt` is the C++ `<`. -/
class Scalar (α : Type) extends Zero α, One α, Add α, Sub α, Mul α, Div α, Neg α,
    NatCast α, OfScientific α where
  sqrt : α → α
  lt : α → α → Bool
  isNaN : α → Bool

-- On `ℝ` and `Float` the usual instances are found first.
attribute [instance 10] Scalar.toZero Scalar.toOne Scalar.toAdd Scalar.toSub Scalar.toMul
  Scalar.toDiv Scalar.toNeg Scalar.toNatCast Scalar.toOfScientific

noncomputable instance : Scalar ℝ where
  sqrt := Real.sqrt
  lt a b := decide (a < b)
  isNaN _ := false

@[simp] theorem sqrt_real (a : ℝ) : Scalar.sqrt a = Real.sqrt a := rfl
@[simp] theorem lt_real (a b : ℝ) : Scalar.lt a b = decide (a < b) := rfl

/-- IEEE double precision: the type the code really computes with. -/
instance : Scalar Float where
  zero := 0
  one := 1
  natCast := Float.ofNat
  sqrt := Float.sqrt
  lt a b := decide (a < b)
  isNaN := Float.isNaN

/-- `fabs` (cmath).  IEEE `fabs` clears the sign bit; up to the sign of zero and of NaN this
is the function below, and the code uses it only inside comparisons. -/
def Scalar.abs {α : Type} [Scalar α] (a : α) : α :=
  if Scalar.lt a 0 then -a else a

theorem abs_real (a : ℝ) : Scalar.abs a = |a| := by
  unfold Scalar.abs
  by_cases h : a < 0
  · simp [h, abs_of_neg h]
  · simp [h, abs_of_nonneg (not_lt.mp h)]

end Verif
