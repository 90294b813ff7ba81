import Verif.Spec.Fp
import Verif.Model.Homogenize

/-!
# Floating-point numbers with infinities and NaN

`NanLaws` states what IEEE 754 says about the propagation of NaN.  `Dbl` is a model of a whole
floating-point type: the numbers of a rounding format up to a largest one, two infinities and NaN.
The two zeros are identified; they differ only in the sign of a quotient by zero.
-/

namespace Verif.Spec
open Verif

/-- An operation with a NaN among its arguments returns NaN; a comparison with NaN is false. -/
class NanLaws (α : Type) [Scalar α] : Prop where
  add_left : ∀ a b : α, Scalar.isNaN a = true → Scalar.isNaN (a + b) = true
  add_right : ∀ a b : α, Scalar.isNaN b = true → Scalar.isNaN (a + b) = true
  sub_left : ∀ a b : α, Scalar.isNaN a = true → Scalar.isNaN (a - b) = true
  sub_right : ∀ a b : α, Scalar.isNaN b = true → Scalar.isNaN (a - b) = true
  mul_left : ∀ a b : α, Scalar.isNaN a = true → Scalar.isNaN (a * b) = true
  mul_right : ∀ a b : α, Scalar.isNaN b = true → Scalar.isNaN (a * b) = true
  div_left : ∀ a b : α, Scalar.isNaN a = true → Scalar.isNaN (a / b) = true
  div_right : ∀ a b : α, Scalar.isNaN b = true → Scalar.isNaN (a / b) = true
  neg : ∀ a : α, Scalar.isNaN a = true → Scalar.isNaN (-a) = true
  sqrt : ∀ a : α, Scalar.isNaN a = true → Scalar.isNaN (Scalar.sqrt a) = true
  lt_left : ∀ a b : α, Scalar.isNaN a = true → Scalar.lt a b = false
  lt_right : ∀ a b : α, Scalar.isNaN b = true → Scalar.lt a b = false

/-- Every stress component, every entry of the tangent and every reported error of a Gauss point is NaN. -/
structure NanResults {α : Type} [Scalar α] (c : Cfg α) (g : Gp α) : Prop where
  stress : ∀ v, v < c.nvoi → Scalar.isNaN (g.macroStress v) = true
  ctan : ∀ v i, v < c.nvoi → i < c.nvoi → Scalar.isNaN (g.macroCtan (v * c.nvoi + i)) = true
  err : ∀ i, i < 1 + c.nvoi → Scalar.isNaN (g.nrErr i) = true

/-- A rounding format with a largest number. -/
structure Range extends Fp where
  /-- the largest finite number -/
  top : ℝ
  one_le : 1 ≤ top

/-- The values of a floating-point type. -/
inductive Dbl (fp : Range) where
  | fin (x : ℝ) (mem : x ∈ fp.F) (le : |x| ≤ fp.top)
  | inf (neg : Bool)
  | nan

namespace Dbl
variable {fp : Range}

/-- Rounding with overflow. -/
noncomputable def round (fp : Range) (x : ℝ) : Dbl fp :=
  open Classical in
  if h : |fp.rnd x| ≤ fp.top then .fin (fp.rnd x) (fp.mem x) h else .inf (decide (x < 0))

/-- The opposite. -/
def opp : Dbl fp → Dbl fp
  | .fin x h1 h2 => .fin (-x) (fp.neg x h1) (by rw [abs_neg]; exact h2)
  | .inf s => .inf (!s)
  | .nan => .nan

/-- Sum. -/
noncomputable def add : Dbl fp → Dbl fp → Dbl fp
  | .nan, _ | _, .nan => .nan
  | .inf s, .inf t => if s = t then .inf s else .nan
  | .inf s, .fin .. => .inf s
  | .fin .., .inf t => .inf t
  | .fin x _ _, .fin y _ _ => round fp (x + y)

/-- Product. -/
noncomputable def mul : Dbl fp → Dbl fp → Dbl fp
  | .nan, _ | _, .nan => .nan
  | .inf s, .inf t => .inf (s ^^ t)
  | .inf s, .fin y _ _ => open Classical in if y = 0 then .nan else .inf (s ^^ decide (y < 0))
  | .fin x _ _, .inf t => open Classical in if x = 0 then .nan else .inf (decide (x < 0) ^^ t)
  | .fin x _ _, .fin y _ _ => round fp (x * y)

/-- Quotient. -/
noncomputable def div : Dbl fp → Dbl fp → Dbl fp
  | .nan, _ | _, .nan => .nan
  | .inf _, .inf _ => .nan
  | .inf s, .fin y _ _ => open Classical in .inf (s ^^ decide (y < 0))
  | .fin .., .inf _ => round fp 0
  | .fin x _ _, .fin y _ _ =>
    open Classical in
    if y = 0 then (if x = 0 then .nan else .inf (decide (x < 0))) else round fp (x / y)

/-- Square root. -/
noncomputable def root : Dbl fp → Dbl fp
  | .nan => .nan
  | .inf s => if s = true then .nan else .inf false
  | .fin x _ _ => open Classical in if x < 0 then .nan else round fp (Real.sqrt x)

/-- The comparison `<`. -/
noncomputable def less : Dbl fp → Dbl fp → Bool
  | .nan, _ | _, .nan => false
  | .inf s, .inf t => s && !t
  | .inf s, .fin .. => s
  | .fin .., .inf t => !t
  | .fin x _ _, .fin y _ _ => open Classical in decide (x < y)

/-- Is it NaN? -/
def isNan : Dbl fp → Bool
  | .nan => true
  | _ => false

/-- Is it a number? -/
def isFin : Dbl fp → Bool
  | .fin .. => true
  | _ => false

end Dbl

noncomputable instance (fp : Range) : Scalar (Dbl fp) where
  zero := .fin 0 fp.zero (by rw [abs_zero]; exact zero_le_one.trans fp.one_le)
  one := .fin 1 fp.one (by rw [abs_one]; exact fp.one_le)
  add := Dbl.add
  sub x y := Dbl.add x (Dbl.opp y)
  mul := Dbl.mul
  div := Dbl.div
  neg := Dbl.opp
  natCast n := Dbl.round fp n
  ofScientific m s e := Dbl.round fp (OfScientific.ofScientific m s e)
  sqrt := Dbl.root
  lt := Dbl.less
  isNaN := Dbl.isNan

end Verif.Spec
