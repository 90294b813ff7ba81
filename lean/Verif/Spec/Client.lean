import Verif.Model.Client

/-!
# What the programs in /repo/test are meant to do

Independent of the functions of `Verif.Model.Client`: the load, the public calls of a step, and the
report on `cout`.
-/

namespace Verif.Spec

variable {α : Type} [Scalar α]

/-- The strain grows in step `t`. -/
def Grows (t : Nat) : Prop := t < 30 ∨ (80 ≤ t ∧ t < 130) ∨ 250 ≤ t

instance (t : Nat) : Decidable (Grows t) := by unfold Grows; infer_instance

/-- `e t` is the strain of step `t`: it starts from 0 and changes by 0.01 in each step. -/
structure Ramp (e : Nat → α) : Prop where
  first : e 0 = 0 + 0.01
  next : ∀ t, e (t + 1) = if Grows (t + 1) then e t + 0.01 else e t - 0.01

/-- The strain of step `n - 1` in exact arithmetic, in hundredths: up to 30, down to -20, up to 30,
down to -90, then up without end. -/
def hundredths (n : Nat) : Int :=
  if n ≤ 30 then n else if n ≤ 80 then 60 - n else if n ≤ 130 then n - 100
  else if n ≤ 250 then 160 - n else n - 340

/-- The strain whose only component is `x` in direction `dir`. -/
def uni (dir : Nat) (x : α) : Nat → α := fun v => if v = dir then x else 0

/-- The public calls of a step that change the object or the files. -/
def stepCalls (dir : Nat) (e : Nat → α) (t : Nat) : List (Call α) :=
  [.setStrain 1 (uni dir (e t)), .homogenize, .updateVars, .writeInfo, .output t 1]

/-- The public calls of the first `n` steps. -/
def allCalls (dir : Nat) (e : Nat → α) (n : Nat) : List (Call α) :=
  (List.range n).flatMap (stepCalls dir e)

/-- The report of step `t`: the strain `x` and `w` components of the stress `y`. -/
def stepReport (label : String) (w : Nat) (t : Nat) (x : α) (y : Nat → α) : List (Tok α) :=
  [.str "time step = ", .int t, .endl, .str "eps = ", .num x, .endl, .str label]
    ++ (List.range w).map (fun i => .num (y i)) ++ [.endl, .endl]

/-- The calls of a step of test3d_8, which has the two Gauss points 0 and 1. -/
def stepCalls8 (e : Nat → α) (t : Nat) : List (Call α) :=
  [.setStrain 0 (uni 2 (e t)), .setStrain 1 (uni 2 (e t)), .homogenize, .updateVars, .writeInfo]

/-- The public calls of the first `n` steps of test3d_8. -/
def allCalls8 (e : Nat → α) (n : Nat) : List (Call α) := (List.range n).flatMap (stepCalls8 e)

/-- Six numbers under a heading. -/
def gpReport (gp : Nat) (what : String) (y : Nat → α) : List (Tok α) :=
  [.str "gp = ", .int gp, .str what] ++ (List.range 6).map (fun i => .num (y i)) ++ [.endl]

/-- The report of step `t` of test3d_8. -/
def stepReport8 (t : Nat) (x : Nat → α) (y : Nat → Nat → α) : List (Tok α) :=
  [.str "Time step = ", .int t, .endl, .str "setting strains ...", .endl]
    ++ gpReport 0 " eps = " x ++ gpReport 1 " eps = " x
    ++ [.str "Homogenizing ...", .endl, .str "Getting stresses ...", .endl]
    ++ gpReport 0 " sig = " (y 0) ++ gpReport 1 " sig = " (y 1) ++ [.endl]

/-- After the calls, the Gauss point `id` holds the strain `eps` and the stress `sig`. -/
def Holds (env : Env α) (calls : List (Call α)) (s0 : ObjFiles α) (id : Int) (n : Nat)
    (eps sig : Nat → α) : Prop :=
  ∃ s, run env calls s0 = .ok s ∧ ∃ g ∈ s.obj.gauss, g.id = id ∧
    ∀ i, i < n → g.macroStrain i = eps i ∧ g.macroStress i = sig i

end Verif.Spec
