import Verif.Spec.Fem

/-!
# Reflections and permutations of the axes: specification

Written without the model.
-/

namespace Verif.Spec

/-- Axis `k` of the image is axis `p k` of the original, reversed if `flip k`; `q` is the inverse of
`p`. -/
structure AxisMap where
  p : Nat → Nat
  q : Nat → Nat
  flip : Nat → Bool

namespace AxisMap
variable (a : AxisMap)

/-- A permutation of the axes; in two dimensions the third axis stays. -/
structure Ok (dim : Nat) : Prop where
  lt : ∀ k, k < 3 → a.p k < 3
  qlt : ∀ k, k < 3 → a.q k < 3
  qp : ∀ k, k < 3 → a.q (a.p k) = k
  pq : ∀ k, k < 3 → a.p (a.q k) = k
  two : dim = 2 → a.p 2 = 2 ∧ a.flip 2 = false

/-- Reversal of axis `k`. -/
def mirror (k : Nat) : AxisMap := ⟨fun i => i, fun i => i, fun i => i == k⟩

/-- Exchange of axes `i` and `j`. -/
def swap (i j : Nat) : AxisMap :=
  ⟨fun k => if k = i then j else if k = j then i else k,
   fun k => if k = i then j else if k = j then i else k, fun _ => false⟩

/-- Sign of axis `k`. -/
def sign (k : Nat) : ℝ := if a.flip k then -1 else 1

/-- The axes `(i, j)` of strain component `v`: the first. -/
def fst (dim v : Nat) : Nat := if v < dim then v else if v = dim then 0 else if v = 4 then 0 else 1

/-- The axes `(i, j)` of strain component `v`: the second. -/
def snd (dim v : Nat) : Nat := if v < dim then v else if v = dim then 1 else 2

/-- The strain component of the axes `(i, j)`. -/
def vix (dim i j : Nat) : Nat := if i = j then i else if i + j = 1 then dim else i + j + 2

/-- The strain component of the original that becomes component `v` of the image. -/
def comp (dim v : Nat) : Nat := vix dim (a.p (fst dim v)) (a.p (snd dim v))

/-- The sign with which it does. -/
def csign (dim v : Nat) : ℝ := a.sign (fst dim v) * a.sign (snd dim v)

/-- Image of a strain or stress. -/
def image (dim : Nat) (x : Nat → ℝ) (v : Nat) : ℝ := a.csign dim v * x (a.comp dim v)

end AxisMap

namespace Fe
variable (F : Fe)

/-- The number of elements along axis `k`. -/
def cnt (k : Nat) : Nat := if k = 0 then F.nx - 1 else if k = 1 then F.ny - 1 else F.layers

/-- Position of the image of an element along axis `k`. -/
def mapPos (a : AxisMap) (e : Nat × Nat × Nat) (k : Nat) : Nat :=
  let x := if a.p k = 0 then e.1 else if a.p k = 1 then e.2.1 else e.2.2
  if a.flip k then F.cnt (a.p k) - 1 - x else x

/-- Image of an element. -/
def mapElem (a : AxisMap) (e : Nat × Nat × Nat) : Nat × Nat × Nat :=
  (F.mapPos a e 0, F.mapPos a e 1, F.mapPos a e 2)

/-- `F'` is the image of the grid `F`. -/
structure Image (a : AxisMap) (F' : Fe) : Prop where
  dim : F'.dim = F.dim
  cnt : ∀ k, k < 3 → F'.cnt k = F.cnt (a.p k)
  h : ∀ k, k < F.dim → F'.h k = F.h (a.p k)

end Fe

end Verif.Spec
