import Mathlib.Data.Int.Basic

/-!
# Specification of structured grids

Nodes of an `nx × ny × nz` grid are numbered x fastest.  A row of a structured matrix has one
slot per neighbour offset `(a, b, c) ∈ {-1,0,1}³`, slot number `(a+1) + 3(b+1) + 9(c+1)`
(2D: `(a+1) + 3(b+1)`).  Written without reference to the model.
-/

namespace Verif.Spec

/-- Number of node `(i, j, k)`. -/
def node3 (nx ny i j k : Nat) : Nat := i + nx * (j + ny * k)

/-- Number of node `(i, j)`. -/
def node2 (nx i j : Nat) : Nat := i + nx * j

/-- The neighbour of node `(i,j,k)` designated by slot `s`, if it is inside the grid. -/
def nbr3 (nx ny nz i j k s : Nat) : Option Nat :=
  let I : Int := i + (s % 3 : Nat) - 1
  let J : Int := j + (s / 3 % 3 : Nat) - 1
  let K : Int := k + (s / 9 : Nat) - 1
  if 0 ≤ I ∧ I < nx ∧ 0 ≤ J ∧ J < ny ∧ 0 ≤ K ∧ K < nz then
    some (node3 nx ny I.toNat J.toNat K.toNat)
  else none

/-- The neighbour of node `(i,j)` designated by slot `s`, if it is inside the grid. -/
def nbr2 (nx ny i j s : Nat) : Option Nat :=
  let I : Int := i + (s % 3 : Nat) - 1
  let J : Int := j + (s / 3 : Nat) - 1
  if 0 ≤ I ∧ I < nx ∧ 0 ≤ J ∧ J < ny then some (node2 nx I.toNat J.toNat) else none

/-- Column stored for field `d` of an optional neighbour: its dof, or column 0. -/
def slotCol (nF : Nat) (n : Option Nat) (d : Nat) : Int :=
  match n with
  | some n => ((n * nF + d : Nat) : Int)
  | none => 0

/-- Node `(i,j,k)` lies on the boundary of the grid. -/
def Bdry3 (nx ny nz i j k : Nat) : Prop :=
  i = 0 ∨ i + 1 = nx ∨ j = 0 ∨ j + 1 = ny ∨ k = 0 ∨ k + 1 = nz

/-- Node `(i,j)` lies on the boundary of the grid. -/
def Bdry2 (nx ny i j : Nat) : Prop :=
  i = 0 ∨ i + 1 = nx ∨ j = 0 ∨ j + 1 = ny

instance (nx ny nz i j k : Nat) : Decidable (Bdry3 nx ny nz i j k) := by
  unfold Bdry3; infer_instance
instance (nx ny i j : Nat) : Decidable (Bdry2 nx ny i j) := by
  unfold Bdry2; infer_instance

/-- Dof `r` belongs to a boundary node. -/
def BdryDof3 (nF nx ny nz r : Nat) : Prop :=
  Bdry3 nx ny nz (r / nF % nx) (r / nF / nx % ny) (r / nF / nx / ny)

/-- Dof `r` belongs to a boundary node. -/
def BdryDof2 (nF nx ny r : Nat) : Prop := Bdry2 nx ny (r / nF % nx) (r / nF / nx)

instance (nF nx ny nz r : Nat) : Decidable (BdryDof3 nF nx ny nz r) := by
  unfold BdryDof3; infer_instance
instance (nF nx ny r : Nat) : Decidable (BdryDof2 nF nx ny r) := by
  unfold BdryDof2; infer_instance

/-- Position of corner `a` of an element, x direction.  The corners of a quadrilateral are
listed counter-clockwise `(0,0) (1,0) (1,1) (0,1)`; those of a hexahedron are the bottom ones
followed by the top ones. -/
def cornerX (a : Nat) : Nat := if a % 4 = 1 ∨ a % 4 = 2 then 1 else 0

/-- Position of corner `a`, y direction. -/
def cornerY (a : Nat) : Nat := if a % 4 = 2 ∨ a % 4 = 3 then 1 else 0

/-- Position of corner `a`, z direction. -/
def cornerZ (a : Nat) : Nat := a / 4

/-- Node at corner `a` of element `(ex, ey)`. -/
def enode2 (nx ex ey a : Nat) : Nat := node2 nx (ex + cornerX a) (ey + cornerY a)

/-- Node at corner `a` of element `(ex, ey, ez)`. -/
def enode3 (nx ny ex ey ez a : Nat) : Nat :=
  node3 nx ny (ex + cornerX a) (ey + cornerY a) (ez + cornerZ a)

end Verif.Spec
