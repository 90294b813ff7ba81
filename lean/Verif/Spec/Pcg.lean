import Mathlib.Data.Real.Basic
import Mathlib.Algebra.BigOperators.Group.Finset.Basic
import Mathlib.Analysis.Real.Sqrt

/-!
# Specification: the preconditioned conjugate gradient recurrences

`A` is an operator on vectors with `n` components, `k` a diagonal preconditioner, `b` the right
hand side.  `x j`, `r j`, `p j` are the iterate, residual and search direction number `j`.
-/

namespace Verif.Spec
open Finset

/-- Scalar product of vectors with `n` components. -/
def dot (n : Nat) (u v : Nat → ℝ) : ℝ := ∑ i ∈ range n, u i * v i

/-- Euclidean norm. -/
noncomputable def norm2 (n : Nat) (u : Nat → ℝ) : ℝ := Real.sqrt (dot n u u)

/-- `r · k r`. -/
def rho (n : Nat) (k r : Nat → ℝ) : ℝ := dot n r (fun i => k i * r i)

/-- `N` steps of preconditioned conjugate gradients (residual convention `r = A x - b`). -/
structure Pcg (n : Nat) (A : (Nat → ℝ) → Nat → ℝ) (k b : Nat → ℝ) (N : Nat)
    (x r p : Nat → Nat → ℝ) : Prop where
  r0 : ∀ i, i < n → r 0 i = A (x 0) i - b i
  p0 : 0 < N → ∀ i, i < n → p 0 i = k i * r 0 i
  pS : ∀ j, j + 1 < N → ∀ i, i < n →
    p (j + 1) i = k i * r (j + 1) i + rho n k (r (j + 1)) / rho n k (r j) * p j i
  xS : ∀ j, j < N → ∀ i, i < n →
    x (j + 1) i = x j i - rho n k (r j) / dot n (p j) (A (p j)) * p j i
  rS : ∀ j, j < N → ∀ i, i < n →
    r (j + 1) i = r j i - rho n k (r j) / dot n (p j) (A (p j)) * A (p j) i

/-- The energy functional `x·Ax/2 - b·x`. -/
noncomputable def energy (n : Nat) (A : (Nat → ℝ) → Nat → ℝ) (b x : Nat → ℝ) : ℝ :=
  dot n x (A x) / 2 - dot n b x

/-- `u` vanishes outside the unknowns `I`. -/
def OnI (n : Nat) (I : Finset Nat) (u : Nat → ℝ) : Prop := ∀ i, i < n → i ∉ I → u i = 0

/-- `A` is linear, symmetric and positive definite on the vectors vanishing outside `I`, and is
the identity on the other rows. -/
structure SpdOn (n : Nat) (I : Finset Nat) (A : (Nat → ℝ) → Nat → ℝ) : Prop where
  sub : I ⊆ range n
  local' : ∀ u v, (∀ i, i < n → u i = v i) → ∀ i, i < n → A u i = A v i
  lin : ∀ u v (c : ℝ) i, A (fun j => u j + c * v j) i = A u i + c * A v i
  fixed : ∀ u i, i < n → i ∉ I → A u i = u i
  sym : ∀ u v, OnI n I u → OnI n I v → dot n u (A v) = dot n (A u) v
  pos : ∀ u, OnI n I u → (∃ i, i < n ∧ u i ≠ 0) → 0 < dot n u (A u)

/-- What a run of preconditioned conjugate gradients with iteration limit `maxIts` (at least one
step unless the start is already converged) and absolute tolerance `tol` reports: the number of
steps `N`, the last iterate `xN`, the error `err`. `r j`, `p j` are the residual and direction of
step `j`, `x j` the iterate. -/
structure PcgRun (n : Nat) (A : (Nat → ℝ) → Nat → ℝ) (k b : Nat → ℝ) (maxIts : Int) (tol : ℝ)
    (x0 : Nat → ℝ) (N : Nat) (xN : Nat → ℝ) (err : ℝ) (x r p : Nat → Nat → ℝ) : Prop where
  steps : Pcg n A k b N x r p
  first : x 0 = x0
  last : x N = xN
  notYet : ∀ j, j < N → tol ≤ norm2 n (r j)
  limit : (N : Int) ≤ max 1 maxIts
  stop : (norm2 n (r N) < tol ∧ err = norm2 n (r N) ∧ (N = 0 ∨ (N : Int) < maxIts)) ∨
    (1 ≤ N ∧ maxIts ≤ (N : Int) ∧ err = norm2 n (r (N - 1)))

end Verif.Spec
