import Verif.Lemmas.EllBcOp
import Mathlib.Algebra.BigOperators.Group.List.Basic

/-! # Assembly of lists of elements -/

namespace Verif
open Spec Finset

theorem Ell.eq_of {α : Type} {m : Ell α} {N : Nat} {f : Nat → α} (h : m.vals.size = N)
    (hf : ∀ q, f q = m.vals.val q) : { m with vals := ⟨N, f⟩ } = m := by
  obtain ⟨a, b, c, d, v⟩ := m
  simp only at h hf ⊢
  congr 1
  exact Buf.ext' h.symm hf

/-- Steps that add `w e` to the values of a matrix, run over a list. -/
theorem asm_list {ι : Type} {N : Nat} {w : ι → Nat → ℝ} {f : ι → Ell ℝ → M (Ell ℝ)} {nnz : Nat}
    (l : List ι)
    (hf : ∀ e ∈ l, ∀ m : Ell ℝ, m.nnz = nnz → m.vals.size = N →
      f e m = .ok { m with vals := ⟨N, fun q => m.vals.val q + w e q⟩ })
    (m : Ell ℝ) (hn : m.nnz = nnz) (hs : m.vals.size = N) :
    loopList l f m = .ok { m with
      vals := ⟨N, fun q => m.vals.val q + (l.map (fun e => w e q)).sum⟩ } := by
  induction l generalizing m with
  | nil =>
    simp only [loopList, List.map_nil, List.sum_nil, add_zero]
    rw [Ell.eq_of hs (fun _ => rfl)]
  | cons e l ih =>
    simp only [loopList]
    rw [hf e (by simp) m hn hs, M_bind_ok,
      ih (fun e he => hf e (by simp [he])) _ (by simpa using hn) rfl]
    simp [add_assoc]

end Verif
