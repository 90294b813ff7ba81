import Verif.Lemmas.FeEval2
import Mathlib.Data.Set.Function

/-!
# C47: numbering of elements, nodes and internal variables
-/

namespace Verif.Props
open Verif

/-- Coordinates of the points of an `a × b × c` box. -/
def box (a b c : Nat) : Set (Nat × Nat × Nat) := {p | p.1 < a ∧ p.2.1 < b ∧ p.2.2 < c}

/-- A row-major numbering of a box is a bijection onto an interval. -/
theorem number_bij {a b c : Nat} {f : Nat → Nat → Nat → Nat}
    (hf : ∀ i j k, f i j k = (k * b + j) * a + i) :
    Set.BijOn (fun p : Nat × Nat × Nat => f p.1 p.2.1 p.2.2) (box a b c) (Set.Iio (a * b * c)) := by
  refine ⟨?_, ?_, ?_⟩
  · rintro ⟨i, j, k⟩ ⟨hi, hj, hk⟩
    show f i j k < a * b * c
    rw [hf]
    have h := mul_add_lt (mul_add_lt hk hj) hi
    calc _ < _ := h
      _ = a * b * c := by ring
  · rintro ⟨i, j, k⟩ ⟨hi, hj, hk⟩ ⟨i', j', k'⟩ ⟨hi', hj', hk'⟩ h
    simp only [hf] at h
    simp only at hi hj hi' hj'
    obtain ⟨h1, h2⟩ := mul_add_inj hi hi' h
    obtain ⟨h3, h4⟩ := mul_add_inj hj hj' h1
    rw [h2, h3, h4]
  · intro e he
    have he : e < a * b * c := he
    have ha : 0 < a := Nat.pos_of_ne_zero (by rintro rfl; simp at he)
    have hb : 0 < b := Nat.pos_of_ne_zero (by rintro rfl; simp at he)
    refine ⟨(e % a, e / a % b, e / a / b), ⟨Nat.mod_lt _ ha, Nat.mod_lt _ hb, ?_⟩, ?_⟩
    · show e / a / b < c
      rw [Nat.div_div_eq_div_mul, Nat.div_lt_iff_lt_mul (by positivity), Nat.mul_comm]
      exact he
    · show f _ _ _ = e
      rw [hf, Nat.div_add_mod' (e / a) b, Nat.div_add_mod']

/-- **C47**, elements: `glo_elem3D` numbers the elements of an `nx × ny × nz` grid of nodes by
`0, …, (nx-1)(ny-1)(nz-1) - 1`, each exactly once.  In two dimensions the code uses it with
`ez = 0`, which is the case `nz = 2`. -/
theorem C47_elements (nx ny nz : Nat) :
    Set.BijOn (fun p : Nat × Nat × Nat => gloElem3D nx ny p.1 p.2.1 p.2.2)
      (box (nx - 1) (ny - 1) (nz - 1)) (Set.Iio ((nx - 1) * (ny - 1) * (nz - 1))) :=
  number_bij fun i j k => by unfold gloElem3D; ring

/-- **C47**, elements of a configuration: the image is `[0, nelem)`. -/
theorem C47_nelem {α : Type} [Scalar α] (c : Cfg α) :
    (c.dim = 3 → Set.BijOn (fun p : Nat × Nat × Nat => gloElem3D c.nx c.ny p.1 p.2.1 p.2.2)
      (box (c.nx - 1) (c.ny - 1) (c.nz - 1)) (Set.Iio c.nelem)) ∧
    (c.dim = 2 → Set.BijOn (fun p : Nat × Nat × Nat => gloElem3D c.nx c.ny p.1 p.2.1 p.2.2)
      (box (c.nx - 1) (c.ny - 1) 1) (Set.Iio c.nelem)) := by
  refine ⟨fun h => ?_, fun h => ?_⟩
  · have e : c.nelem = (c.nx - 1) * (c.ny - 1) * (c.nz - 1) := by
      unfold Cfg.nelem; rw [if_neg (by omega)]
    rw [e]; exact C47_elements _ _ _
  · have e : c.nelem = (c.nx - 1) * (c.ny - 1) * (2 - 1) := by
      unfold Cfg.nelem; rw [if_pos h]; ring
    rw [e]; exact C47_elements c.nx c.ny 2

/-- **C47**, nodes: `nod_index` numbers the nodes of a grid by `0, …, nx*ny*nz - 1`, each exactly
once. -/
theorem C47_nodes (nx ny nz : Nat) :
    Set.BijOn (fun p : Nat × Nat × Nat => nodIndex nx ny p.1 p.2.1 p.2.2)
      (box nx ny nz) (Set.Iio (nx * ny * nz)) :=
  number_bij fun i j k => by unfold nodIndex; ring

/-- Element 4 of a `4 × 3 × 3` grid has exactly one position. -/
example : ∃! p : Nat × Nat × Nat, p ∈ box (4 - 1) (3 - 1) (3 - 1) ∧ gloElem3D 4 3 p.1 p.2.1 p.2.2 = 4 := by
  have h := C47_elements 4 3 3
  obtain ⟨p, hp, e⟩ := h.surjOn (show 4 ∈ Set.Iio ((4 - 1) * (3 - 1) * (3 - 1)) by simp)
  exact ⟨p, ⟨hp, e⟩, fun q hq => h.injOn hq.1 hp (hq.2.trans e.symm)⟩

/-- Node 5 of a `4 × 3 × 3` grid has exactly one position. -/
example : ∃! p : Nat × Nat × Nat, p ∈ box 4 3 3 ∧ nodIndex 4 3 p.1 p.2.1 p.2.2 = 5 := by
  have h := C47_nodes 4 3 3
  obtain ⟨p, hp, e⟩ := h.surjOn (show 5 ∈ Set.Iio (4 * 3 * 3) by simp)
  exact ⟨p, ⟨hp, e⟩, fun q hq => h.injOn hq.1 hp (hq.2.trans e.symm)⟩

/-- **C47**, internal variables: `intvar_ix` is a bijection between (element, Gauss point, variable)
and the cells of the buffers of `num_int_vars` entries. -/
theorem C47_intvars {α : Type} [Scalar α] (c : Cfg α) :
    Set.BijOn (fun p : Nat × Nat × Nat => intvarIx p.2.2 p.2.1 p.1)
      (box 7 8 c.nelem) (Set.Iio c.numIntVars) := by
  have e : c.numIntVars = 7 * 8 * c.nelem := by unfold Cfg.numIntVars; ring
  rw [e]
  exact number_bij (f := fun v g e => intvarIx e g v) fun i j k => by unfold intvarIx; ring

/-- On a grid of `4 × 3 × 3` nodes, element `(1, 1, 0)` has number 4, node `(1, 1, 0)` number 5, and
variable 6 of Gauss point 7 of element 2 is cell 167. -/
example : (1, 1, 0) ∈ box (4 - 1) (3 - 1) (3 - 1) ∧ gloElem3D 4 3 1 1 0 = 4 ∧
    (1, 1, 0) ∈ box 4 3 3 ∧ nodIndex 4 3 1 1 0 = 5 ∧ intvarIx 2 7 6 = 167 := by
  refine ⟨?_, rfl, ?_, rfl, rfl⟩ <;> simp [box]

end Verif.Props
