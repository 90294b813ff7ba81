import Verif.Lemmas.EllIndex

/-! # The 27 loop nests of `ell_init_3D` (generated by /verif/tools/gen_stencil_lemmas.py) -/

set_option linter.unusedTactic false
set_option linter.unreachableTactic false
set_option linter.unnecessarySeqFocus false

namespace Verif
open Spec

theorem stencil3D_00_eq (nn nx ny : Int) :
    stencil3D_00 nn nx ny = genStencil true false true false true false nn nx ny := by
  simp [stencil3D_00, genStencil, List.range_succ]
  try ring_nf
  try simp

theorem stencil3D_01_eq (nn nx ny : Int) :
    stencil3D_01 nn nx ny = genStencil false true true false true false nn nx ny := by
  simp [stencil3D_01, genStencil, List.range_succ]
  try ring_nf
  try simp

theorem stencil3D_02_eq (nn nx ny : Int) :
    stencil3D_02 nn nx ny = genStencil false true false true true false nn nx ny := by
  simp [stencil3D_02, genStencil, List.range_succ]
  try ring_nf
  try simp

theorem stencil3D_03_eq (nn nx ny : Int) :
    stencil3D_03 nn nx ny = genStencil true false false true true false nn nx ny := by
  simp [stencil3D_03, genStencil, List.range_succ]
  try ring_nf
  try simp

theorem stencil3D_04_eq (nn nx ny : Int) :
    stencil3D_04 nn nx ny = genStencil true false true false false true nn nx ny := by
  simp [stencil3D_04, genStencil, List.range_succ]
  try ring_nf
  try simp

theorem stencil3D_05_eq (nn nx ny : Int) :
    stencil3D_05 nn nx ny = genStencil false true true false false true nn nx ny := by
  simp [stencil3D_05, genStencil, List.range_succ]
  try ring_nf
  try simp

theorem stencil3D_06_eq (nn nx ny : Int) :
    stencil3D_06 nn nx ny = genStencil false true false true false true nn nx ny := by
  simp [stencil3D_06, genStencil, List.range_succ]
  try ring_nf
  try simp

theorem stencil3D_07_eq (nn nx ny : Int) :
    stencil3D_07 nn nx ny = genStencil true false false true false true nn nx ny := by
  simp [stencil3D_07, genStencil, List.range_succ]
  try ring_nf
  try simp

theorem stencil3D_08_eq (nn nx ny : Int) :
    stencil3D_08 nn nx ny = genStencil true false true false false false nn nx ny := by
  simp [stencil3D_08, genStencil, List.range_succ]
  try ring_nf
  try simp

theorem stencil3D_09_eq (nn nx ny : Int) :
    stencil3D_09 nn nx ny = genStencil false true true false false false nn nx ny := by
  simp [stencil3D_09, genStencil, List.range_succ]
  try ring_nf
  try simp

theorem stencil3D_10_eq (nn nx ny : Int) :
    stencil3D_10 nn nx ny = genStencil false true false true false false nn nx ny := by
  simp [stencil3D_10, genStencil, List.range_succ]
  try ring_nf
  try simp

theorem stencil3D_11_eq (nn nx ny : Int) :
    stencil3D_11 nn nx ny = genStencil true false false true false false nn nx ny := by
  simp [stencil3D_11, genStencil, List.range_succ]
  try ring_nf
  try simp

theorem stencil3D_12_eq (nn nx ny : Int) :
    stencil3D_12 nn nx ny = genStencil false false true false true false nn nx ny := by
  simp [stencil3D_12, genStencil, List.range_succ]
  try ring_nf
  try simp

theorem stencil3D_13_eq (nn nx ny : Int) :
    stencil3D_13 nn nx ny = genStencil false false false true true false nn nx ny := by
  simp [stencil3D_13, genStencil, List.range_succ]
  try ring_nf
  try simp

theorem stencil3D_14_eq (nn nx ny : Int) :
    stencil3D_14 nn nx ny = genStencil false false false true false true nn nx ny := by
  simp [stencil3D_14, genStencil, List.range_succ]
  try ring_nf
  try simp

theorem stencil3D_15_eq (nn nx ny : Int) :
    stencil3D_15 nn nx ny = genStencil false false true false false true nn nx ny := by
  simp [stencil3D_15, genStencil, List.range_succ]
  try ring_nf
  try simp

theorem stencil3D_16_eq (nn nx ny : Int) :
    stencil3D_16 nn nx ny = genStencil true false false false true false nn nx ny := by
  simp [stencil3D_16, genStencil, List.range_succ]
  try ring_nf
  try simp

theorem stencil3D_17_eq (nn nx ny : Int) :
    stencil3D_17 nn nx ny = genStencil false true false false true false nn nx ny := by
  simp [stencil3D_17, genStencil, List.range_succ]
  try ring_nf
  try simp

theorem stencil3D_18_eq (nn nx ny : Int) :
    stencil3D_18 nn nx ny = genStencil false true false false false true nn nx ny := by
  simp [stencil3D_18, genStencil, List.range_succ]
  try ring_nf
  try simp

theorem stencil3D_19_eq (nn nx ny : Int) :
    stencil3D_19 nn nx ny = genStencil true false false false false true nn nx ny := by
  simp [stencil3D_19, genStencil, List.range_succ]
  try ring_nf
  try simp

theorem stencil3D_20_eq (nn nx ny : Int) :
    stencil3D_20 nn nx ny = genStencil false false false false true false nn nx ny := by
  simp [stencil3D_20, genStencil, List.range_succ]
  try ring_nf
  try simp

theorem stencil3D_21_eq (nn nx ny : Int) :
    stencil3D_21 nn nx ny = genStencil false false false false false true nn nx ny := by
  simp [stencil3D_21, genStencil, List.range_succ]
  try ring_nf
  try simp

theorem stencil3D_22_eq (nn nx ny : Int) :
    stencil3D_22 nn nx ny = genStencil false false true false false false nn nx ny := by
  simp [stencil3D_22, genStencil, List.range_succ]
  try ring_nf
  try simp

theorem stencil3D_23_eq (nn nx ny : Int) :
    stencil3D_23 nn nx ny = genStencil false false false true false false nn nx ny := by
  simp [stencil3D_23, genStencil, List.range_succ]
  try ring_nf
  try simp

theorem stencil3D_24_eq (nn nx ny : Int) :
    stencil3D_24 nn nx ny = genStencil true false false false false false nn nx ny := by
  simp [stencil3D_24, genStencil, List.range_succ]
  try ring_nf
  try simp

theorem stencil3D_25_eq (nn nx ny : Int) :
    stencil3D_25 nn nx ny = genStencil false true false false false false nn nx ny := by
  simp [stencil3D_25, genStencil, List.range_succ]
  try ring_nf
  try simp

theorem stencil3D_26_eq (nn nx ny : Int) :
    stencil3D_26 nn nx ny = genStencil false false false false false false nn nx ny := by
  simp [stencil3D_26, genStencil, List.range_succ]
  try ring_nf
  try simp

/-- Column stored at index `q`, by the neighbour specification. -/
def colSpec3 (nF nx ny nz q : Nat) : Int :=
  slotCol nF (nbr3 nx ny nz (ixN nF 27 q % nx) (ixN nF 27 q / nx % ny) (ixN nF 27 q / nx / ny)
    (ixS nF 27 q)) (ixD2 nF 27 q)

theorem node3_coords {nx ny i j k : Nat} (hi : i < nx) (hj : j < ny) :
    node3 nx ny i j k % nx = i ∧ node3 nx ny i j k / nx % ny = j ∧
      node3 nx ny i j k / nx / ny = k := by
  have e : node3 nx ny i j k = (k * ny + j) * nx + i := by unfold node3; ring
  rw [e, mul_add_mod' hi, mul_add_div' hi, mul_add_mod' hj, mul_add_div' hj]
  exact ⟨rfl, rfl, rfl⟩

theorem colSpec3_slotIx {nF nx ny nz i j k d s d2 : Nat} (hi : i < nx) (hj : j < ny)
    (hd : d < nF) (hs : s < 27) (h2 : d2 < nF) :
    colSpec3 nF nx ny nz (slotIx nF 27 (node3 nx ny i j k) d s d2)
      = slotCol nF (nbr3 nx ny nz i j k s) d2 := by
  unfold colSpec3
  obtain ⟨e1, e2, e3⟩ := node3_coords (k := k) hi hj
  rw [ixN_slotIx hd hs h2, ixS_slotIx hs h2, ixD2_slotIx h2, e1, e2, e3]

/-- The entries of the rows of node `(i, j, k)`. -/
def NodeRows (nF nx ny i j k q : Nat) : Prop :=
  ∃ d s d2, d < nF ∧ s < 27 ∧ d2 < nF ∧ q = slotIx nF 27 (node3 nx ny i j k) d s d2

theorem fillNode3_setTo {nF nx ny nz i j k : Nat} {tab : List (Option Int)}
    {lx hx ly hy lz hz : Bool}
    (hi : i < nx) (hj : j < ny) (hk : k < nz)
    (ht : tab = genStencil lx hx ly hy lz hz (nodIndex nx ny i j k : Nat) nx ny)
    (elx : lx = true ↔ i = 0) (ehx : hx = true ↔ i + 1 = nx)
    (ely : ly = true ↔ j = 0) (ehy : hy = true ↔ j + 1 = ny)
    (elz : lz = true ↔ k = 0) (ehz : hz = true ↔ k + 1 = nz) :
    SetTo (27 * nF * (nx * ny * nz * nF)) (colSpec3 nF nx ny nz) (NodeRows nF nx ny i j k)
      (fillNode nF (27 * nF) (nodIndex nx ny i j k) tab) := by
  rw [nodIndex_eq] at *
  refine fillNode_setTo (node3_lt hi hj hk) (by rw [ht]; simp [genStencil]) ?_
  intro d s d2 hd hs h2
  rw [colSpec3_slotIx hi hj hd hs h2, ht]
  exact (genStencil_spec hi hj hk hs elx ehx ely ehy elz ehz).symm

theorem ellInit3D_cols {α : Type} (jc : Nat → Int) (jv : Nat → α) {nF nx ny nz : Nat}
    (hx : 2 ≤ nx) (hy : 2 ≤ ny) (hz : 2 ≤ nz) :
    ∃ c : Buf Int, ellInit3D jc jv nF nx ny nz = .ok
        { nrow := nx * ny * nz * nF, ncol := nx * ny * nz * nF, nnz := 27 * nF, cols := c,
          vals := ⟨27 * nF * (nx * ny * nz * nF), jv⟩ } ∧
      c.size = 27 * nF * (nx * ny * nz * nF) ∧
      ∀ q, q < 27 * nF * (nx * ny * nz * nF) → c.val q = colSpec3 nF nx ny nz q := by
  unfold ellInit3D
  have h00 : SetTo (27 * nF * (nx * ny * nz * nF)) (colSpec3 nF nx ny nz)
      (fun q => NodeRows nF nx ny 0 0 0 q)
      (fillNode nF (27 * nF) (nodIndex nx ny 0 0 0) (stencil3D_00 (nodIndex nx ny 0 0 0 : Nat) nx ny)) := by
    exact fillNode3_setTo (by omega) (by omega) (by omega) (stencil3D_00_eq _ _ _)
      (by simp <;> omega) (by simp <;> omega) (by simp <;> omega) (by simp <;> omega) (by simp <;> omega)
      (by simp <;> omega)
  have h01 : SetTo (27 * nF * (nx * ny * nz * nF)) (colSpec3 nF nx ny nz)
      (fun q => NodeRows nF nx ny (nx - 1) 0 0 q)
      (fillNode nF (27 * nF) (nodIndex nx ny (nx - 1) 0 0) (stencil3D_01 (nodIndex nx ny (nx - 1) 0 0 : Nat) nx ny)) := by
    exact fillNode3_setTo (by omega) (by omega) (by omega) (stencil3D_01_eq _ _ _)
      (by simp <;> omega) (by simp <;> omega) (by simp <;> omega) (by simp <;> omega) (by simp <;> omega)
      (by simp <;> omega)
  have h02 : SetTo (27 * nF * (nx * ny * nz * nF)) (colSpec3 nF nx ny nz)
      (fun q => NodeRows nF nx ny (nx - 1) (ny - 1) 0 q)
      (fillNode nF (27 * nF) (nodIndex nx ny (nx - 1) (ny - 1) 0) (stencil3D_02 (nodIndex nx ny (nx - 1) (ny - 1) 0 : Nat) nx ny)) := by
    exact fillNode3_setTo (by omega) (by omega) (by omega) (stencil3D_02_eq _ _ _)
      (by simp <;> omega) (by simp <;> omega) (by simp <;> omega) (by simp <;> omega) (by simp <;> omega)
      (by simp <;> omega)
  have h03 : SetTo (27 * nF * (nx * ny * nz * nF)) (colSpec3 nF nx ny nz)
      (fun q => NodeRows nF nx ny 0 (ny - 1) 0 q)
      (fillNode nF (27 * nF) (nodIndex nx ny 0 (ny - 1) 0) (stencil3D_03 (nodIndex nx ny 0 (ny - 1) 0 : Nat) nx ny)) := by
    exact fillNode3_setTo (by omega) (by omega) (by omega) (stencil3D_03_eq _ _ _)
      (by simp <;> omega) (by simp <;> omega) (by simp <;> omega) (by simp <;> omega) (by simp <;> omega)
      (by simp <;> omega)
  have h04 : SetTo (27 * nF * (nx * ny * nz * nF)) (colSpec3 nF nx ny nz)
      (fun q => NodeRows nF nx ny 0 0 (nz - 1) q)
      (fillNode nF (27 * nF) (nodIndex nx ny 0 0 (nz - 1)) (stencil3D_04 (nodIndex nx ny 0 0 (nz - 1) : Nat) nx ny)) := by
    exact fillNode3_setTo (by omega) (by omega) (by omega) (stencil3D_04_eq _ _ _)
      (by simp <;> omega) (by simp <;> omega) (by simp <;> omega) (by simp <;> omega) (by simp <;> omega)
      (by simp <;> omega)
  have h05 : SetTo (27 * nF * (nx * ny * nz * nF)) (colSpec3 nF nx ny nz)
      (fun q => NodeRows nF nx ny (nx - 1) 0 (nz - 1) q)
      (fillNode nF (27 * nF) (nodIndex nx ny (nx - 1) 0 (nz - 1)) (stencil3D_05 (nodIndex nx ny (nx - 1) 0 (nz - 1) : Nat) nx ny)) := by
    exact fillNode3_setTo (by omega) (by omega) (by omega) (stencil3D_05_eq _ _ _)
      (by simp <;> omega) (by simp <;> omega) (by simp <;> omega) (by simp <;> omega) (by simp <;> omega)
      (by simp <;> omega)
  have h06 : SetTo (27 * nF * (nx * ny * nz * nF)) (colSpec3 nF nx ny nz)
      (fun q => NodeRows nF nx ny (nx - 1) (ny - 1) (nz - 1) q)
      (fillNode nF (27 * nF) (nodIndex nx ny (nx - 1) (ny - 1) (nz - 1)) (stencil3D_06 (nodIndex nx ny (nx - 1) (ny - 1) (nz - 1) : Nat) nx ny)) := by
    exact fillNode3_setTo (by omega) (by omega) (by omega) (stencil3D_06_eq _ _ _)
      (by simp <;> omega) (by simp <;> omega) (by simp <;> omega) (by simp <;> omega) (by simp <;> omega)
      (by simp <;> omega)
  have h07 : SetTo (27 * nF * (nx * ny * nz * nF)) (colSpec3 nF nx ny nz)
      (fun q => NodeRows nF nx ny 0 (ny - 1) (nz - 1) q)
      (fillNode nF (27 * nF) (nodIndex nx ny 0 (ny - 1) (nz - 1)) (stencil3D_07 (nodIndex nx ny 0 (ny - 1) (nz - 1) : Nat) nx ny)) := by
    exact fillNode3_setTo (by omega) (by omega) (by omega) (stencil3D_07_eq _ _ _)
      (by simp <;> omega) (by simp <;> omega) (by simp <;> omega) (by simp <;> omega) (by simp <;> omega)
      (by simp <;> omega)
  have h08 : SetTo (27 * nF * (nx * ny * nz * nF)) (colSpec3 nF nx ny nz)
      (fun q => ∃ k, 1 ≤ k ∧ k < nz - 1 ∧ NodeRows nF nx ny 0 0 k q)
      (fun c => loopFrom 1 (nz - 1) (fun k c => fillNode nF (27 * nF) (nodIndex nx ny 0 0 k) (stencil3D_08 (nodIndex nx ny 0 0 k : Nat) nx ny) c) c) := by
    refine SetTo.loopFrom fun k _ _ => ?_
    exact fillNode3_setTo (by omega) (by omega) (by omega) (stencil3D_08_eq _ _ _)
      (by simp <;> omega) (by simp <;> omega) (by simp <;> omega) (by simp <;> omega) (by simp <;> omega)
      (by simp <;> omega)
  have h09 : SetTo (27 * nF * (nx * ny * nz * nF)) (colSpec3 nF nx ny nz)
      (fun q => ∃ k, 1 ≤ k ∧ k < nz - 1 ∧ NodeRows nF nx ny (nx - 1) 0 k q)
      (fun c => loopFrom 1 (nz - 1) (fun k c => fillNode nF (27 * nF) (nodIndex nx ny (nx - 1) 0 k) (stencil3D_09 (nodIndex nx ny (nx - 1) 0 k : Nat) nx ny) c) c) := by
    refine SetTo.loopFrom fun k _ _ => ?_
    exact fillNode3_setTo (by omega) (by omega) (by omega) (stencil3D_09_eq _ _ _)
      (by simp <;> omega) (by simp <;> omega) (by simp <;> omega) (by simp <;> omega) (by simp <;> omega)
      (by simp <;> omega)
  have h10 : SetTo (27 * nF * (nx * ny * nz * nF)) (colSpec3 nF nx ny nz)
      (fun q => ∃ k, 1 ≤ k ∧ k < nz - 1 ∧ NodeRows nF nx ny (nx - 1) (ny - 1) k q)
      (fun c => loopFrom 1 (nz - 1) (fun k c => fillNode nF (27 * nF) (nodIndex nx ny (nx - 1) (ny - 1) k) (stencil3D_10 (nodIndex nx ny (nx - 1) (ny - 1) k : Nat) nx ny) c) c) := by
    refine SetTo.loopFrom fun k _ _ => ?_
    exact fillNode3_setTo (by omega) (by omega) (by omega) (stencil3D_10_eq _ _ _)
      (by simp <;> omega) (by simp <;> omega) (by simp <;> omega) (by simp <;> omega) (by simp <;> omega)
      (by simp <;> omega)
  have h11 : SetTo (27 * nF * (nx * ny * nz * nF)) (colSpec3 nF nx ny nz)
      (fun q => ∃ k, 1 ≤ k ∧ k < nz - 1 ∧ NodeRows nF nx ny 0 (ny - 1) k q)
      (fun c => loopFrom 1 (nz - 1) (fun k c => fillNode nF (27 * nF) (nodIndex nx ny 0 (ny - 1) k) (stencil3D_11 (nodIndex nx ny 0 (ny - 1) k : Nat) nx ny) c) c) := by
    refine SetTo.loopFrom fun k _ _ => ?_
    exact fillNode3_setTo (by omega) (by omega) (by omega) (stencil3D_11_eq _ _ _)
      (by simp <;> omega) (by simp <;> omega) (by simp <;> omega) (by simp <;> omega) (by simp <;> omega)
      (by simp <;> omega)
  have h12 : SetTo (27 * nF * (nx * ny * nz * nF)) (colSpec3 nF nx ny nz)
      (fun q => ∃ i, 1 ≤ i ∧ i < nx - 1 ∧ NodeRows nF nx ny i 0 0 q)
      (fun c => loopFrom 1 (nx - 1) (fun i c => fillNode nF (27 * nF) (nodIndex nx ny i 0 0) (stencil3D_12 (nodIndex nx ny i 0 0 : Nat) nx ny) c) c) := by
    refine SetTo.loopFrom fun i _ _ => ?_
    exact fillNode3_setTo (by omega) (by omega) (by omega) (stencil3D_12_eq _ _ _)
      (by simp <;> omega) (by simp <;> omega) (by simp <;> omega) (by simp <;> omega) (by simp <;> omega)
      (by simp <;> omega)
  have h13 : SetTo (27 * nF * (nx * ny * nz * nF)) (colSpec3 nF nx ny nz)
      (fun q => ∃ i, 1 ≤ i ∧ i < nx - 1 ∧ NodeRows nF nx ny i (ny - 1) 0 q)
      (fun c => loopFrom 1 (nx - 1) (fun i c => fillNode nF (27 * nF) (nodIndex nx ny i (ny - 1) 0) (stencil3D_13 (nodIndex nx ny i (ny - 1) 0 : Nat) nx ny) c) c) := by
    refine SetTo.loopFrom fun i _ _ => ?_
    exact fillNode3_setTo (by omega) (by omega) (by omega) (stencil3D_13_eq _ _ _)
      (by simp <;> omega) (by simp <;> omega) (by simp <;> omega) (by simp <;> omega) (by simp <;> omega)
      (by simp <;> omega)
  have h14 : SetTo (27 * nF * (nx * ny * nz * nF)) (colSpec3 nF nx ny nz)
      (fun q => ∃ i, 1 ≤ i ∧ i < nx - 1 ∧ NodeRows nF nx ny i (ny - 1) (nz - 1) q)
      (fun c => loopFrom 1 (nx - 1) (fun i c => fillNode nF (27 * nF) (nodIndex nx ny i (ny - 1) (nz - 1)) (stencil3D_14 (nodIndex nx ny i (ny - 1) (nz - 1) : Nat) nx ny) c) c) := by
    refine SetTo.loopFrom fun i _ _ => ?_
    exact fillNode3_setTo (by omega) (by omega) (by omega) (stencil3D_14_eq _ _ _)
      (by simp <;> omega) (by simp <;> omega) (by simp <;> omega) (by simp <;> omega) (by simp <;> omega)
      (by simp <;> omega)
  have h15 : SetTo (27 * nF * (nx * ny * nz * nF)) (colSpec3 nF nx ny nz)
      (fun q => ∃ i, 1 ≤ i ∧ i < nx - 1 ∧ NodeRows nF nx ny i 0 (nz - 1) q)
      (fun c => loopFrom 1 (nx - 1) (fun i c => fillNode nF (27 * nF) (nodIndex nx ny i 0 (nz - 1)) (stencil3D_15 (nodIndex nx ny i 0 (nz - 1) : Nat) nx ny) c) c) := by
    refine SetTo.loopFrom fun i _ _ => ?_
    exact fillNode3_setTo (by omega) (by omega) (by omega) (stencil3D_15_eq _ _ _)
      (by simp <;> omega) (by simp <;> omega) (by simp <;> omega) (by simp <;> omega) (by simp <;> omega)
      (by simp <;> omega)
  have h16 : SetTo (27 * nF * (nx * ny * nz * nF)) (colSpec3 nF nx ny nz)
      (fun q => ∃ j, 1 ≤ j ∧ j < ny - 1 ∧ NodeRows nF nx ny 0 j 0 q)
      (fun c => loopFrom 1 (ny - 1) (fun j c => fillNode nF (27 * nF) (nodIndex nx ny 0 j 0) (stencil3D_16 (nodIndex nx ny 0 j 0 : Nat) nx ny) c) c) := by
    refine SetTo.loopFrom fun j _ _ => ?_
    exact fillNode3_setTo (by omega) (by omega) (by omega) (stencil3D_16_eq _ _ _)
      (by simp <;> omega) (by simp <;> omega) (by simp <;> omega) (by simp <;> omega) (by simp <;> omega)
      (by simp <;> omega)
  have h17 : SetTo (27 * nF * (nx * ny * nz * nF)) (colSpec3 nF nx ny nz)
      (fun q => ∃ j, 1 ≤ j ∧ j < ny - 1 ∧ NodeRows nF nx ny (nx - 1) j 0 q)
      (fun c => loopFrom 1 (ny - 1) (fun j c => fillNode nF (27 * nF) (nodIndex nx ny (nx - 1) j 0) (stencil3D_17 (nodIndex nx ny (nx - 1) j 0 : Nat) nx ny) c) c) := by
    refine SetTo.loopFrom fun j _ _ => ?_
    exact fillNode3_setTo (by omega) (by omega) (by omega) (stencil3D_17_eq _ _ _)
      (by simp <;> omega) (by simp <;> omega) (by simp <;> omega) (by simp <;> omega) (by simp <;> omega)
      (by simp <;> omega)
  have h18 : SetTo (27 * nF * (nx * ny * nz * nF)) (colSpec3 nF nx ny nz)
      (fun q => ∃ j, 1 ≤ j ∧ j < ny - 1 ∧ NodeRows nF nx ny (nx - 1) j (nz - 1) q)
      (fun c => loopFrom 1 (ny - 1) (fun j c => fillNode nF (27 * nF) (nodIndex nx ny (nx - 1) j (nz - 1)) (stencil3D_18 (nodIndex nx ny (nx - 1) j (nz - 1) : Nat) nx ny) c) c) := by
    refine SetTo.loopFrom fun j _ _ => ?_
    exact fillNode3_setTo (by omega) (by omega) (by omega) (stencil3D_18_eq _ _ _)
      (by simp <;> omega) (by simp <;> omega) (by simp <;> omega) (by simp <;> omega) (by simp <;> omega)
      (by simp <;> omega)
  have h19 : SetTo (27 * nF * (nx * ny * nz * nF)) (colSpec3 nF nx ny nz)
      (fun q => ∃ j, 1 ≤ j ∧ j < ny - 1 ∧ NodeRows nF nx ny 0 j (nz - 1) q)
      (fun c => loopFrom 1 (ny - 1) (fun j c => fillNode nF (27 * nF) (nodIndex nx ny 0 j (nz - 1)) (stencil3D_19 (nodIndex nx ny 0 j (nz - 1) : Nat) nx ny) c) c) := by
    refine SetTo.loopFrom fun j _ _ => ?_
    exact fillNode3_setTo (by omega) (by omega) (by omega) (stencil3D_19_eq _ _ _)
      (by simp <;> omega) (by simp <;> omega) (by simp <;> omega) (by simp <;> omega) (by simp <;> omega)
      (by simp <;> omega)
  have h20 : SetTo (27 * nF * (nx * ny * nz * nF)) (colSpec3 nF nx ny nz)
      (fun q => ∃ i, 1 ≤ i ∧ i < nx - 1 ∧ ∃ j, 1 ≤ j ∧ j < ny - 1 ∧ NodeRows nF nx ny i j 0 q)
      (fun c => loopFrom 1 (nx - 1) (fun i c => loopFrom 1 (ny - 1) (fun j c => fillNode nF (27 * nF) (nodIndex nx ny i j 0) (stencil3D_20 (nodIndex nx ny i j 0 : Nat) nx ny) c) c) c) := by
    refine SetTo.loopFrom fun i _ _ => ?_
    refine SetTo.loopFrom fun j _ _ => ?_
    exact fillNode3_setTo (by omega) (by omega) (by omega) (stencil3D_20_eq _ _ _)
      (by simp <;> omega) (by simp <;> omega) (by simp <;> omega) (by simp <;> omega) (by simp <;> omega)
      (by simp <;> omega)
  have h21 : SetTo (27 * nF * (nx * ny * nz * nF)) (colSpec3 nF nx ny nz)
      (fun q => ∃ i, 1 ≤ i ∧ i < nx - 1 ∧ ∃ j, 1 ≤ j ∧ j < ny - 1 ∧ NodeRows nF nx ny i j (nz - 1) q)
      (fun c => loopFrom 1 (nx - 1) (fun i c => loopFrom 1 (ny - 1) (fun j c => fillNode nF (27 * nF) (nodIndex nx ny i j (nz - 1)) (stencil3D_21 (nodIndex nx ny i j (nz - 1) : Nat) nx ny) c) c) c) := by
    refine SetTo.loopFrom fun i _ _ => ?_
    refine SetTo.loopFrom fun j _ _ => ?_
    exact fillNode3_setTo (by omega) (by omega) (by omega) (stencil3D_21_eq _ _ _)
      (by simp <;> omega) (by simp <;> omega) (by simp <;> omega) (by simp <;> omega) (by simp <;> omega)
      (by simp <;> omega)
  have h22 : SetTo (27 * nF * (nx * ny * nz * nF)) (colSpec3 nF nx ny nz)
      (fun q => ∃ i, 1 ≤ i ∧ i < nx - 1 ∧ ∃ k, 1 ≤ k ∧ k < nz - 1 ∧ NodeRows nF nx ny i 0 k q)
      (fun c => loopFrom 1 (nx - 1) (fun i c => loopFrom 1 (nz - 1) (fun k c => fillNode nF (27 * nF) (nodIndex nx ny i 0 k) (stencil3D_22 (nodIndex nx ny i 0 k : Nat) nx ny) c) c) c) := by
    refine SetTo.loopFrom fun i _ _ => ?_
    refine SetTo.loopFrom fun k _ _ => ?_
    exact fillNode3_setTo (by omega) (by omega) (by omega) (stencil3D_22_eq _ _ _)
      (by simp <;> omega) (by simp <;> omega) (by simp <;> omega) (by simp <;> omega) (by simp <;> omega)
      (by simp <;> omega)
  have h23 : SetTo (27 * nF * (nx * ny * nz * nF)) (colSpec3 nF nx ny nz)
      (fun q => ∃ i, 1 ≤ i ∧ i < nx - 1 ∧ ∃ k, 1 ≤ k ∧ k < nz - 1 ∧ NodeRows nF nx ny i (ny - 1) k q)
      (fun c => loopFrom 1 (nx - 1) (fun i c => loopFrom 1 (nz - 1) (fun k c => fillNode nF (27 * nF) (nodIndex nx ny i (ny - 1) k) (stencil3D_23 (nodIndex nx ny i (ny - 1) k : Nat) nx ny) c) c) c) := by
    refine SetTo.loopFrom fun i _ _ => ?_
    refine SetTo.loopFrom fun k _ _ => ?_
    exact fillNode3_setTo (by omega) (by omega) (by omega) (stencil3D_23_eq _ _ _)
      (by simp <;> omega) (by simp <;> omega) (by simp <;> omega) (by simp <;> omega) (by simp <;> omega)
      (by simp <;> omega)
  have h24 : SetTo (27 * nF * (nx * ny * nz * nF)) (colSpec3 nF nx ny nz)
      (fun q => ∃ j, 1 ≤ j ∧ j < ny - 1 ∧ ∃ k, 1 ≤ k ∧ k < nz - 1 ∧ NodeRows nF nx ny 0 j k q)
      (fun c => loopFrom 1 (ny - 1) (fun j c => loopFrom 1 (nz - 1) (fun k c => fillNode nF (27 * nF) (nodIndex nx ny 0 j k) (stencil3D_24 (nodIndex nx ny 0 j k : Nat) nx ny) c) c) c) := by
    refine SetTo.loopFrom fun j _ _ => ?_
    refine SetTo.loopFrom fun k _ _ => ?_
    exact fillNode3_setTo (by omega) (by omega) (by omega) (stencil3D_24_eq _ _ _)
      (by simp <;> omega) (by simp <;> omega) (by simp <;> omega) (by simp <;> omega) (by simp <;> omega)
      (by simp <;> omega)
  have h25 : SetTo (27 * nF * (nx * ny * nz * nF)) (colSpec3 nF nx ny nz)
      (fun q => ∃ j, 1 ≤ j ∧ j < ny - 1 ∧ ∃ k, 1 ≤ k ∧ k < nz - 1 ∧ NodeRows nF nx ny (nx - 1) j k q)
      (fun c => loopFrom 1 (ny - 1) (fun j c => loopFrom 1 (nz - 1) (fun k c => fillNode nF (27 * nF) (nodIndex nx ny (nx - 1) j k) (stencil3D_25 (nodIndex nx ny (nx - 1) j k : Nat) nx ny) c) c) c) := by
    refine SetTo.loopFrom fun j _ _ => ?_
    refine SetTo.loopFrom fun k _ _ => ?_
    exact fillNode3_setTo (by omega) (by omega) (by omega) (stencil3D_25_eq _ _ _)
      (by simp <;> omega) (by simp <;> omega) (by simp <;> omega) (by simp <;> omega) (by simp <;> omega)
      (by simp <;> omega)
  have h26 : SetTo (27 * nF * (nx * ny * nz * nF)) (colSpec3 nF nx ny nz)
      (fun q => ∃ i, 1 ≤ i ∧ i < nx - 1 ∧ ∃ j, 1 ≤ j ∧ j < ny - 1 ∧ ∃ k, 1 ≤ k ∧ k < nz - 1 ∧ NodeRows nF nx ny i j k q)
      (fun c => loopFrom 1 (nx - 1) (fun i c => loopFrom 1 (ny - 1) (fun j c => loopFrom 1 (nz - 1) (fun k c => fillNode nF (27 * nF) (nodIndex nx ny i j k) (stencil3D_26 (nodIndex nx ny i j k : Nat) nx ny) c) c) c) c) := by
    refine SetTo.loopFrom fun i _ _ => ?_
    refine SetTo.loopFrom fun j _ _ => ?_
    refine SetTo.loopFrom fun k _ _ => ?_
    exact fillNode3_setTo (by omega) (by omega) (by omega) (stencil3D_26_eq _ _ _)
      (by simp <;> omega) (by simp <;> omega) (by simp <;> omega) (by simp <;> omega) (by simp <;> omega)
      (by simp <;> omega)
  have H := (SetTo.bind (SetTo.bind (SetTo.bind (SetTo.bind (SetTo.bind (SetTo.bind (SetTo.bind (SetTo.bind (SetTo.bind (SetTo.bind (SetTo.bind (SetTo.bind (SetTo.bind (SetTo.bind (SetTo.bind (SetTo.bind (SetTo.bind (SetTo.bind (SetTo.bind (SetTo.bind (SetTo.bind (SetTo.bind (SetTo.bind (SetTo.bind (SetTo.bind (SetTo.bind h00 h01) h02) h03) h04) h05) h06) h07) h08) h09) h10) h11) h12) h13) h14) h15) h16) h17) h18) h19) h20) h21) h22) h23) h24) h25) h26)
  obtain ⟨c, hc, hsz, hval, -⟩ := H ⟨27 * nF * (nx * ny * nz * nF), jc⟩ rfl
  refine ⟨c, ?_, hsz, ?_⟩
  · have e : ∀ g : Buf Int → M (Ell α), g c = (Except.ok c : M (Buf Int)).bind g := fun _ => rfl
    refine Eq.trans ?_ (e fun c =>
      .ok { nrow := nx * ny * nz * nF, ncol := nx * ny * nz * nF, nnz := 27 * nF, cols := c,
            vals := ⟨27 * nF * (nx * ny * nz * nF), jv⟩ }).symm
    rw [← hc]
    simp only [M_bind_assoc]
    rfl
  · intro q hq
    apply hval
    obtain ⟨hn, hd, hs, h2, e⟩ := slotIx_surj hq
    obtain ⟨i, j, k, hi, hj, hk, en⟩ := node3_surj hn
    have R : NodeRows nF nx ny i j k q := ⟨_, _, _, hd, hs, h2, by rw [← en]; exact e.symm⟩
    clear e en hn hd hs h2 hval hsz hc hq
    have ci : i = 0 ∨ i = nx - 1 ∨ (1 ≤ i ∧ i < nx - 1) := by omega
    have cj : j = 0 ∨ j = ny - 1 ∨ (1 ≤ j ∧ j < ny - 1) := by omega
    have ck : k = 0 ∨ k = nz - 1 ∨ (1 ≤ k ∧ k < nz - 1) := by omega
    rcases ci with rfl | rfl | ⟨i1, i2⟩ <;> rcases cj with rfl | rfl | ⟨j1, j2⟩ <;>
      rcases ck with rfl | rfl | ⟨k1, k2⟩
    · exact Or.inl (Or.inl (Or.inl (Or.inl (Or.inl (Or.inl (Or.inl (Or.inl (Or.inl (Or.inl (Or.inl (Or.inl (Or.inl (Or.inl (Or.inl (Or.inl (Or.inl (Or.inl (Or.inl (Or.inl (Or.inl (Or.inl (Or.inl (Or.inl (Or.inl (Or.inl (R))))))))))))))))))))))))))
    · exact Or.inl (Or.inl (Or.inl (Or.inl (Or.inl (Or.inl (Or.inl (Or.inl (Or.inl (Or.inl (Or.inl (Or.inl (Or.inl (Or.inl (Or.inl (Or.inl (Or.inl (Or.inl (Or.inl (Or.inl (Or.inl (Or.inl (Or.inr R))))))))))))))))))))))
    · exact Or.inl (Or.inl (Or.inl (Or.inl (Or.inl (Or.inl (Or.inl (Or.inl (Or.inl (Or.inl (Or.inl (Or.inl (Or.inl (Or.inl (Or.inl (Or.inl (Or.inl (Or.inl (Or.inr (⟨k, k1, k2, R⟩)))))))))))))))))))
    · exact Or.inl (Or.inl (Or.inl (Or.inl (Or.inl (Or.inl (Or.inl (Or.inl (Or.inl (Or.inl (Or.inl (Or.inl (Or.inl (Or.inl (Or.inl (Or.inl (Or.inl (Or.inl (Or.inl (Or.inl (Or.inl (Or.inl (Or.inl (Or.inr R)))))))))))))))))))))))
    · exact Or.inl (Or.inl (Or.inl (Or.inl (Or.inl (Or.inl (Or.inl (Or.inl (Or.inl (Or.inl (Or.inl (Or.inl (Or.inl (Or.inl (Or.inl (Or.inl (Or.inl (Or.inl (Or.inl (Or.inr R)))))))))))))))))))
    · exact Or.inl (Or.inl (Or.inl (Or.inl (Or.inl (Or.inl (Or.inl (Or.inl (Or.inl (Or.inl (Or.inl (Or.inl (Or.inl (Or.inl (Or.inl (Or.inr (⟨k, k1, k2, R⟩))))))))))))))))
    · exact Or.inl (Or.inl (Or.inl (Or.inl (Or.inl (Or.inl (Or.inl (Or.inl (Or.inl (Or.inl (Or.inr (⟨j, j1, j2, R⟩)))))))))))
    · exact Or.inl (Or.inl (Or.inl (Or.inl (Or.inl (Or.inl (Or.inl (Or.inr (⟨j, j1, j2, R⟩))))))))
    · exact Or.inl (Or.inl (Or.inr (⟨j, j1, j2, ⟨k, k1, k2, R⟩⟩)))
    · exact Or.inl (Or.inl (Or.inl (Or.inl (Or.inl (Or.inl (Or.inl (Or.inl (Or.inl (Or.inl (Or.inl (Or.inl (Or.inl (Or.inl (Or.inl (Or.inl (Or.inl (Or.inl (Or.inl (Or.inl (Or.inl (Or.inl (Or.inl (Or.inl (Or.inl (Or.inr R)))))))))))))))))))))))))
    · exact Or.inl (Or.inl (Or.inl (Or.inl (Or.inl (Or.inl (Or.inl (Or.inl (Or.inl (Or.inl (Or.inl (Or.inl (Or.inl (Or.inl (Or.inl (Or.inl (Or.inl (Or.inl (Or.inl (Or.inl (Or.inl (Or.inr R)))))))))))))))))))))
    · exact Or.inl (Or.inl (Or.inl (Or.inl (Or.inl (Or.inl (Or.inl (Or.inl (Or.inl (Or.inl (Or.inl (Or.inl (Or.inl (Or.inl (Or.inl (Or.inl (Or.inl (Or.inr (⟨k, k1, k2, R⟩))))))))))))))))))
    · exact Or.inl (Or.inl (Or.inl (Or.inl (Or.inl (Or.inl (Or.inl (Or.inl (Or.inl (Or.inl (Or.inl (Or.inl (Or.inl (Or.inl (Or.inl (Or.inl (Or.inl (Or.inl (Or.inl (Or.inl (Or.inl (Or.inl (Or.inl (Or.inl (Or.inr R))))))))))))))))))))))))
    · exact Or.inl (Or.inl (Or.inl (Or.inl (Or.inl (Or.inl (Or.inl (Or.inl (Or.inl (Or.inl (Or.inl (Or.inl (Or.inl (Or.inl (Or.inl (Or.inl (Or.inl (Or.inl (Or.inl (Or.inl (Or.inr R))))))))))))))))))))
    · exact Or.inl (Or.inl (Or.inl (Or.inl (Or.inl (Or.inl (Or.inl (Or.inl (Or.inl (Or.inl (Or.inl (Or.inl (Or.inl (Or.inl (Or.inl (Or.inl (Or.inr (⟨k, k1, k2, R⟩)))))))))))))))))
    · exact Or.inl (Or.inl (Or.inl (Or.inl (Or.inl (Or.inl (Or.inl (Or.inl (Or.inl (Or.inr (⟨j, j1, j2, R⟩))))))))))
    · exact Or.inl (Or.inl (Or.inl (Or.inl (Or.inl (Or.inl (Or.inl (Or.inl (Or.inr (⟨j, j1, j2, R⟩)))))))))
    · exact Or.inl (Or.inr (⟨j, j1, j2, ⟨k, k1, k2, R⟩⟩))
    · exact Or.inl (Or.inl (Or.inl (Or.inl (Or.inl (Or.inl (Or.inl (Or.inl (Or.inl (Or.inl (Or.inl (Or.inl (Or.inl (Or.inl (Or.inr (⟨i, i1, i2, R⟩)))))))))))))))
    · exact Or.inl (Or.inl (Or.inl (Or.inl (Or.inl (Or.inl (Or.inl (Or.inl (Or.inl (Or.inl (Or.inl (Or.inr (⟨i, i1, i2, R⟩))))))))))))
    · exact Or.inl (Or.inl (Or.inl (Or.inl (Or.inr (⟨i, i1, i2, ⟨k, k1, k2, R⟩⟩)))))
    · exact Or.inl (Or.inl (Or.inl (Or.inl (Or.inl (Or.inl (Or.inl (Or.inl (Or.inl (Or.inl (Or.inl (Or.inl (Or.inl (Or.inr (⟨i, i1, i2, R⟩))))))))))))))
    · exact Or.inl (Or.inl (Or.inl (Or.inl (Or.inl (Or.inl (Or.inl (Or.inl (Or.inl (Or.inl (Or.inl (Or.inl (Or.inr (⟨i, i1, i2, R⟩)))))))))))))
    · exact Or.inl (Or.inl (Or.inl (Or.inr (⟨i, i1, i2, ⟨k, k1, k2, R⟩⟩))))
    · exact Or.inl (Or.inl (Or.inl (Or.inl (Or.inl (Or.inl (Or.inr (⟨i, i1, i2, ⟨j, j1, j2, R⟩⟩)))))))
    · exact Or.inl (Or.inl (Or.inl (Or.inl (Or.inl (Or.inr (⟨i, i1, i2, ⟨j, j1, j2, R⟩⟩))))))
    · exact Or.inr (⟨i, i1, i2, ⟨j, j1, j2, ⟨k, k1, k2, R⟩⟩⟩)

end Verif
