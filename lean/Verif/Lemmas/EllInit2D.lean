import Verif.Lemmas.EllIndex

/-! # The column pattern written by `ell_init_2D` -/

namespace Verif
open Spec

theorem node2_eq (nx i j : Nat) : node2 nx i j = j * nx + i := by unfold node2; ring

theorem node2_lt {nx ny i j : Nat} (hi : i < nx) (hj : j < ny) : node2 nx i j < nx * ny := by
  have h := mul_add_lt hj hi
  rw [node2_eq, Nat.mul_comm nx ny]; exact h

theorem node2_inj {nx i j i' j' : Nat} (hi : i < nx) (hi' : i' < nx) :
    node2 nx i j = node2 nx i' j' ↔ i = i' ∧ j = j' := by
  constructor
  · rw [node2_eq, node2_eq]
    intro h
    obtain ⟨h, h1⟩ := mul_add_inj hi hi' h
    exact ⟨h1, h⟩
  · rintro ⟨rfl, rfl⟩; rfl

theorem node2_surj {nx ny n : Nat} (h : n < nx * ny) :
    ∃ i j, i < nx ∧ j < ny ∧ n = node2 nx i j := by
  have hx : 0 < nx := by
    rcases Nat.eq_zero_or_pos nx with h0 | h0
    · simp [h0] at h
    · exact h0
  exact ⟨n % nx, n / nx, Nat.mod_lt _ hx, Nat.div_lt_of_lt_mul h, by
    unfold node2; rw [Nat.mod_add_div]⟩

theorem node2_coords {nx i j : Nat} (hi : i < nx) :
    node2 nx i j % nx = i ∧ node2 nx i j / nx = j := by
  rw [node2_eq, mul_add_mod' hi, mul_add_div' hi]; exact ⟨rfl, rfl⟩

/-- Uniform description of the nine tables of `ell_init_2D`. -/
def genStencil2 (lx hx ly hy : Bool) (nn nx : Int) : List (Option Int) :=
  (List.range 9).map fun s =>
    if (lx && s % 3 == 0) || (hx && s % 3 == 2) || (ly && s / 3 == 0) || (hy && s / 3 == 2)
      then none
    else some (nn + ((s / 3 : Nat) - 1) * nx + ((s % 3 : Nat) - 1))

theorem genStencil2_getD {lx hx ly hy : Bool} {nn nx : Int} {s : Nat} (hs : s < 9) :
    (genStencil2 lx hx ly hy nn nx).getD s none =
    if (lx && s % 3 == 0) || (hx && s % 3 == 2) || (ly && s / 3 == 0) || (hy && s / 3 == 2)
      then none
    else some (nn + ((s / 3 : Nat) - 1) * nx + ((s % 3 : Nat) - 1)) := by
  unfold genStencil2
  rw [List.getD_eq_getElem?_getD, List.getElem?_map, List.getElem?_range hs]
  rfl

theorem genStencil2_spec {lx hx ly hy : Bool} {nF nx ny i j s d2 : Nat}
    (hi : i < nx) (hj : j < ny) (hs : s < 9)
    (elx : lx = true ↔ i = 0) (ehx : hx = true ↔ i + 1 = nx)
    (ely : ly = true ↔ j = 0) (ehy : hy = true ↔ j + 1 = ny) :
    colVal nF ((genStencil2 lx hx ly hy (node2 nx i j : Nat) nx).getD s none) d2
      = slotCol nF (nbr2 nx ny i j s) d2 := by
  rw [genStencil2_getD hs]
  unfold nbr2
  have ha : s % 3 < 3 := Nat.mod_lt _ (by omega)
  have hb : s / 3 < 3 := by omega
  generalize s % 3 = a at *
  generalize s / 3 = b at *
  have key : ((lx && a == 0) || (hx && a == 2) || (ly && b == 0) || (hy && b == 2)) = true ↔
      ¬ (0 ≤ (i + a - 1 : Int) ∧ (i + a - 1 : Int) < nx ∧ 0 ≤ (j + b - 1 : Int) ∧
        (j + b - 1 : Int) < ny) := by
    simp only [Bool.or_eq_true, Bool.and_eq_true, elx, ehx, ely, ehy, beq_iff_eq]
    omega
  by_cases hin : (0 ≤ (i + a - 1 : Int) ∧ (i + a - 1 : Int) < nx ∧ 0 ≤ (j + b - 1 : Int) ∧
        (j + b - 1 : Int) < ny)
  · rw [if_neg (fun h => (key.mp h) hin)]
    simp only [if_pos hin, colVal, slotCol]
    obtain ⟨h1, h2, h3, h4⟩ := hin
    have e1 := Int.toNat_of_nonneg h1
    have e2 := Int.toNat_of_nonneg h3
    unfold node2
    push_cast
    rw [e1, e2]
    ring
  · rw [if_pos (key.mpr hin)]
    simp only [if_neg hin, colVal, slotCol]

/-- The node classes tested by the if-chain, in coordinates. -/
theorem stencil2D_classes {nx ny i j : Nat} (hx : 2 ≤ nx) (hy : 2 ≤ ny) (hi : i < nx)
    (hj : j < ny) :
    (node2 nx i j = 0 ↔ i = 0 ∧ j = 0) ∧
    (node2 nx i j = nx - 1 ↔ i + 1 = nx ∧ j = 0) ∧
    (node2 nx i j = nx * ny - 1 ↔ i + 1 = nx ∧ j + 1 = ny) ∧
    (node2 nx i j = (ny - 1) * nx ↔ i = 0 ∧ j + 1 = ny) ∧
    (node2 nx i j < nx ↔ j = 0) ∧
    (node2 nx i j > (ny - 1) * nx ↔ 0 < i ∧ j + 1 = ny) ∧
    (node2 nx i j % nx = 0 ↔ i = 0) ∧
    ((node2 nx i j + 1) % nx = 0 ↔ i + 1 = nx) := by
  have e0 : (0 : Nat) = node2 nx 0 0 := by simp [node2]
  have e1 : nx - 1 = node2 nx (nx - 1) 0 := by simp [node2]
  have e2 : nx * ny - 1 = node2 nx (nx - 1) (ny - 1) := by
    unfold node2
    obtain ⟨b, rfl⟩ : ∃ b, ny = b + 1 := ⟨ny - 1, by omega⟩
    rw [Nat.add_sub_cancel, Nat.mul_add]; omega
  have e3 : (ny - 1) * nx = node2 nx 0 (ny - 1) := by unfold node2; ring
  refine ⟨?_, ?_, ?_, ?_, ?_, ?_, ?_, ?_⟩
  · rw [e0, node2_inj hi (by omega), ← e0]
  · conv_lhs => rw [e1]
    rw [node2_inj hi (by omega)]; omega
  · conv_lhs => rw [e2]
    rw [node2_inj hi (by omega)]; omega
  · rw [e3, node2_inj hi (by omega)]; omega
  · rw [node2_eq]
    constructor
    · intro h
      by_contra hne
      have : 1 * nx ≤ j * nx := Nat.mul_le_mul_right _ (by omega)
      omega
    · rintro rfl; omega
  · rw [node2_eq]
    constructor
    · intro h
      have hj1 : j + 1 = ny := by
        by_contra hne
        have : (j + 1) * nx ≤ (ny - 1) * nx := Nat.mul_le_mul_right _ (by omega)
        rw [Nat.add_mul] at this; omega
      have : j = ny - 1 := by omega
      subst this
      exact ⟨by omega, hj1⟩
    · rintro ⟨h, h'⟩
      have : j = ny - 1 := by omega
      subst this; omega
  · rw [(node2_coords hi).1]
  · rw [node2_eq]
    by_cases h : i + 1 = nx
    · have : j * nx + i + 1 = (j + 1) * nx := by rw [Nat.add_mul]; omega
      simp [this, h]
    · rw [Nat.add_assoc, mul_add_mod' (by omega)]; omega

/-- The table selected for node `(i,j)`: the uniform one, except on the right boundary away from
the corners, where slot 7 holds the node itself. -/
theorem stencil2D_eq {nx ny i j : Nat} (hx : 2 ≤ nx) (hy : 2 ≤ ny) (hi : i < nx)
    (hj : j < ny) :
    stencil2D nx ny (node2 nx i j) =
      if i + 1 = nx ∧ 0 < j ∧ j + 1 < ny then
        (genStencil2 (decide (i = 0)) (decide (i + 1 = nx)) (decide (j = 0)) (decide (j + 1 = ny))
          (node2 nx i j : Nat) nx).set 7 (some (node2 nx i j : Nat))
      else genStencil2 (decide (i = 0)) (decide (i + 1 = nx)) (decide (j = 0))
        (decide (j + 1 = ny)) (node2 nx i j : Nat) nx := by
  obtain ⟨c1, c2, c3, c4, c5, c6, c7, c8⟩ := stencil2D_classes hx hy hi hj
  unfold stencil2D
  simp only [c1, c2, c3, c4, c5, c6, c7, c8]
  have ci : (i = 0 ∧ i + 1 ≠ nx) ∨ (i ≠ 0 ∧ i + 1 = nx) ∨ (i ≠ 0 ∧ i + 1 ≠ nx) := by omega
  have cj : (j = 0 ∧ j + 1 ≠ ny) ∨ (j ≠ 0 ∧ j + 1 = ny) ∨ (j ≠ 0 ∧ j + 1 ≠ ny) := by omega
  generalize (node2 nx i j : Int) = nn
  have j3 : 0 < j ↔ ¬ j = 0 := by omega
  have i3 : 0 < i ↔ ¬ i = 0 := by omega
  have j4 : j + 1 < ny ↔ ¬ j + 1 = ny := by omega
  simp only [i3, j3, j4]
  clear c1 c2 c3 c4 c5 c6 c7 c8 i3 j3 j4
  rcases ci with ⟨i1, i2⟩ | ⟨i1, i2⟩ | ⟨i1, i2⟩ <;> rcases cj with ⟨j1, j2⟩ | ⟨j1, j2⟩ | ⟨j1, j2⟩ <;>
    first
      | replace i1 := eq_false i1
      | replace i1 := eq_true i1
  all_goals first
      | replace i2 := eq_false i2
      | replace i2 := eq_true i2
  all_goals first
      | replace j1 := eq_false j1
      | replace j1 := eq_true j1
  all_goals first
      | replace j2 := eq_false j2
      | replace j2 := eq_true j2
  all_goals simp only [i1, i2, j1, j2]
  all_goals simp [genStencil2, List.range_succ]
  all_goals try ring_nf
  all_goals try simp

/-- Column stored at index `q` by `ell_init_2D`: the neighbour specification, except slot 7 of the
right boundary. -/
def colSpec2 (nF nx ny q : Nat) : Int :=
  let n := ixN nF 9 q
  let i := n % nx
  let j := n / nx
  if (i + 1 = nx ∧ 0 < j ∧ j + 1 < ny) ∧ ixS nF 9 q = 7 then
    ((n * nF + ixD2 nF 9 q : Nat) : Int)
  else slotCol nF (nbr2 nx ny i j (ixS nF 9 q)) (ixD2 nF 9 q)

theorem colSpec2_slotIx {nF nx ny i j d s d2 : Nat} (hi : i < nx)
    (hd : d < nF) (hs : s < 9) (h2 : d2 < nF) :
    colSpec2 nF nx ny (slotIx nF 9 (node2 nx i j) d s d2)
      = if (i + 1 = nx ∧ 0 < j ∧ j + 1 < ny) ∧ s = 7 then ((node2 nx i j * nF + d2 : Nat) : Int)
        else slotCol nF (nbr2 nx ny i j s) d2 := by
  unfold colSpec2
  obtain ⟨e1, e2⟩ := node2_coords (j := j) hi
  simp only [ixN_slotIx hd hs h2, ixS_slotIx hs h2, ixD2_slotIx h2, e1, e2]

theorem ellInit2D_cols {α : Type} (jc : Nat → Int) (jv : Nat → α) {nF nx ny : Nat}
    (hx : 2 ≤ nx) (hy : 2 ≤ ny) :
    ∃ c : Buf Int, ellInit2D jc jv nF nx ny = .ok
        { nrow := nx * ny * nF, ncol := nx * ny * nF, nnz := 9 * nF, cols := c,
          vals := ⟨9 * nF * (nx * ny * nF), jv⟩ } ∧
      c.size = 9 * nF * (nx * ny * nF) ∧
      ∀ q, q < 9 * nF * (nx * ny * nF) → c.val q = colSpec2 nF nx ny q := by
  unfold ellInit2D
  have H : SetTo (9 * nF * (nx * ny * nF)) (colSpec2 nF nx ny)
      (fun q => ∃ n, n < nx * ny ∧ ∃ d s d2, d < nF ∧ s < 9 ∧ d2 < nF ∧ q = slotIx nF 9 n d s d2)
      (loop (nx * ny) (fun i c => fillNode nF (9 * nF) i (stencil2D nx ny i) c)) := by
    refine SetTo.loop fun n hn => ?_
    obtain ⟨i, j, hi, hj, rfl⟩ := node2_surj hn
    have es := stencil2D_eq hx hy hi hj
    refine fillNode_setTo hn (by rw [es]; split <;> simp [genStencil2]) ?_
    intro d s d2 hd hs h2
    rw [colSpec2_slotIx hi hd hs h2, es]
    by_cases hb : i + 1 = nx ∧ 0 < j ∧ j + 1 < ny
    · rw [if_pos hb]
      by_cases h7 : s = 7
      · subst h7
        rw [if_pos ⟨hb, rfl⟩, List.getD_eq_getElem?_getD,
          List.getElem?_set_self (by simp [genStencil2])]
        simp [colVal]
      · rw [if_neg (by tauto), List.getD_eq_getElem?_getD, List.getElem?_set_ne (Ne.symm h7),
          ← List.getD_eq_getElem?_getD]
        exact (genStencil2_spec hi hj hs (by simp) (by simp) (by simp) (by simp)).symm
    · rw [if_neg hb, if_neg (by tauto)]
      exact (genStencil2_spec hi hj hs (by simp) (by simp) (by simp) (by simp)).symm
  obtain ⟨c, hc, hsz, hval, -⟩ := H ⟨9 * nF * (nx * ny * nF), jc⟩ rfl
  refine ⟨c, ?_, hsz, ?_⟩
  · simp only []
    rw [hc]; rfl
  · intro q hq
    apply hval
    obtain ⟨hn, hd, hs, h2, e⟩ := slotIx_surj hq
    exact ⟨_, hn, _, _, _, hd, hs, h2, e.symm⟩

end Verif
