import Verif.Lemmas.Loop
import Verif.Model.EllInit3D
import Verif.Spec.Grid

/-! # Index arithmetic of structured ELL matrices, and the initialisation routines -/

namespace Verif
open Spec

/-- Index of the value/column of row field `d` of node `n`, slot `s`, column field `d2`;
`W` slots per row. -/
def slotIx (nF W n d s d2 : Nat) : Nat := ((n * nF + d) * W + s) * nF + d2

def ixN (nF W k : Nat) : Nat := k / nF / W / nF
def ixD (nF W k : Nat) : Nat := k / nF / W % nF
def ixS (nF W k : Nat) : Nat := k / nF % W
def ixD2 (nF _W k : Nat) : Nat := k % nF

section
variable {nF W n d s d2 : Nat}

theorem ixD2_slotIx (h2 : d2 < nF) : ixD2 nF W (slotIx nF W n d s d2) = d2 := by
  simp [ixD2, slotIx, mul_add_mod' h2]
theorem ixS_slotIx (hs : s < W) (h2 : d2 < nF) : ixS nF W (slotIx nF W n d s d2) = s := by
  simp [ixS, slotIx, mul_add_div' h2, mul_add_mod' hs]
theorem ixD_slotIx (hd : d < nF) (hs : s < W) (h2 : d2 < nF) :
    ixD nF W (slotIx nF W n d s d2) = d := by
  simp [ixD, slotIx, mul_add_div' h2, mul_add_div' hs, mul_add_mod' hd]
theorem ixN_slotIx (hd : d < nF) (hs : s < W) (h2 : d2 < nF) :
    ixN nF W (slotIx nF W n d s d2) = n := by
  simp [ixN, slotIx, mul_add_div' h2, mul_add_div' hs, mul_add_div' hd]

theorem slotIx_inj {n' d' s' d2' : Nat} (hd : d < nF) (hs : s < W) (h2 : d2 < nF)
    (hd' : d' < nF) (hs' : s' < W) (h2' : d2' < nF) :
    slotIx nF W n d s d2 = slotIx nF W n' d' s' d2' ↔ n = n' ∧ d = d' ∧ s = s' ∧ d2 = d2' := by
  constructor
  · intro h
    obtain ⟨h, e2⟩ := mul_add_inj h2 h2' h
    obtain ⟨h, es⟩ := mul_add_inj hs hs' h
    obtain ⟨h, ed⟩ := mul_add_inj hd hd' h
    exact ⟨h, ed, es, e2⟩
  · rintro ⟨rfl, rfl, rfl, rfl⟩; rfl

theorem slotIx_lt {nn : Nat} (hn : n < nn) (hd : d < nF) (hs : s < W) (h2 : d2 < nF) :
    slotIx nF W n d s d2 < W * nF * (nn * nF) := by
  have h := mul_add_lt (mul_add_lt (mul_add_lt hn hd) hs) h2
  have e : nn * nF * W * nF = W * nF * (nn * nF) := by ring
  unfold slotIx; omega

theorem slotIx_surj {nn k : Nat} (hk : k < W * nF * (nn * nF)) :
    ixN nF W k < nn ∧ ixD nF W k < nF ∧ ixS nF W k < W ∧ ixD2 nF W k < nF ∧
      slotIx nF W (ixN nF W k) (ixD nF W k) (ixS nF W k) (ixD2 nF W k) = k := by
  have hF : 0 < nF := by
    rcases Nat.eq_zero_or_pos nF with h | h
    · simp [h] at hk
    · exact h
  have hW : 0 < W := by
    rcases Nat.eq_zero_or_pos W with h | h
    · simp [h] at hk
    · exact h
  refine ⟨?_, Nat.mod_lt _ hF, Nat.mod_lt _ hW, Nat.mod_lt _ hF, ?_⟩
  · unfold ixN
    rw [Nat.div_div_eq_div_mul, Nat.div_div_eq_div_mul]
    apply Nat.div_lt_of_lt_mul
    exact lt_of_lt_of_eq hk (by ring)
  · unfold slotIx ixN ixD ixS ixD2
    have e1 := Nat.div_add_mod (k / nF / W) nF
    have e2 := Nat.div_add_mod (k / nF) W
    have e3 := Nat.div_add_mod k nF
    rw [Nat.mul_comm (k / nF / W / nF), e1, Nat.mul_comm (k / nF / W), e2,
      Nat.mul_comm (k / nF), e3]

/-- The forms of the index occurring in the code. -/
theorem ix_form_fill : n * nF * (W * nF) + (s * nF + (W * nF) * d + d2) = slotIx nF W n d s d2 := by
  unfold slotIx; ring
theorem ix_form_bc : n * nF * (W * nF) + d * (W * nF) + s * nF + d2 = slotIx nF W n d s d2 := by
  unfold slotIx; ring
theorem ix_form_add : n * (nF * (W * nF)) + d * (W * nF) + s * nF + d2 = slotIx nF W n d s d2 := by
  unfold slotIx; ring
theorem ix_form_diag : n * nF * (W * nF) + s * nF + d * (W * nF) + d2 = slotIx nF W n d s d2 := by
  unfold slotIx; ring
end

/-- `fillNode` writes the whole rows of node `n`. -/
theorem fillNode_setTo {nF W n nn : Nat} {tab : List (Option Int)} {c : Nat → Int}
    (hn : n < nn) (hl : tab.length = W)
    (hc : ∀ d s d2, d < nF → s < W → d2 < nF →
      c (slotIx nF W n d s d2) = colVal nF (tab.getD s none) d2) :
    SetTo (W * nF * (nn * nF)) c
      (fun k => ∃ d s d2, d < nF ∧ s < W ∧ d2 < nF ∧ k = slotIx nF W n d s d2)
      (fillNode nF (W * nF) n tab) := by
  unfold fillNode
  refine (SetTo.loop (S := fun d1 k => ∃ d2, d2 < nF ∧ ∃ s, s < tab.length ∧
    k = n * nF * (W * nF) + (s * nF + W * nF * d1 + d2)) fun d1 h1 =>
    SetTo.loop (S := fun d2 k => ∃ s, s < tab.length ∧
    k = n * nF * (W * nF) + (s * nF + W * nF * d1 + d2)) fun d2 h2 =>
    SetTo.loop fun s hs => SetTo.write ?_ ?_).congr ?_
  · rw [ix_form_fill]; exact slotIx_lt hn h1 (hl ▸ hs) h2
  · rw [ix_form_fill]; exact (hc d1 s d2 h1 (hl ▸ hs) h2).symm
  · intro k
    constructor
    · rintro ⟨d1, h1, d2, h2, s, hs, rfl⟩
      exact ⟨d1, s, d2, h1, hl ▸ hs, h2, ix_form_fill⟩
    · rintro ⟨d1, s, d2, h1, hs, h2, rfl⟩
      exact ⟨d1, h1, d2, h2, s, hl.symm ▸ hs, ix_form_fill.symm⟩

/-! ## 3D -/

/-- A uniform description of the 27 tables: the flags say whether the node touches the low/high
face in each direction. -/
def genStencil (lx hx ly hy lz hz : Bool) (nn nx ny : Int) : List (Option Int) :=
  (List.range 27).map fun s =>
    if (lx && s % 3 == 0) || (hx && s % 3 == 2) || (ly && s / 3 % 3 == 0) || (hy && s / 3 % 3 == 2)
        || (lz && s / 9 == 0) || (hz && s / 9 == 2) then none
    else some (nn + ((s / 9 : Nat) - 1) * (nx * ny) + ((s / 3 % 3 : Nat) - 1) * nx
      + ((s % 3 : Nat) - 1))

theorem genStencil_getD {lx hx ly hy lz hz : Bool} {nn nx ny : Int} {s : Nat} (hs : s < 27) :
    (genStencil lx hx ly hy lz hz nn nx ny).getD s none =
    if (lx && s % 3 == 0) || (hx && s % 3 == 2) || (ly && s / 3 % 3 == 0) || (hy && s / 3 % 3 == 2)
        || (lz && s / 9 == 0) || (hz && s / 9 == 2) then none
    else some (nn + ((s / 9 : Nat) - 1) * (nx * ny) + ((s / 3 % 3 : Nat) - 1) * nx
      + ((s % 3 : Nat) - 1)) := by
  unfold genStencil
  rw [List.getD_eq_getElem?_getD, List.getElem?_map, List.getElem?_range hs]
  rfl

theorem nodIndex_eq (nx ny i j k : Nat) : nodIndex nx ny i j k = node3 nx ny i j k := by
  unfold nodIndex node3; ring

theorem node3_lt {nx ny nz i j k : Nat} (hi : i < nx) (hj : j < ny) (hk : k < nz) :
    node3 nx ny i j k < nx * ny * nz := by
  have h := mul_add_lt (mul_add_lt hk hj) hi
  have e : node3 nx ny i j k = (k * ny + j) * nx + i := by unfold node3; ring
  have e' : nz * ny * nx = nx * ny * nz := by ring
  omega

theorem node3_inj {nx ny i j k i' j' k' : Nat} (hi : i < nx) (hj : j < ny)
    (hi' : i' < nx) (hj' : j' < ny) :
    node3 nx ny i j k = node3 nx ny i' j' k' ↔ i = i' ∧ j = j' ∧ k = k' := by
  have e : ∀ a b c, node3 nx ny a b c = (c * ny + b) * nx + a := by
    intro a b c; unfold node3; ring
  constructor
  · rw [e, e]
    intro h
    obtain ⟨h, h1⟩ := mul_add_inj hi hi' h
    obtain ⟨h, h2⟩ := mul_add_inj hj hj' h
    exact ⟨h1, h2, h⟩
  · rintro ⟨rfl, rfl, rfl⟩; rfl

theorem node3_surj {nx ny nz n : Nat} (h : n < nx * ny * nz) :
    ∃ i j k, i < nx ∧ j < ny ∧ k < nz ∧ n = node3 nx ny i j k := by
  have hx : 0 < nx := by
    rcases Nat.eq_zero_or_pos nx with h0 | h0
    · simp [h0] at h
    · exact h0
  have hy : 0 < ny := by
    rcases Nat.eq_zero_or_pos ny with h0 | h0
    · simp [h0] at h
    · exact h0
  refine ⟨n % nx, n / nx % ny, n / nx / ny, Nat.mod_lt _ hx, Nat.mod_lt _ hy, ?_, ?_⟩
  · rw [Nat.div_div_eq_div_mul]
    exact Nat.div_lt_of_lt_mul h
  · unfold node3
    rw [Nat.mod_add_div, Nat.mod_add_div]

/-- The uniform table is the neighbour specification. -/
theorem genStencil_spec {lx hx ly hy lz hz : Bool} {nF nx ny nz i j k s d2 : Nat}
    (hi : i < nx) (hj : j < ny) (hk : k < nz) (hs : s < 27)
    (elx : lx = true ↔ i = 0) (ehx : hx = true ↔ i + 1 = nx)
    (ely : ly = true ↔ j = 0) (ehy : hy = true ↔ j + 1 = ny)
    (elz : lz = true ↔ k = 0) (ehz : hz = true ↔ k + 1 = nz) :
    colVal nF ((genStencil lx hx ly hy lz hz (node3 nx ny i j k : Nat) nx ny).getD s none) d2
      = slotCol nF (nbr3 nx ny nz i j k s) d2 := by
  rw [genStencil_getD hs]
  unfold nbr3
  have ha : s % 3 < 3 := Nat.mod_lt _ (by omega)
  have hb : s / 3 % 3 < 3 := Nat.mod_lt _ (by omega)
  have hc : s / 9 < 3 := by omega
  generalize s % 3 = a at *
  generalize s / 3 % 3 = b at *
  generalize s / 9 = c at *
  have key : ((lx && a == 0) || (hx && a == 2) || (ly && b == 0) || (hy && b == 2)
        || (lz && c == 0) || (hz && c == 2)) = true ↔
      ¬ (0 ≤ (i + a - 1 : Int) ∧ (i + a - 1 : Int) < nx ∧ 0 ≤ (j + b - 1 : Int) ∧
        (j + b - 1 : Int) < ny ∧ 0 ≤ (k + c - 1 : Int) ∧ (k + c - 1 : Int) < nz) := by
    simp only [Bool.or_eq_true, Bool.and_eq_true, elx, ehx, ely, ehy, elz, ehz, beq_iff_eq]
    omega
  by_cases hin : (0 ≤ (i + a - 1 : Int) ∧ (i + a - 1 : Int) < nx ∧ 0 ≤ (j + b - 1 : Int) ∧
        (j + b - 1 : Int) < ny ∧ 0 ≤ (k + c - 1 : Int) ∧ (k + c - 1 : Int) < nz)
  · rw [if_neg (fun h => (key.mp h) hin)]
    simp only [if_pos hin, colVal, slotCol]
    obtain ⟨h1, h2, h3, h4, h5, h6⟩ := hin
    have e1 := Int.toNat_of_nonneg h1
    have e2 := Int.toNat_of_nonneg h3
    have e3 := Int.toNat_of_nonneg h5
    unfold node3
    push_cast
    rw [e1, e2, e3]
    ring
  · rw [if_pos (key.mpr hin)]
    simp only [if_neg hin, colVal, slotCol]

end Verif
