import Verif.Lemmas.Int32

/-!
# C54: 32-bit index arithmetic

`CExpr.run32` evaluates an expression with `int` operations and is `none` on overflow; the tables of
`Verif.Model.Int32Table` hold the integer expressions of /repo/src/ell.cpp.  `Dom W σ` says that the
variables have values they take in the code for a grid with `W` positions per row.
-/

namespace Verif.Props
open CExpr

variable {σ : V → Int}

/-- C54, plane: if the value buffer has fewer than `2^31` entries, every integer expression of the
matrix routines has its mathematical value. -/
theorem C54_plane (D : Dom 9 σ) (hX : σ .nnz * σ .nrow < 2 ^ 31) :
    ∀ o ∈ occCommon ++ occ2D, o.e.run32 σ = some (o.e.eval σ) := by
  intro o ho
  rcases List.mem_append.1 ho with h | h
  · exact (occCommon_fit D hX o h).run
  · exact (occ2D_fit D hX o h).run

/-- C54, space. -/
theorem C54_space (D : Dom 27 σ) (hX : σ .nnz * σ .nrow < 2 ^ 31) :
    ∀ o ∈ occCommon ++ occ3D, o.e.run32 σ = some (o.e.eval σ) := by
  intro o ho
  rcases List.mem_append.1 ho with h | h
  · exact (occCommon_fit D hX o h).run
  · exact (occ3D_fit D hX o h).run

/-- A grid of 206 x 206 x 206 nodes with three fields, its last node, last row, last element. -/
def exInt : V → Int
  | .nx => 206 | .ny => 206 | .nz => 206 | .nF => 3
  | .nnz => 81 | .nn => 8741816 | .nrow => 26225448
  | .node => 8741815 | .row => 26225447 | .slot => 80 | .l => 26
  | .d => 2 | .d1 => 2 | .d2 => 2 | .i => 205 | .j => 205 | .k => 205
  | .ex => 204 | .ey => 204 | .ez => 204 | .bx => 205 | .by => 203
  | .fnnz => 243 | .npe => 8 | .pf => 24 | .pf2 => 72 | .ak => 7 | .an => 7

/-- The hypotheses of `C54_space` hold up to the largest supported cube. -/
example : Dom 27 exInt ∧ exInt .nnz * exInt .nrow < 2 ^ 31 :=
  ⟨by constructor <;> simp [exInt], by simp [exInt]⟩

/-- A grid of 5 x 2 nodes with two fields. -/
def exInt2 : V → Int
  | .nx => 5 | .ny => 2 | .nz => 1 | .nF => 2
  | .nnz => 18 | .nn => 10 | .nrow => 20
  | .node => 9 | .row => 19 | .slot => 17 | .l => 8
  | .d => 1 | .d1 => 1 | .d2 => 1 | .i => 4 | .j => 1 | .k => 0
  | .ex => 3 | .ey => 0 | .ez => 0 | .bx => 4 | .by => 0
  | .fnnz => 36 | .npe => 4 | .pf => 8 | .pf2 => 16 | .ak => 3 | .an => 3

/-- The hypotheses of `C54_plane` hold for it. -/
example : Dom 9 exInt2 ∧ exInt2 .nnz * exInt2 .nrow < 2 ^ 31 :=
  ⟨by constructor <;> simp [exInt2], by simp [exInt2]⟩

/-- The node numbers computed by `ell_add_struct2D` are numbers of nodes, as `Dom` asks of the
variable `node`. -/
theorem C54_nodes_plane (D : Dom 9 σ) (hX : σ .nnz * σ .nrow < 2 ^ 31) :
    ∀ o ∈ nodes2D, 0 ≤ o.e.eval σ ∧ o.e.eval σ < σ .nn := nodes2D_mem D hX

/-- The node numbers computed by the three-dimensional routines are numbers of nodes. -/
theorem C54_nodes_space (D : Dom 27 σ) (hX : σ .nnz * σ .nrow < 2 ^ 31) :
    ∀ o ∈ nodes3D, 0 ≤ o.e.eval σ ∧ o.e.eval σ < σ .nn := nodes3D_mem D hX

/-- The largest supported cube and a plane grid. -/
example : (∀ o ∈ nodes3D, 0 ≤ o.e.eval exInt ∧ o.e.eval exInt < exInt .nn) ∧
    ∀ o ∈ nodes2D, 0 ≤ o.e.eval exInt2 ∧ o.e.eval exInt2 < exInt2 .nn :=
  ⟨C54_nodes_space (by constructor <;> simp [exInt]) (by simp [exInt]),
    C54_nodes_plane (by constructor <;> simp [exInt2]) (by simp [exInt2])⟩

/-- The computation of the number of entries overflows exactly if that number is not below `2^31`:
three dimensions. -/
theorem C54_size_space (hx : 1 ≤ σ .nx) (hy : 1 ≤ σ .ny) (hz : 1 ≤ σ .nz) (hf : 1 ≤ σ .nF) :
    sizeExp3.run32 σ = none ↔ 2 ^ 31 ≤ 27 * σ .nF ^ 2 * σ .nx * σ .ny * σ .nz := by
  have h : PosFit σ sizeExp3 := ((PosFit.lit (by omega)).mul (.var hf)).mul
    ((((PosFit.var hx).mul (.var hy)).mul (.var hz)).mul (.var hf))
  have e : sizeExp3.eval σ = 27 * σ .nF ^ 2 * σ .nx * σ .ny * σ .nz := by
    simp only [sizeExp3, eval]; ring
  rw [h.none_iff, e]

/-- Cubes with three fields: 206 nodes per side are possible, 207 are not. -/
example : sizeExp3.run32 (fun v => if v = .nF then 3 else 206) ≠ none ∧
    sizeExp3.run32 (fun v => if v = .nF then 3 else 207) = none := by
  constructor
  · rw [Ne, C54_size_space (by simp) (by simp) (by simp) (by simp)]; simp
  · rw [C54_size_space (by simp) (by simp) (by simp) (by simp)]; simp

/-- Two dimensions. -/
theorem C54_size_plane (hx : 1 ≤ σ .nx) (hy : 1 ≤ σ .ny) (hf : 1 ≤ σ .nF) :
    sizeExp2.run32 σ = none ↔ 2 ^ 31 ≤ 9 * σ .nF ^ 2 * σ .nx * σ .ny := by
  have h : PosFit σ sizeExp2 := ((PosFit.lit (by omega)).mul (.var hf)).mul
    (((PosFit.var hx).mul (.var hy)).mul (.var hf))
  have e : sizeExp2.eval σ = 9 * σ .nF ^ 2 * σ .nx * σ .ny := by
    simp only [sizeExp2, eval]; ring
  rw [h.none_iff, e]

/-- Squares with two fields: 7723 nodes per side are possible, 7724 are not. -/
example : sizeExp2.run32 (fun v => if v = .nF then 2 else 7723) ≠ none ∧
    sizeExp2.run32 (fun v => if v = .nF then 2 else 7724) = none := by
  constructor
  · rw [Ne, C54_size_plane (by simp) (by simp) (by simp)]; simp
  · rw [C54_size_plane (by simp) (by simp) (by simp)]; simp

/-- A grid of 207 x 207 x 207 nodes with three fields. -/
def exInt207 : V → Int
  | .nx => 207 | .ny => 207 | .nz => 207 | .nF => 3
  | .nnz => 81 | .nn => 8869743 | .nrow => 26609229
  | .node => 8869742 | .row => 26609228 | .slot => 80 | .l => 26
  | .d => 2 | .d1 => 2 | .d2 => 2 | .i => 206 | .j => 206 | .k => 206
  | .ex => 205 | .ey => 205 | .ez => 205 | .bx => 206 | .by => 204
  | .fnnz => 243 | .npe => 8 | .pf => 24 | .pf2 => 72 | .ak => 7 | .an => 7

/-- The hypothesis of `C54_space` is needed: for 207 nodes per side an index overflows. -/
theorem C54_index_overflow :
    ∃ σ : V → Int, σ .nx = 207 ∧ σ .ny = 207 ∧ σ .nz = 207 ∧ σ .nF = 3 ∧ Dom 27 σ ∧
      ∃ o ∈ occCommon ++ occ3D, o.e.run32 σ = none := by
  refine ⟨exInt207, rfl, rfl, rfl, rfl, by constructor <;> simp [exInt207], ?_⟩
  exact ⟨_, List.mem_append_left _ (List.mem_cons_of_mem _ (List.mem_cons_of_mem _
    List.mem_cons_self)), by decide⟩

/-- C54: the first cube with three fields for which the size computation overflows has 207 nodes
per side. -/
theorem C54_cube {n : Int} (hn : 1 ≤ n) (hx : σ .nx = n) (hy : σ .ny = n) (hz : σ .nz = n)
    (hf : σ .nF = 3) : sizeExp3.run32 σ = none ↔ 207 ≤ n := by
  rw [C54_size_space (by omega) (by omega) (by omega) (by omega), hx, hy, hz, hf]
  constructor
  · intro h
    by_contra hc
    have : n ≤ 206 := by omega
    have h2 : n * n ≤ 206 * 206 := mul_le_mul this this (by omega) (by omega)
    have h3 : n * n * n ≤ 206 * 206 * 206 := mul_le_mul h2 this (by omega) (by omega)
    have e : 27 * (3 : Int) ^ 2 * n * n * n = 243 * (n * n * n) := by ring
    omega
  · intro h
    have h2 : 207 * 207 ≤ n * n := mul_le_mul h h (by omega) (by omega)
    have h3 : 207 * 207 * 207 ≤ n * n * n := mul_le_mul h2 h (by omega) (by nlinarith)
    have e : 27 * (3 : Int) ^ 2 * n * n * n = 243 * (n * n * n) := by ring
    omega

/-- A cube with 207 nodes per side. -/
example : sizeExp3.run32 (fun v => if v = .nF then 3 else 207) = none :=
  (C54_cube (n := 207) (by omega) rfl rfl rfl rfl).2 (le_refl _)

end Verif.Props
